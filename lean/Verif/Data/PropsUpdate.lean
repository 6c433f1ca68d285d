import Verif.Data.UpdateLemmas

/-!
# C91: recording changes in the data files (`updatefiles`)
-/

set_option linter.unusedSimpArgs false

namespace PyroMat.Data.Props

open PyroMat PyroMat.Data PyroMat.Data.Spec

theorem winner_single (ow : Bool) (l : List Rec) : winner ow none (l.take 1) = l.head? := by
  cases l <;> cases ow <;> simp [winner]

theorem lookup_none_iff (data : Coll) (k : String) : data.lookup k = none ↔ k ∉ data.map Prod.fst := by
  have := (C25_get data k).2
  rw [← this]
  unfold get
  cases data.lookup k <;> simp

/-- What every data file holds after the update, in terms of what it held before the three last
steps. -/
theorem recorded (u : Update) (hq : u.verbose = false) (hcan : ∀ p, u.can p = true) (ht : Tidy u.places)
    (data : Coll) (hk : Keyed data) (fs fs' : Flat) (dest : String) (hd : NewIn u dest)
    (hroom : Room u.places fs dest data) (h : updatefiles u data fs = (fs', none)) :
    (∀ k r, data.lookup k = some r → home u.places fs dest r ∈ paths u.places ∧
      withId k (onFile u.places fs') = [{ r with fromfile := home u.places fs dest r }]) ∧
    (∀ k, data.lookup k = none → withId k (onFile u.places fs') = []) ∧
    (∀ k f, data.lookup k = none → (withId k (onFile u.places fs)).head? = some f →
      fs' f.fromfile = none ∧ (u.deletefiles = false → fs' (f.fromfile ++ "~") = fs f.fromfile)) ∧
    (u.deletefiles = true → ∀ q ∈ unreadable (allVisits u.cfg.recursive (view u.places fs) u.places.dirs),
      (∀ k r, data.lookup k = some r → withId k (onFile u.places fs) = [] → q ≠ place dest r) → fs' q = none) ∧
    (∀ q, (u.deletefiles = true → q ∉ unreadable (allVisits u.cfg.recursive (view u.places fs) u.places.dirs)) →
      (∀ k r, data.lookup k = some r → withId k (onFile u.places fs) = [] → q ≠ place dest r) →
      (∀ f ∈ onFile u.places fs, q ≠ f.fromfile ++ "~" ∧
        (q = f.fromfile → data.lookup f.id = some f ∧ (withId f.id (onFile u.places fs)).head? = some f)) →
      fs' q = fs q) := by
  obtain ⟨fs1, rep1, hc, hrec, hdel, hfrm, hr⟩ := quiet_prepared u hq hcan ht data hk.distinct fs fs' h
  have D := C23_check_report u.cfg u.reg (view u.places fs1) u.places.dirs data rep1 hk.distinct hc
  have htk := withId_after u.places ht fs fs1 hrec
  -- what is found on file
  let F : String → Option Rec := fun k => (withId k (onFile u.places fs)).head?
  have hfound : ∀ k, rep1.data.lookup k = F k := by
    intro k
    rw [D.onDisk k, records_view _ _ ht, htk k, winner_single]
  have hF : ∀ k f, F k = some f → f ∈ onFile u.places fs ∧ f.id = k := fun k f hf =>
    mem_withId.mp (List.mem_of_mem_head? hf)
  have hFp : ∀ k f, F k = some f → f.fromfile ∈ paths u.places ∧ recordAt fs f.fromfile = some f :=
    fun k f hf => (mem_onFile u.places fs f).mp (hF k f hf).1
  have hFnil : ∀ k, F k = none ↔ withId k (onFile u.places fs) = [] := by
    intro k; simp [F]
  have hex : ∀ k, (∃ r ∈ records (allVisits u.cfg.recursive (view u.places fs1) u.places.dirs), r.id = k) ↔
      F k ≠ none := by
    intro k
    rw [records_view _ _ ht, ← withId_ne_nil, htk k, Ne, Ne, hFnil, List.take_eq_nil_iff]
    simp
  have hadd : ∀ k, k ∈ rep1.added ↔ (∃ r, data.lookup k = some r) ∧ F k = none := by
    intro k
    rw [D.added, hex]
    have := lookup_none_iff data k
    constructor
    · rintro ⟨h1, h2⟩
      refine ⟨?_, by simpa using h2⟩
      exact Option.ne_none_iff_exists'.mp (fun h => (this.mp h) h1)
    · rintro ⟨⟨r, hr⟩, h2⟩
      refine ⟨?_, by simpa using h2⟩
      by_contra hn
      rw [this.mpr hn] at hr
      cases hr
  have hrem : ∀ k, k ∈ rep1.removed ↔ F k ≠ none ∧ data.lookup k = none := by
    intro k; rw [D.removed, hex]
  have hchg : ∀ k, k ∈ rep1.changed ↔ ∃ f r, F k = some f ∧ data.lookup k = some r ∧ r ≠ f := by
    intro k
    rw [D.changed, records_view _ _ ht, htk k]
    have : ((withId k (onFile u.places fs)).take 1).head? = F k := by
      simp only [F]
      cases withId k (onFile u.places fs) <;> simp
    rw [this]
  -- the three steps
  obtain ⟨l1, ha1, ha2⟩ := addStep_writes u dest hd data rep1.added (by
    intro k hm
    obtain ⟨⟨r, hr⟩, -⟩ := (hadd k).mp hm
    rw [hr]; simp)
  obtain ⟨l2, hb1, hb2⟩ := changeStep_writes u data rep1.data rep1.changed (Or.inl hq) (by
    intro k hm
    obtain ⟨f, r, h1, h2, -⟩ := (hchg k).mp hm
    rw [hfound, h1, h2]; simp)
  obtain ⟨l3, hd1, hd2⟩ := removeStep_drops u hq hcan rep1.data rep1.removed (by
    intro k hm
    obtain ⟨h1, -⟩ := (hrem k).mp hm
    obtain ⟨f, hf⟩ := Option.ne_none_iff_exists'.mp h1
    exact ⟨f, by rw [hfound, hf], paths_hpd _ _ (hFp k f hf).1⟩)
  have hwr : ∀ fs, writes u.can l2 (writes u.can l1 fs) = writes u.can (l1 ++ l2) fs := by
    intro fs; simp only [writes, List.foldl_append]
  obtain ⟨fsX, hX1, hX2⟩ := hd1 (writes u.can (l1 ++ l2) fs1)
  have hfs' : fs' = fsX := by
    rw [recordStep, ha1] at hr
    simp only at hr
    rw [hb1] at hr
    simp only at hr
    rw [hwr, hX1] at hr
    exact (Prod.mk.inj hr).1.symm
  subst hfs'
  -- membership in the lists
  have m1 : ∀ x, x ∈ l1 ↔ ∃ k, data.lookup k = some x.2 ∧ F k = none ∧ x.1 = place dest x.2 := by
    intro x
    rw [ha2]
    constructor
    · rintro ⟨k, hm, h1, h2⟩; exact ⟨k, h1, ((hadd k).mp hm).2, h2⟩
    · rintro ⟨k, h1, h2, h3⟩; exact ⟨k, (hadd k).mpr ⟨⟨_, h1⟩, h2⟩, h1, h3⟩
  have m2 : ∀ x, x ∈ l2 ↔ ∃ k f, data.lookup k = some x.2 ∧ F k = some f ∧ x.2 ≠ f ∧ x.1 = f.fromfile := by
    intro x
    rw [hb2]
    constructor
    · rintro ⟨k, hm, h1, f, h2, h3⟩
      rw [hfound] at h2
      obtain ⟨f', r', h4, h5, h6⟩ := (hchg k).mp hm
      rw [h2] at h4; rw [h1] at h5
      cases h4; cases h5
      exact ⟨k, f, h1, h2, h6, h3⟩
    · rintro ⟨k, f, h1, h2, h3, h4⟩
      exact ⟨k, (hchg k).mpr ⟨f, x.2, h2, h1, h3⟩, h1, f, by rw [hfound, h2], h4⟩
  have m3 : ∀ p, p ∈ l3 ↔ ∃ k f, F k = some f ∧ data.lookup k = none ∧ p = f.fromfile := by
    intro p
    rw [hd2]
    constructor
    · rintro ⟨k, hm, f, h2, h3⟩
      rw [hfound] at h2
      exact ⟨k, f, h2, ((hrem k).mp hm).2, h3⟩
    · rintro ⟨k, f, h1, h2, h3⟩
      exact ⟨k, (hrem k).mpr ⟨by rw [h1]; simp, h2⟩, f, by rw [hfound, h1], h3⟩
  -- one record per file: the identifier follows from the file
  have hone : ∀ k f k' f', F k = some f → F k' = some f' → f.fromfile = f'.fromfile → k = k' ∧ f = f' := by
    intro k f k' f' h1 h2 h3
    have : f = f' := onFile_inj u.places ht fs (hF k f h1).1 (hF k' f' h2).1 h3
    refine ⟨?_, this⟩
    rw [← (hF k f h1).2, ← (hF k' f' h2).2, this]
  have hfree : ∀ k r, data.lookup k = some r → F k = none → ∀ k' f, F k' = some f → place dest r ≠ f.fromfile := by
    intro k r h1 h2 k' f h3 h4
    have := (hroom.free k r h1 ((hFnil k).mp h2)).2
    rw [h4, (hFp k' f h3).2] at this
    cases this
  have hmem : ∀ x, x ∈ l1 ++ l2 ↔ x ∈ l1 ∨ x ∈ l2 := fun x => List.mem_append
  have hfun : ∀ x ∈ l1 ++ l2, ∀ y ∈ l1 ++ l2, x.1 = y.1 → x.2 = y.2 := by
    intro x hx y hy hxy
    rcases (hmem x).mp hx with hx | hx <;> rcases (hmem y).mp hy with hy | hy
    · obtain ⟨k, a1, a2, a3⟩ := (m1 x).mp hx
      obtain ⟨k', b1, b2, b3⟩ := (m1 y).mp hy
      have := hroom.own k x.2 k' y.2 a1 b1 ((hFnil k).mp a2) ((hFnil k').mp b2) (by rw [← a3, ← b3, hxy])
      subst this
      rw [a1] at b1; exact Option.some.inj b1
    · obtain ⟨k, a1, a2, a3⟩ := (m1 x).mp hx
      obtain ⟨k', f, b1, b2, -, b3⟩ := (m2 y).mp hy
      exact absurd (by rw [← a3, ← b3, hxy]) (hfree k x.2 a1 a2 k' f b2)
    · obtain ⟨k, a1, a2, a3⟩ := (m1 y).mp hy
      obtain ⟨k', f, b1, b2, -, b3⟩ := (m2 x).mp hx
      exact absurd (by rw [← a3, ← b3, hxy]) (hfree k y.2 a1 a2 k' f b2)
    · obtain ⟨k, f, a1, a2, -, a3⟩ := (m2 x).mp hx
      obtain ⟨k', f', b1, b2, -, b3⟩ := (m2 y).mp hy
      obtain ⟨rfl, -⟩ := hone k f k' f' a2 b2 (by rw [← a3, ← b3, hxy])
      rw [a1] at b1; exact Option.some.inj b1
  -- files written are not dropped
  have hnd : ∀ x ∈ l1 ++ l2, x.1 ∉ l3 := by
    intro x hx hm
    obtain ⟨k', f', c1, c2, c3⟩ := (m3 x.1).mp hm
    rcases (hmem x).mp hx with hx | hx
    · obtain ⟨k, a1, a2, a3⟩ := (m1 x).mp hx
      exact hfree k x.2 a1 a2 k' f' c1 (by rw [← a3, c3])
    · obtain ⟨k, f, a1, a2, -, a3⟩ := (m2 x).mp hx
      obtain ⟨rfl, -⟩ := hone k f k' f' a2 c1 (by rw [← a3, c3])
      rw [a1] at c2; cases c2
  have hl3 : ∀ p ∈ l3, HasExt p ".hpd" := by
    intro p hp
    obtain ⟨k', f', c1, c2, rfl⟩ := (m3 p).mp hp
    exact paths_hpd _ _ (hFp k' f' c1).1
  -- the file system afterwards, file by file
  have hW : ∀ x ∈ l1 ++ l2, x.1 ∈ paths u.places → recordAt fs' x.1 = some { x.2 with fromfile := x.1 } := by
    intro x hx hp
    apply recordAt_content
    rw [hX2.rest x.1 (hnd x hx) (fun p hp' => hpd_ne_tilde (paths_hpd _ _ hp) (hl3 p hp'))]
    exact writes_at u.can hcan (l1 ++ l2) hfun x hx fs1
  have hO : ∀ p ∈ paths u.places, p ∉ l3 → (∀ x ∈ l1 ++ l2, x.1 ≠ p) → recordAt fs' p = recordAt fs1 p := by
    intro p hp h1 h2
    unfold recordAt
    rw [hX2.rest p h1 (fun q hq => hpd_ne_tilde (paths_hpd _ _ hp) (hl3 q hq)), writes_frame u.can _ p h2 fs1]
  have hZ : ∀ p ∈ l3, recordAt fs' p = none := by
    intro p hp
    unfold recordAt
    rw [hX2.gone p hp]
  -- a record of the state in between is the one found
  have hmid : ∀ p ∈ paths u.places, ∀ R, recordAt fs1 p = some R → F R.id = some R ∧ R.fromfile = p := by
    intro p hp R hR
    have hfrom : R.fromfile = p := by
      unfold recordAt at hR
      split at hR
      · cases hR; rfl
      · cases hR
    have : R ∈ withId R.id (onFile u.places fs1) := by
      rw [mem_withId, mem_onFile, hfrom]
      exact ⟨⟨hp, hR⟩, rfl⟩
    rw [htk] at this
    refine ⟨?_, hfrom⟩
    simp only [F]
    cases hw : withId R.id (onFile u.places fs) with
    | nil => rw [hw] at this; simp at this
    | cons a l => rw [hw] at this; simp at this; simp [this]
  have hmid' : ∀ k f, F k = some f → recordAt fs1 f.fromfile = some f := by
    intro k f hf
    have : f ∈ withId k (onFile u.places fs1) := by
      rw [htk]
      simp only [F] at hf
      cases hw : withId k (onFile u.places fs) with
      | nil => rw [hw] at hf; cases hf
      | cons a l => rw [hw] at hf; simp at hf; simp [hf]
    exact ((mem_onFile _ fs1 f).mp (mem_withId.mp this).1).2
  have hhome : ∀ k r, data.lookup k = some r → home u.places fs dest r =
      (match F k with | some f => f.fromfile | none => place dest r) := by
    intro k r h1
    rw [home, hk.own k r h1]
    rfl
  have hvict : ∀ q, (∀ f ∈ onFile u.places fs, q = f.fromfile →
      (withId f.id (onFile u.places fs)).head? = some f) → ¬ Victim u.places fs q := by
    intro q hqf
    rintro ⟨k, hv⟩
    obtain ⟨r, hr, hrq⟩ := List.mem_map.mp hv
    have hr' := mem_withId.mp (List.mem_of_mem_tail hr)
    have h2 := hqf r hr'.1 hrq.symm
    have hnd : (withId r.id (onFile u.places fs)).Nodup := by
      have : ((withId r.id (onFile u.places fs)).map Rec.fromfile).Nodup :=
        (onFile_nodup u.places ht fs).sublist ((List.filter_sublist (l := onFile u.places fs)).map Rec.fromfile)
      exact List.Nodup.of_map _ this
    rw [hr'.2] at h2 hnd
    cases hw : withId k (onFile u.places fs) with
    | nil => rw [hw] at hr; simp at hr
    | cons a l =>
      rw [hw] at hr h2 hnd
      simp only [List.tail_cons] at hr
      simp only [List.head?_cons, Option.some.injEq] at h2
      rw [List.nodup_cons, h2] at hnd
      exact hnd.1 hr
  refine ⟨?_, ?_, ?_, ?_, ?_⟩
  · intro k r h1
    have hH := hhome k r h1
    generalize home u.places fs dest r = t at hH ⊢
    -- the file and what it holds
    have hT : t ∈ paths u.places ∧ recordAt fs' t = some { r with fromfile := t } := by
      cases hFk : F k with
      | none =>
        rw [hFk] at hH
        simp only at hH
        have hp := (hroom.free k r h1 ((hFnil k).mp hFk)).1
        rw [← hH] at hp
        exact ⟨hp, hW (t, r) ((hmem _).mpr (Or.inl ((m1 (t, r)).mpr ⟨k, h1, hFk, hH⟩))) hp⟩
      | some f =>
        rw [hFk] at hH
        simp only at hH
        have hp := (hFp k f hFk).1
        rw [← hH] at hp
        refine ⟨hp, ?_⟩
        by_cases hrf : r = f
        · rw [hO t hp]
          · rw [hH, hmid' k f hFk]
            simp only [hrf]
          · intro hm
            obtain ⟨k', f', c1, c2, c3⟩ := (m3 t).mp hm
            obtain ⟨rfl, -⟩ := hone k f k' f' hFk c1 (by rw [← hH, c3])
            rw [h1] at c2; cases c2
          · intro x hx hxt
            rcases (hmem x).mp hx with hx | hx
            · obtain ⟨k', a1, a2, a3⟩ := (m1 x).mp hx
              exact hfree k' x.2 a1 a2 k f hFk (by rw [← a3, hxt, hH])
            · obtain ⟨k', f', a1, a2, a3, a4⟩ := (m2 x).mp hx
              obtain ⟨rfl, hff⟩ := hone k f k' f' hFk a2 (by rw [← a4, hxt, hH])
              rw [h1] at a1
              exact a3 (by rw [← Option.some.inj a1, hrf, hff])
        · exact hW (t, r) ((hmem _).mpr (Or.inr ((m2 (t, r)).mpr ⟨k, f, h1, hFk, hrf, hH⟩))) hp
    refine ⟨hT.1, withId_unique u.places ht fs' k t _ hT.1 hT.2 (hk.own k r h1) ?_⟩
    intro p hp R' hR' hid
    by_cases hx : ∃ x ∈ l1 ++ l2, x.1 = p
    · obtain ⟨x, hx, rfl⟩ := hx
      rw [hW x hx hp] at hR'
      cases hR'
      rcases (hmem x).mp hx with hx | hx
      · obtain ⟨k', a1, a2, a3⟩ := (m1 x).mp hx
        have hkk : k' = k := by rw [← hk.own k' x.2 a1]; exact hid
        subst hkk
        rw [h1] at a1
        rw [hH, a2, a3, Option.some.inj a1]
      · obtain ⟨k', f', a1, a2, a3, a4⟩ := (m2 x).mp hx
        have hkk : k' = k := by rw [← hk.own k' x.2 a1]; exact hid
        subst hkk
        rw [hH, a2, a4]
    · have hx' : ∀ x ∈ l1 ++ l2, x.1 ≠ p := fun x h1 h2 => hx ⟨x, h1, h2⟩
      have hp3 : p ∉ l3 := fun hm => by rw [hZ p hm] at hR'; cases hR'
      rw [hO p hp hp3 hx'] at hR'
      obtain ⟨h2, h3⟩ := hmid p hp R' hR'
      rw [hid] at h2
      rw [hH, h2]
      exact h3.symm
  · intro k h1
    by_contra hne
    obtain ⟨R', hR, hid⟩ := withId_ne_nil.mp hne
    obtain ⟨hp, hR'⟩ := (mem_onFile _ _ R').mp hR
    by_cases hx : ∃ x ∈ l1 ++ l2, x.1 = R'.fromfile
    · obtain ⟨x, hx, hxp⟩ := hx
      rw [← hxp] at hp hR'
      rw [hW x hx hp] at hR'
      have hxid : x.2.id = k := by rw [← hid, ← Option.some.inj hR']
      rcases (hmem x).mp hx with hx | hx
      · obtain ⟨k', a1, a2, a3⟩ := (m1 x).mp hx
        have hkk : k' = k := by rw [← hk.own k' x.2 a1]; exact hxid
        subst hkk
        rw [h1] at a1; cases a1
      · obtain ⟨k', f', a1, a2, a3, a4⟩ := (m2 x).mp hx
        have hkk : k' = k := by rw [← hk.own k' x.2 a1]; exact hxid
        subst hkk
        rw [h1] at a1; cases a1
    · have hx' : ∀ x ∈ l1 ++ l2, x.1 ≠ R'.fromfile := fun x h1 h2 => hx ⟨x, h1, h2⟩
      have hp3 : R'.fromfile ∉ l3 := fun hm => by rw [hZ _ hm] at hR'; cases hR'
      rw [hO _ hp hp3 hx'] at hR'
      obtain ⟨h2, h3⟩ := hmid _ hp R' hR'
      rw [hid] at h2
      exact hp3 ((m3 _).mpr ⟨k, R', h2, h1, rfl⟩)
  · intro k f h1 h2
    have h2' : F k = some f := h2
    have hm : f.fromfile ∈ l3 := (m3 _).mpr ⟨k, f, h2', h1, rfl⟩
    refine ⟨hX2.gone _ hm, fun hdl => ?_⟩
    obtain ⟨hp, hR⟩ := hFp k f h2'
    have hsame : fs1 f.fromfile = fs f.fromfile := by
      apply hfrm
      · intro _ hb
        rw [bad_unreadable _ _ fs _ hb] at hR
        cases hR
      · apply hvict
        intro g hg hgf
        have : f = g := onFile_inj u.places ht fs (hF k f h2').1 hg hgf
        rw [← this, (hF k f h2').2]
        exact h2
      · rintro p ⟨k', hv⟩ _
        obtain ⟨r, hr, rfl⟩ := List.mem_map.mp hv
        exact hpd_ne_tilde (paths_hpd _ _ hp)
          (paths_hpd _ _ ((mem_onFile _ fs r).mp (mem_withId.mp (List.mem_of_mem_tail hr)).1).1)
    cases hc : fs f.fromfile with
    | none =>
      unfold recordAt at hR
      rw [hc] at hR
      cases hR
    | some c =>
      apply hX2.kept hdl _ hm
      rw [writes_frame u.can _ f.fromfile ?_ fs1, hsame, hc]
      intro x hx hxf
      exact hnd x hx (by rw [hxf]; exact hm)
  · intro hdl q hqb hnew
    have hb := bad_unreadable _ _ fs _ hqb
    have hq3 : q ∉ l3 := by
      intro hm
      obtain ⟨k', f', c1, c2, c3⟩ := (m3 q).mp hm
      rw [c3, (hFp k' f' c1).2] at hb
      cases hb
    rw [hX2.same hdl q hq3, writes_frame u.can _ q ?_ fs1, hdel hdl q hqb]
    intro x hx hxq
    rcases (hmem x).mp hx with hx | hx
    · obtain ⟨k', a1, a2, a3⟩ := (m1 x).mp hx
      exact hnew k' x.2 a1 ((hFnil k').mp a2) (by rw [← a3, hxq])
    · obtain ⟨k', f', a1, a2, a3, a4⟩ := (m2 x).mp hx
      rw [← hxq, a4, (hFp k' f' a2).2] at hb
      cases hb
  · intro q hbad hnew hfile
    have hq3 : q ∉ l3 := by
      intro hm
      obtain ⟨k', f', c1, c2, c3⟩ := (m3 q).mp hm
      have := ((hfile f' (hF k' f' c1).1).2 c3).1
      rw [(hF k' f' c1).2, c2] at this
      cases this
    rw [hX2.rest q hq3 ?_, writes_frame u.can _ q ?_ fs1, hfrm q hbad ?_ ?_]
    · exact hvict q (fun f hf hqf => ((hfile f hf).2 hqf).2)
    · rintro p ⟨k, hv⟩ _
      obtain ⟨r, hr, rfl⟩ := List.mem_map.mp hv
      exact (hfile r (mem_withId.mp (List.mem_of_mem_tail hr)).1).1
    · intro x hx hxq
      rcases (hmem x).mp hx with hx | hx
      · obtain ⟨k', a1, a2, a3⟩ := (m1 x).mp hx
        exact hnew k' x.2 a1 ((hFnil k').mp a2) (by rw [← a3, hxq])
      · obtain ⟨k', f', a1, a2, a3, a4⟩ := (m2 x).mp hx
        have := ((hfile f' (hF k' f' a2).1).2 (by rw [← hxq, a4])).1
        rw [(hF k' f' a2).2, a1] at this
        exact a3 (Option.some.inj this)
    · intro p hp
      obtain ⟨k', f', c1, c2, rfl⟩ := (m3 p).mp hp
      exact (hfile f' (hF k' f' c1).1).1

/-- C91: changes are recorded permanently.  After a quiet `updatefiles()` - whatever conflicts,
unreadable files, additions, changes and removals there were - a load into an empty collection, with
any configuration, succeeds and gives exactly the collection that was in memory: the same identifiers, and under each
a record that says the same; it stands in the first file that carried the identifier before, or else
in the new entry's file. -/
theorem C91_recorded (u : Update) (hq : u.verbose = false) (hcan : ∀ p, u.can p = true) (ht : Tidy u.places)
    (data : Coll) (hk : Keyed data) (fs fs' : Flat) (dest : String) (hd : NewIn u dest)
    (hroom : Room u.places fs dest data)
    (hl : ∀ k r, data.lookup k = some r → ∀ p, Loadable u.reg { r with fromfile := p })
    (h : updatefiles u data fs = (fs', none)) (cfg' : Cfg) :
    ∃ data', load cfg' u.reg (view u.places fs') u.places.dirs [] = (data', none) ∧
      ∀ k, data'.lookup k =
        (data.lookup k).map fun r => { r with fromfile := home u.places fs dest r } := by
  obtain ⟨h1, h2, -, -, -⟩ := recorded u hq hcan ht data hk fs fs' dest hd hroom h
  have hlen : ∀ k, (withId k (onFile u.places fs')).length ≤ 1 := by
    intro k
    cases hk : data.lookup k with
    | none => rw [h2 k hk]; simp
    | some r => rw [(h1 k r hk).2]; simp
  have hload : ∀ r ∈ records (allVisits cfg'.recursive (view u.places fs') u.places.dirs), Loadable u.reg r := by
    rw [records_view _ _ ht]
    intro r hr
    have hm : r ∈ withId r.id (onFile u.places fs') := mem_withId.mpr ⟨hr, rfl⟩
    cases hk : data.lookup r.id with
    | none => rw [h2 _ hk] at hm; simp at hm
    | some r' =>
      rw [(h1 _ r' hk).2, List.mem_singleton] at hm
      rw [hm]
      exact hl _ r' hk _
  have hids : ((onFile u.places fs').map Rec.id).Nodup := by
    have : ∀ L : List Rec, (∀ k, (withId k L).length ≤ 1) → (L.map Rec.id).Nodup := by
      intro L
      induction L with
      | nil => intro _; simp
      | cons a L ih =>
        intro hL
        rw [List.map_cons, List.nodup_cons]
        refine ⟨?_, ih fun k => ?_⟩
        · intro hm
          obtain ⟨b, hb, hid⟩ := List.mem_map.mp hm
          have h1 := hL a.id
          have h2 : b ∈ withId a.id L := mem_withId.mpr ⟨hb, hid⟩
          have h3 := List.length_pos_of_mem h2
          rw [withId, List.filter_cons_of_pos (by simp), List.length_cons] at h1
          rw [withId] at h3
          omega
        · have := hL k
          rw [withId, List.filter_cons] at this
          split at this
          · rw [List.length_cons] at this; rw [withId]; omega
          · exact this
    exact this _ hlen
  have hok : (load cfg' u.reg (view u.places fs') u.places.dirs []).2 = none := by
    have C := C22_exist_fatal cfg' u.reg (view u.places fs') u.places.dirs [] hload
    cases hf : cfg'.fatal with
    | false => exact C.2 hf
    | true =>
      rcases (C.1 hf).2 with h' | h'
      · exact h'
      · exfalso
        apply ((C.1 hf).1.mp h')
        rw [records_view _ _ ht]
        exact ⟨hids, by simp⟩
  refine ⟨(load cfg' u.reg (view u.places fs') u.places.dirs []).1, by rw [← hok], ?_⟩
  intro k
  rw [C21_precedence cfg' u.reg (view u.places fs') u.places.dirs [] _ (by rw [← hok]) k, records_view _ _ ht]
  cases hk : data.lookup k with
  | none => rw [h2 k hk]; cases cfg'.overwrite <;> simp [winner]
  | some r => rw [(h1 k r hk).2]; cases cfg'.overwrite <;> simp [winner]

/-- C91: a check after the quiet update finds nothing added, removed or redundant, and reports as
changed exactly the entries that remember another file than the one they stand in.
(Those it goes on reporting: see `C91_repeat_defect`.) -/
theorem C91_recheck_partial (u : Update) (hq : u.verbose = false) (hcan : ∀ p, u.can p = true) (ht : Tidy u.places)
    (data : Coll) (hk : Keyed data) (fs fs' : Flat) (dest : String) (hd : NewIn u dest)
    (hroom : Room u.places fs dest data) (h : updatefiles u data fs = (fs', none))
    (rep : Report) (hc : checkFiles u.cfg u.reg u.places data fs' = .ok rep) :
    rep.added = [] ∧ rep.removed = [] ∧ rep.redundant = [] ∧
    ∀ k, k ∈ rep.changed ↔ ∃ r, data.lookup k = some r ∧ r.fromfile ≠ home u.places fs dest r := by
  obtain ⟨h1, h2, -, -, -⟩ := recorded u hq hcan ht data hk fs fs' dest hd hroom h
  have D := C23_check_report u.cfg u.reg (view u.places fs') u.places.dirs data rep hk.distinct hc
  have N := check_redkeys u.cfg u.reg (view u.places fs') u.places.dirs data rep hc
  have Da := D.added
  have Dr := D.removed
  have Dc := D.changed
  have Dd := D.redundant
  simp only [records_view _ _ ht] at Da Dr Dc Dd
  refine ⟨?_, ?_, ?_, ?_⟩
  · apply List.eq_nil_iff_forall_not_mem.mpr
    intro k hm
    obtain ⟨h3, h4⟩ := (Da k).mp hm
    obtain ⟨r, hr⟩ : ∃ r, data.lookup k = some r :=
      Option.ne_none_iff_exists'.mp fun hn => (lookup_none_iff data k).mp hn h3
    rw [← withId_ne_nil, (h1 k r hr).2] at h4
    simp at h4
  · apply List.eq_nil_iff_forall_not_mem.mpr
    intro k hm
    obtain ⟨h3, h4⟩ := (Dr k).mp hm
    rw [← withId_ne_nil, h2 k h4] at h3
    simp at h3
  · apply List.eq_nil_iff_forall_not_mem.mpr
    rintro ⟨k, files⟩ he
    have R := Dd k
    rw [(lookup_of_mem _ N k files).mp he] at R
    cases hr : data.lookup k with
    | none => rw [h2 k hr] at R; simp at R
    | some r => rw [(h1 k r hr).2] at R; simp at R
  · intro k
    rw [Dc]
    constructor
    · rintro ⟨r, old, h3, h4, h5⟩
      rw [(h1 k old h4).2] at h3
      simp only [List.head?_cons, Option.some.injEq] at h3
      refine ⟨old, h4, fun hf => h5 ?_⟩
      rw [← h3, ← hf]
    · rintro ⟨r, h3, h4⟩
      refine ⟨_, r, by rw [(h1 k r h3).2]; rfl, h3, ?_⟩
      intro he
      exact h4 (congrArg Rec.fromfile he)

/-- C91: nothing else is touched.  A file keeps its content unless it is an unreadable data file (with `deletefiles`), the
file of a new entry, the suppressed name of a data file, or a data file that does not agree with the
collection: one whose record is not the one in memory or not the first with its identifier. -/
theorem C91_untouched (u : Update) (hq : u.verbose = false) (hcan : ∀ p, u.can p = true) (ht : Tidy u.places)
    (data : Coll) (hk : Keyed data) (fs fs' : Flat) (dest : String) (hd : NewIn u dest)
    (hroom : Room u.places fs dest data) (h : updatefiles u data fs = (fs', none)) (q : String)
    (hbad : u.deletefiles = true → q ∉ unreadable (allVisits u.cfg.recursive (view u.places fs) u.places.dirs))
    (hnew : ∀ k r, data.lookup k = some r → withId k (onFile u.places fs) = [] → q ≠ place dest r)
    (hfile : ∀ f ∈ onFile u.places fs, q ≠ f.fromfile ++ "~" ∧
      (q = f.fromfile → data.lookup f.id = some f ∧ (withId f.id (onFile u.places fs)).head? = some f)) :
    fs' q = fs q :=
  (recorded u hq hcan ht data hk fs fs' dest hd hroom h).2.2.2.2 q hbad hnew hfile

/-- C91: the file of an entry that was removed from the collection is gone; it is kept under its
suppressed name unless `deletefiles` is set. -/
theorem C91_removed (u : Update) (hq : u.verbose = false) (hcan : ∀ p, u.can p = true) (ht : Tidy u.places)
    (data : Coll) (hk : Keyed data) (fs fs' : Flat) (dest : String) (hd : NewIn u dest)
    (hroom : Room u.places fs dest data) (h : updatefiles u data fs = (fs', none)) (k : String) (f : Rec)
    (hm : data.lookup k = none) (hf : (withId k (onFile u.places fs)).head? = some f) :
    fs' f.fromfile = none ∧ (u.deletefiles = false → fs' (f.fromfile ++ "~") = fs f.fromfile) :=
  (recorded u hq hcan ht data hk fs fs' dest hd hroom h).2.2.1 k f hm hf

/-- C91: with `deletefiles`, unreadable files are deleted (unless a new entry goes there). -/
theorem C91_bad_deleted (u : Update) (hq : u.verbose = false) (hcan : ∀ p, u.can p = true) (ht : Tidy u.places)
    (data : Coll) (hk : Keyed data) (fs fs' : Flat) (dest : String) (hd : NewIn u dest)
    (hroom : Room u.places fs dest data) (h : updatefiles u data fs = (fs', none))
    (hdel : u.deletefiles = true) (q : String)
    (hb : q ∈ unreadable (allVisits u.cfg.recursive (view u.places fs) u.places.dirs))
    (hnew : ∀ k r, data.lookup k = some r → withId k (onFile u.places fs) = [] → q ≠ place dest r) :
    fs' q = none :=
  (recorded u hq hcan ht data hk fs fs' dest hd hroom h).2.2.2.1 hdel q hb hnew

/-! ## The update succeeds -/

theorem construct_ok (reg : Registry) (s : St) (t : Rec) (h : Loadable reg t) :
    (construct reg s t).2 = none := by
  obtain ⟨mk, h1, h2⟩ := h
  simp [construct, h1, h2]

theorem act_ok (cfg : Cfg) (reg : Registry) (v : Visit) (hf : cfg.fatal = false)
    (hl : ∀ r, v.record? = some r → Loadable reg r) (data : Coll) (rep : Report) :
    (Visit.act (fileAct cfg reg) supAct v ⟨data, some rep⟩).2 = none := by
  cases v with
  | sup p => rfl
  | file p c =>
    rw [record?_eq] at hl
    simp only [Visit.act, fileAct]
    cases hlf : loadFile p c with
    | none => rfl
    | some t =>
      have ht := hl t hlf
      simp only [St.loadto]
      cases rep.data.lookup t.id with
      | none => exact construct_ok reg _ t ht
      | some old =>
        simp only [hf, Bool.false_eq_true, if_false]
        split
        · rfl
        · exact construct_ok reg _ t ht

theorem check_ok (cfg : Cfg) (reg : Registry) (fs : Resolve) (dirs : List String) (hf : cfg.fatal = false)
    (hl : ∀ r ∈ records (allVisits cfg.recursive fs dirs), Loadable reg r) (data : Coll) :
    ∃ rep, (check cfg reg fs dirs data).2 = .ok rep := by
  unfold check
  rw [loadDirs_eq]
  have key : ∀ (ws : List Visit) (rep : Report), (∀ r ∈ records ws, Loadable reg r) →
      ∃ rep', runActs (ws.map (Visit.act (fileAct cfg reg) supAct)) ⟨data, some rep⟩
        = (⟨data, some rep'⟩, none) := by
    intro ws
    induction ws with
    | nil => intro rep _; exact ⟨rep, rfl⟩
    | cons v ws ih =>
      intro rep hr
      obtain ⟨rep1, e, h1⟩ := act_keeps cfg reg v data rep
      have he := act_ok cfg reg v hf (fun r hv => hr r (by simp [records, hv])) data rep
      rw [h1] at he
      simp only at he
      subst he
      simp only [List.map_cons, runActs, h1]
      refine ih rep1 (fun r hm => hr r ?_)
      rw [show v :: ws = [v] ++ ws from rfl, records_append]
      exact List.mem_append_right _ hm
  obtain ⟨rep', h⟩ := key _ (Report.start data) hl
  exact ⟨rep', by rw [h]⟩

/-- C91: a quiet update does not raise, provided conflicts are not fatal and the records on file can
be loaded. -/
theorem C91_succeeds (u : Update) (hq : u.verbose = false) (hcan : ∀ p, u.can p = true) (ht : Tidy u.places)
    (data : Coll) (hk : Keyed data) (fs : Flat) (dest : String) (hd : NewIn u dest)
    (hf : u.cfg.fatal = false) (hl : ∀ r ∈ onFile u.places fs, Loadable u.reg r) :
    ∃ fs', updatefiles u data fs = (fs', none) := by
  -- recording never raises
  have hrecord : ∀ fs1 rep1, checkFiles u.cfg u.reg u.places data fs1 = .ok rep1 →
      ∃ fs', recordStep u data rep1 fs1 = (fs', none) := by
    intro fs1 rep1 hc
    have D := C23_check_report u.cfg u.reg (view u.places fs1) u.places.dirs data rep1 hk.distinct hc
    have Da := D.added
    have Dr := D.removed
    have Dc := D.changed
    have Do := D.onDisk
    simp only [records_view _ _ ht] at Da Dr Dc Do
    have hfound : ∀ k, withId k (onFile u.places fs1) ≠ [] →
        ∃ f, rep1.data.lookup k = some f ∧ HasExt f.fromfile ".hpd" := by
      intro k hne
      have h1 : rep1.data.lookup k ≠ none := by
        rw [Do k, Ne, winner_none_iff]; exact hne
      obtain ⟨f, hf⟩ := Option.ne_none_iff_exists'.mp h1
      refine ⟨f, hf, ?_⟩
      rw [Do k] at hf
      have hm : f ∈ withId k (onFile u.places fs1) := by
        unfold winner at hf
        split at hf
        · rw [Option.or_none] at hf
          exact List.mem_of_getLast? hf
        · rw [Option.none_or] at hf
          exact List.mem_of_mem_head? hf
      exact paths_hpd _ _ ((mem_onFile _ _ f).mp (mem_withId.mp hm).1).1
    obtain ⟨l1, ha1, -⟩ := addStep_writes u dest hd data rep1.added (by
      intro k hm hn
      exact (lookup_none_iff data k).mp hn ((Da k).mp hm).1)
    obtain ⟨l2, hb1, -⟩ := changeStep_writes u data rep1.data rep1.changed (Or.inl hq) (by
      intro k hm
      obtain ⟨r, old, h1, h2, -⟩ := (Dc k).mp hm
      refine ⟨by rw [h2]; simp, ?_⟩
      obtain ⟨f, hf, -⟩ := hfound k (by intro he; rw [he] at h1; cases h1)
      rw [hf]; simp)
    obtain ⟨l3, hd1, -⟩ := removeStep_drops u hq hcan rep1.data rep1.removed (by
      intro k hm
      exact hfound k (withId_ne_nil.mpr ((Dr k).mp hm).1))
    obtain ⟨fsX, hX, -⟩ := hd1 (writes u.can l2 (writes u.can l1 fs1))
    exact ⟨fsX, by simp only [recordStep, ha1, hb1, hX]⟩
  have hck : ∀ fs1 : Flat, (∀ r ∈ onFile u.places fs1, Loadable u.reg r) →
      ∃ rep, checkFiles u.cfg u.reg u.places data fs1 = .ok rep := by
    intro fs1 h1
    exact check_ok u.cfg u.reg (view u.places fs1) u.places.dirs hf (by rw [records_view _ _ ht]; exact h1) data
  obtain ⟨rep, hc⟩ := hck fs hl
  obtain ⟨fsA, hA1, hA2, hA3⟩ := quiet_takes_first u.can u.cfg u.reg u.places ht data hk.distinct fs rep hc
  have hne : ¬ (u.dest = none ∧ u.places.dirs = []) := by
    rintro ⟨h1, h2⟩
    obtain ⟨-, -, h3⟩ := hd
    rw [h1, h2] at h3
    simp at h3
  have hrs : repairStep u rep fs = (fsA, none) := by
    unfold repairStep
    rw [hq]
    simpa using hA1
  obtain ⟨fsB, hB1, hB2⟩ : ∃ fsB, badStep u rep fsA = (fsB, none) ∧
      ∀ p, fsB p = none ∨ fsB p = fsA p := by
    unfold badStep
    rw [hq]
    cases u.deletefiles with
    | true =>
      have := remove_list u.can hcan rep.bad fsA
      refine ⟨_, rfl, fun p => ?_⟩
      by_cases hp : p ∈ rep.bad
      · exact Or.inl (this.gone p hp)
      · exact Or.inr (this.rest p hp)
    | false => exact ⟨fsA, rfl, fun p => Or.inr rfl⟩
  have hlB : ∀ r ∈ onFile u.places fsB, Loadable u.reg r := by
    intro r hr
    obtain ⟨h1, h2⟩ := (mem_onFile _ _ r).mp hr
    have h3 : recordAt fsA r.fromfile = some r := by
      unfold recordAt at h2 ⊢
      rcases hB2 r.fromfile with h4 | h4
      · rw [h4] at h2; cases h2
      · rw [h4] at h2; exact h2
    have h4 : r ∈ withId r.id (onFile u.places fsA) := mem_withId.mpr ⟨(mem_onFile _ _ r).mpr ⟨h1, h3⟩, rfl⟩
    rw [hA3] at h4
    exact hl r (mem_withId.mp (List.mem_of_mem_take h4)).1
  unfold updatefiles
  rw [if_neg hne, hc]
  simp only [hrs, hB1]
  split
  · obtain ⟨rep2, hc2⟩ := hck fsB hlB
    obtain ⟨fs', h'⟩ := hrecord fsB rep2 hc2
    exact ⟨fs', by rw [hc2]; exact h'⟩
  · rename_i hn
    push Not at hn
    have e1 : fsA = fs := by
      rw [hn.2] at hA1
      simp only [redRepairQuiet, Prod.mk.injEq, and_true] at hA1
      exact hA1.symm
    have e2 : fsB = fsA := by
      unfold badStep at hB1
      rw [hq, hn.1] at hB1
      simp only [Bool.false_eq_true, if_false, List.foldl_nil, ite_self, Prod.mk.injEq, and_true] at hB1
      exact hB1.symm
    rw [e2, e1]
    exact hrecord fs rep hc

/-! ## Disagreements with the documentation -/

/-- **C91 disagreement.** Run quietly without `deletefiles`, the update is to suppress the files that fail
to load, but it calls a function that does not exist and swallows the error (`dat.py:461-464`):
unreadable files stay as they are. -/
theorem C91_bad_defect (u : Update) (hq : u.verbose = false) (hcan : ∀ p, u.can p = true) (ht : Tidy u.places)
    (data : Coll) (hk : Keyed data) (fs fs' : Flat) (dest : String) (hd : NewIn u dest)
    (hroom : Room u.places fs dest data) (h : updatefiles u data fs = (fs', none))
    (hdel : u.deletefiles = false) (q : String) (hx : HasExt q ".hpd")
    (hb : q ∈ unreadable (allVisits u.cfg.recursive (view u.places fs) u.places.dirs))
    (hnew : ∀ k r, data.lookup k = some r → withId k (onFile u.places fs) = [] → q ≠ place dest r) :
    fs' q = fs q := by
  refine C91_untouched u hq hcan ht data hk fs fs' dest hd hroom h q (by rw [hdel]; simp) hnew ?_
  intro f hf
  obtain ⟨h1, h2⟩ := (mem_onFile _ _ f).mp hf
  refine ⟨hpd_ne_tilde hx (paths_hpd _ _ h1), ?_⟩
  rintro rfl
  rw [bad_unreadable _ _ fs _ hb] at h2
  cases h2

/-- **C91 disagreement.** The update is to "bring the files into agreement", but an entry made from
scratch never agrees: its `fromfile` is not set when its file is written, so every later check
reports it as changed, and every later update writes it again (`dat.py:476-500`, `234`). -/
theorem C91_repeat_defect (u : Update) (hq : u.verbose = false) (hcan : ∀ p, u.can p = true) (ht : Tidy u.places)
    (data : Coll) (hk : Keyed data) (fs fs' : Flat) (dest : String) (hd : NewIn u dest)
    (hroom : Room u.places fs dest data) (h : updatefiles u data fs = (fs', none))
    (rep : Report) (hc : checkFiles u.cfg u.reg u.places data fs' = .ok rep)
    (k : String) (r : Rec) (hr : data.lookup k = some r) (hs : r.fromfile = "") :
    k ∈ rep.changed := by
  refine ((C91_recheck_partial u hq hcan ht data hk fs fs' dest hd hroom h rep hc).2.2.2 k).mpr ⟨r, hr, ?_⟩
  have hp := ((recorded u hq hcan ht data hk fs fs' dest hd hroom h).1 k r hr).1
  obtain ⟨stem, -, he⟩ := paths_hpd _ _ hp
  rw [hs, he]
  intro h'
  have := congrArg (fun s => s.toList.length) h'
  simp at this

/-- **C91 disagreement.** "It is strongly recommended that the operation be performed verbosely", but with
Python 3 it then ends in `NameError` at the first prompt (`raw_input`): when there is an
unreadable file (`dat.py:433`), ... -/
theorem C91_prompt_bad_defect (u : Update) (hv : u.verbose = true) (hd : ¬ (u.dest = none ∧ u.places.dirs = []))
    (data : Coll) (fs : Flat) (rep : Report) (hc : checkFiles u.cfg u.reg u.places data fs = .ok rep)
    (hr : rep.redundant = []) (hb : rep.bad ≠ []) : updatefiles u data fs = (fs, some .name) := by
  unfold updatefiles
  rw [if_neg hd, hc]
  simp [repairStep, badStep, hv, hr, redRepairVerbose, hb]

/-- **C91 disagreement.** ... and when a removed entry's file is to be deleted (`dat.py:557`). -/
theorem C91_prompt_delete_defect (u : Update) (hv : u.verbose = true) (hdel : u.deletefiles = true)
    (ht : Tidy u.places)
    (data : Coll) (hk : Keyed data) (fs : Flat) (dest : String) (hd : NewIn u dest)
    (rep : Report) (hc : checkFiles u.cfg u.reg u.places data fs = .ok rep)
    (hr : rep.redundant = []) (hb : rep.bad = []) (hch : rep.changed = []) (hrem : rep.removed ≠ []) :
    (updatefiles u data fs).2 = some .name := by
  have D := C23_check_report u.cfg u.reg (view u.places fs) u.places.dirs data rep hk.distinct hc
  have hne : ¬ (u.dest = none ∧ u.places.dirs = []) := by
    rintro ⟨h1, h2⟩
    obtain ⟨-, -, h3⟩ := hd
    rw [h1, h2] at h3
    simp at h3
  obtain ⟨l1, ha1, -⟩ := addStep_writes u dest hd data rep.added (by
    intro k hm hn
    exact (lookup_none_iff data k).mp hn ((D.added k).mp hm).1)
  obtain ⟨k, ks, hks⟩ := List.exists_cons_of_ne_nil hrem
  have hkm : k ∈ rep.removed := by rw [hks]; exact List.mem_cons_self
  have hf : rep.data.lookup k ≠ none := by
    rw [D.onDisk k, Ne, winner_none_iff]
    exact withId_ne_nil.mpr ((D.removed k).mp hkm).1
  obtain ⟨f, hf⟩ := Option.ne_none_iff_exists'.mp hf
  unfold updatefiles
  rw [if_neg hne, hc]
  simp [repairStep, badStep, hv, hr, redRepairVerbose, hb, recordStep, ha1, hch, changeStep, hks, removeStep,
    hf, hdel]

end PyroMat.Data.Props
