import Verif.Data.PropsRepair

/-!
# Helper lemmas for `updatefiles`
-/

set_option linter.unusedSimpArgs false

namespace PyroMat.Data.Props

open PyroMat PyroMat.Data PyroMat.Data.Spec

/-! ## Unreadable files -/

theorem listing_visit (recursive : Bool) (fs : Flat) (d p : String) (c : Content) (ns : List String)
    (h : Visit.file p c ∈ (visitEntries recursive d
        (ns.filterMap fun n => (fs (join d n)).map fun c => (n, Node.file c))).flatMap Prod.snd) :
    fs p = some c := by
  induction ns with
  | nil => simp [visitEntries] at h
  | cons n ns ih =>
    rw [List.filterMap_cons] at h
    cases hf : fs (join d n) with
    | none => rw [hf] at h; exact ih h
    | some c' =>
      rw [hf] at h
      simp only [Option.map_some, visitEntries, List.flatMap_cons, List.mem_append] at h
      rcases h with h | h
      · split at h
        · simp only [visits, List.mem_singleton, Visit.file.injEq] at h
          rw [h.1, h.2]; exact hf
        · split at h <;> simp at h
      · exact ih h

theorem view_visit (recursive : Bool) (pl : Places) (fs : Flat) (p : String) (c : Content)
    (h : Visit.file p c ∈ allVisits recursive (view pl fs) pl.dirs) : fs p = some c := by
  unfold allVisits at h
  rw [List.mem_flatMap] at h
  obtain ⟨d, hd, h⟩ := h
  simp only [view, if_pos hd, visits, List.mem_flatMap] at h
  obtain ⟨x, hx, h⟩ := h
  have hx' : x ∈ visitEntries recursive d (listing pl fs d) := by
    unfold sortNames at hx
    exact List.mem_mergeSort.mp hx
  exact listing_visit recursive fs d p c pl.names (List.mem_flatMap.mpr ⟨x, hx', h⟩)

theorem bad_unreadable (recursive : Bool) (pl : Places) (fs : Flat) (p : String)
    (h : p ∈ unreadable (allVisits recursive (view pl fs) pl.dirs)) : recordAt fs p = none := by
  unfold unreadable at h
  rw [List.mem_filterMap] at h
  obtain ⟨v, hv, h⟩ := h
  cases v with
  | sup q => simp at h
  | file q c =>
    simp only at h
    split at h
    · cases h
    · rename_i hr
      cases h
      rw [recordAt_eq, view_visit recursive pl fs p c hv, Option.bind_some, ← record?_eq]
      simpa using hr

/-! ## Writing -/

/-- A list of writes. -/
def writes (can : String → Bool) (l : List (String × Rec)) (fs : Flat) : Flat :=
  l.foldl (fun fs x => writeFile can fs x.1 x.2) fs

theorem writeFile_at (can : String → Bool) (fs : Flat) (p q : String) (r : Rec) (hcan : can p = true) :
    writeFile can fs p r q = if q = p then some (contentOf r) else fs q := by
  unfold writeFile
  rw [if_pos hcan]

theorem writeFile_frame (can : String → Bool) (fs : Flat) (p q : String) (r : Rec) (h : q ≠ p) :
    writeFile can fs p r q = fs q := by
  unfold writeFile
  split
  · simp [h]
  · rfl

theorem writes_frame (can : String → Bool) (l : List (String × Rec)) (q : String) (hq : ∀ x ∈ l, x.1 ≠ q) :
    ∀ fs, writes can l fs q = fs q := by
  induction l with
  | nil => intro fs; rfl
  | cons x l ih =>
    intro fs
    have := ih (fun y hy => hq y (List.mem_cons_of_mem x hy)) (writeFile can fs x.1 x.2)
    rw [writes, List.foldl_cons]
    rw [writes] at this
    rw [this]
    exact writeFile_frame can fs x.1 q x.2 (hq x List.mem_cons_self).symm

theorem writes_at (can : String → Bool) (hcan : ∀ p, can p = true) (l : List (String × Rec))
    (hf : ∀ x ∈ l, ∀ y ∈ l, x.1 = y.1 → x.2 = y.2) (x : String × Rec) (hx : x ∈ l) :
    ∀ fs, writes can l fs x.1 = some (contentOf x.2) := by
  induction l with
  | nil => simp at hx
  | cons y l ih =>
    intro fs
    by_cases hm : ∃ z ∈ l, z.1 = x.1
    · obtain ⟨z, hz, hzx⟩ := hm
      have h2 : z.2 = x.2 := hf z (List.mem_cons_of_mem y hz) x hx hzx
      have hxl : x ∈ l := by
        have : z = x := Prod.ext hzx h2
        rwa [← this]
      have := ih (fun a ha b hb => hf a (List.mem_cons_of_mem y ha) b (List.mem_cons_of_mem y hb)) hxl
        (writeFile can fs y.1 y.2)
      rw [writes, List.foldl_cons]
      exact this
    · have hxy : x = y := by
        rcases List.mem_cons.mp hx with h | h
        · exact h
        · exact absurd ⟨x, h, rfl⟩ hm
      have hfr := writes_frame can l x.1 (fun z hz hzx => hm ⟨z, hz, hzx⟩) (writeFile can fs y.1 y.2)
      rw [writes, List.foldl_cons]
      rw [writes] at hfr
      rw [hfr, ← hxy, writeFile_at can fs x.1 x.1 x.2 (hcan _), if_pos rfl]

theorem recordAt_content (fs : Flat) (p : String) (r : Rec) (h : fs p = some (contentOf r)) :
    recordAt fs p = some { r with fromfile := p } := by
  unfold recordAt
  rw [h]
  rfl

theorem newTarget_place (u : Update) (dest : String) (hd : NewIn u dest) (r : Rec) :
    newTarget u r = .ok (place dest r) := by
  obtain ⟨h1, h2, h3⟩ := hd
  unfold newTarget place
  by_cases hr : r.fromfile = ""
  · simp only [hr, ne_eq, not_true_eq_false, if_false, if_true]
    rcases h3 with h3 | h3
    · rw [h3]
      simp only
      cases hl : dest.toList.getLast? with
      | none =>
        exfalso
        apply h1
        have : dest.toList = [] := by simpa using hl
        rw [← String.ofList_toList (s := dest), this]
      | some c =>
        have hc : c ≠ '/' := fun h => h2 (by rw [hl, h])
        simp only [hc, ne_eq, not_false_eq_true, if_true]
    · rw [h3]
      have hl : (dest ++ "/").toList.getLast? = some '/' := by
        rw [String.toList_append]
        simp
      simp only [hl, ne_eq, not_true_eq_false, if_false]
  · simp [hr]

theorem addStep_writes (u : Update) (dest : String) (hd : NewIn u dest) (data : Coll) (ks : List String)
    (hks : ∀ k ∈ ks, data.lookup k ≠ none) :
    ∃ l : List (String × Rec), (∀ fs, addStep u data ks fs = (writes u.can l fs, none)) ∧
      ∀ x, x ∈ l ↔ ∃ k ∈ ks, data.lookup k = some x.2 ∧ x.1 = place dest x.2 := by
  induction ks with
  | nil => exact ⟨[], fun fs => rfl, by simp⟩
  | cons k ks ih =>
    obtain ⟨l, h1, h2⟩ := ih (fun j hj => hks j (List.mem_cons_of_mem k hj))
    obtain ⟨r, hr⟩ := Option.ne_none_iff_exists'.mp (hks k List.mem_cons_self)
    refine ⟨(place dest r, r) :: l, ?_, ?_⟩
    · intro fs
      simp only [addStep, hr, newTarget_place u dest hd r, h1]
      rfl
    · intro x
      rw [List.mem_cons, h2]
      constructor
      · rintro (rfl | ⟨j, hj, h⟩)
        · exact ⟨k, List.mem_cons_self, hr, rfl⟩
        · exact ⟨j, List.mem_cons_of_mem k hj, h⟩
      · rintro ⟨j, hj, h3, h4⟩
        rcases List.mem_cons.mp hj with rfl | hj
        · left
          rw [hr] at h3
          cases h3
          exact Prod.ext h4 rfl
        · exact Or.inr ⟨j, hj, h3, h4⟩

theorem changeStep_writes (u : Update) (data found : Coll) (ks : List String)
    (hq : u.verbose = false ∨ ∀ k ∈ ks, ∀ r f, data.lookup k = some r → found.lookup k = some f →
      f.fromfile = r.fromfile)
    (hks : ∀ k ∈ ks, data.lookup k ≠ none ∧ found.lookup k ≠ none) :
    ∃ l : List (String × Rec), (∀ fs, changeStep u data found ks fs = (writes u.can l fs, none)) ∧
      ∀ x, x ∈ l ↔ ∃ k ∈ ks, data.lookup k = some x.2 ∧ ∃ f, found.lookup k = some f ∧ x.1 = f.fromfile := by
  induction ks with
  | nil => exact ⟨[], fun fs => rfl, by simp⟩
  | cons k ks ih =>
    obtain ⟨l, h1, h2⟩ := ih (hq.imp id fun h j hj => h j (List.mem_cons_of_mem k hj))
      (fun j hj => hks j (List.mem_cons_of_mem k hj))
    obtain ⟨r, hr⟩ := Option.ne_none_iff_exists'.mp (hks k List.mem_cons_self).1
    obtain ⟨f, hf⟩ := Option.ne_none_iff_exists'.mp (hks k List.mem_cons_self).2
    refine ⟨(f.fromfile, r) :: l, ?_, ?_⟩
    · intro fs
      have hc : ¬ (f.fromfile ≠ r.fromfile ∧ u.verbose = true) := by
        rintro ⟨h3, h4⟩
        rcases hq with h5 | h5
        · rw [h5] at h4; cases h4
        · exact h3 (h5 k List.mem_cons_self r f hr hf)
      simp only [changeStep, hr, hf, hc, if_false, h1]
      rfl
    · intro x
      rw [List.mem_cons, h2]
      constructor
      · rintro (rfl | ⟨j, hj, h⟩)
        · exact ⟨k, List.mem_cons_self, hr, f, hf, rfl⟩
        · exact ⟨j, List.mem_cons_of_mem k hj, h⟩
      · rintro ⟨j, hj, h3, f', h4, h5⟩
        rcases List.mem_cons.mp hj with rfl | hj
        · left
          rw [hr] at h3
          rw [hf] at h4
          cases h3; cases h4
          exact Prod.ext h5 rfl
        · exact Or.inr ⟨j, hj, h3, f', h4, h5⟩

/-- Files `l` are gone, whether deleted or suppressed. -/
structure Dropped (deletefiles : Bool) (l : List String) (fs fs' : Flat) : Prop where
  kept : deletefiles = false → ∀ p ∈ l, ∀ c, fs p = some c → fs' (p ++ "~") = some c
  same : deletefiles = true → ∀ q, q ∉ l → fs' q = fs q
  gone : ∀ p ∈ l, fs' p = none
  rest : ∀ q, q ∉ l → (∀ p ∈ l, q ≠ p ++ "~") → fs' q = fs q

theorem removeStep_drops (u : Update) (hq : u.verbose = false) (hcan : ∀ p, u.can p = true) (found : Coll)
    (ks : List String) (hks : ∀ k ∈ ks, ∃ f, found.lookup k = some f ∧ HasExt f.fromfile ".hpd") :
    ∃ l : List String, (∀ fs, ∃ fs', removeStep u found ks fs = (fs', none) ∧ Dropped u.deletefiles l fs fs') ∧
      ∀ p, p ∈ l ↔ ∃ k ∈ ks, ∃ f, found.lookup k = some f ∧ p = f.fromfile := by
  have hl : ∃ l : List String, (∀ p ∈ l, HasExt p ".hpd") ∧
      (∀ fs, removeStep u found ks fs = (if u.deletefiles then
        (l.foldl (fun fs p => (removeFile u.can fs p).1) fs) else
        (l.foldl (fun fs p => (suppressFile fs p).1) fs), none)) ∧
      ∀ p, p ∈ l ↔ ∃ k ∈ ks, ∃ f, found.lookup k = some f ∧ p = f.fromfile := by
    induction ks with
    | nil => exact ⟨[], by simp, fun fs => by simp [removeStep], by simp⟩
    | cons k ks ih =>
      obtain ⟨l, h0, h1, h2⟩ := ih (fun j hj => hks j (List.mem_cons_of_mem k hj))
      obtain ⟨f, hf, hx⟩ := hks k List.mem_cons_self
      refine ⟨f.fromfile :: l, ?_, ?_, ?_⟩
      · intro p hp
        rcases List.mem_cons.mp hp with rfl | hp
        · exact hx
        · exact h0 p hp
      · intro fs
        simp only [removeStep, hf, hq, Bool.false_eq_true, if_false, h1, List.foldl_cons]
        split <;> rfl
      · intro p
        rw [List.mem_cons, h2]
        constructor
        · rintro (rfl | ⟨j, hj, h⟩)
          · exact ⟨k, List.mem_cons_self, f, hf, rfl⟩
          · exact ⟨j, List.mem_cons_of_mem k hj, h⟩
        · rintro ⟨j, hj, f', h4, h5⟩
          rcases List.mem_cons.mp hj with rfl | hj
          · left
            rw [hf] at h4
            cases h4
            exact h5
          · exact Or.inr ⟨j, hj, f', h4, h5⟩
  obtain ⟨l, h0, h1, h2⟩ := hl
  refine ⟨l, ?_, h2⟩
  intro fs
  refine ⟨_, h1 fs, ?_⟩
  cases u.deletefiles with
  | true =>
    have := remove_list u.can hcan l fs
    simp only [if_true]
    exact ⟨by simp, fun _ => this.rest, this.gone, fun q hq _ => this.rest q hq⟩
  | false =>
    have := suppress_list l h0 fs
    simp only [Bool.false_eq_true, if_false]
    exact ⟨fun _ p hp c hc => this.kept p c hp hc, by simp, this.gone,
      fun q hq hr => this.rest q hq (fun p hp _ => hr p hp)⟩

/-! ## Uniqueness -/

theorem withId_unique (pl : Places) (ht : Tidy pl) (fs : Flat) (k t : String) (R : Rec) (hp : t ∈ paths pl)
    (hR : recordAt fs t = some R) (hk : R.id = k)
    (hu : ∀ p ∈ paths pl, ∀ R', recordAt fs p = some R' → R'.id = k → p = t) :
    withId k (onFile pl fs) = [R] := by
  have hfrom : ∀ p R, recordAt fs p = some R → R.fromfile = p := by
    intro p R h
    unfold recordAt at h
    split at h
    · cases h; rfl
    · cases h
  have hall : ∀ x ∈ withId k (onFile pl fs), x = R := by
    intro x hx
    obtain ⟨h1, h2⟩ := mem_withId.mp hx
    obtain ⟨h3, h4⟩ := (mem_onFile pl fs x).mp h1
    have h5 := hu _ h3 x h4 h2
    rw [h5, hR] at h4
    exact (Option.some.inj h4).symm
  have hmem : R ∈ withId k (onFile pl fs) := by
    rw [mem_withId, mem_onFile, hfrom t R hR]
    exact ⟨⟨hp, hR⟩, hk⟩
  have hnd : (withId k (onFile pl fs)).Nodup := by
    have : ((withId k (onFile pl fs)).map Rec.fromfile).Nodup :=
      (onFile_nodup pl ht fs).sublist ((List.filter_sublist (l := onFile pl fs)).map Rec.fromfile)
    exact List.Nodup.of_map _ this
  match hw : withId k (onFile pl fs) with
  | [] => rw [hw] at hmem; simp at hmem
  | [a] => rw [hall a (by rw [hw]; simp)]
  | a :: b :: l =>
    exfalso
    have ha := hall a (by rw [hw]; simp)
    have hb := hall b (by rw [hw]; simp)
    rw [hw, ha, hb] at hnd
    simp at hnd

/-! ## The state after repairs -/

open Classical in
theorem quiet_prepared (u : Update) (hq : u.verbose = false) (hcan : ∀ p, u.can p = true)
    (ht : Tidy u.places) (data : Coll) (hk : (data.map Prod.fst).Nodup) (fs fs' : Flat)
    (h : updatefiles u data fs = (fs', none)) :
    ∃ fs1 rep1, checkFiles u.cfg u.reg u.places data fs1 = .ok rep1 ∧
      (∀ p ∈ paths u.places, recordAt fs1 p = if Victim u.places fs p then none else recordAt fs p) ∧
      (u.deletefiles = true → ∀ q ∈ unreadable (allVisits u.cfg.recursive (view u.places fs) u.places.dirs),
        fs1 q = none) ∧
      (∀ q, (u.deletefiles = true → q ∉ unreadable (allVisits u.cfg.recursive (view u.places fs) u.places.dirs)) →
        ¬ Victim u.places fs q → (∀ p, Victim u.places fs p → fs p ≠ none → q ≠ p ++ "~") → fs1 q = fs q) ∧
      recordStep u data rep1 fs1 = (fs', none) := by
  unfold updatefiles at h
  split at h
  · simp at h
  · cases hc : checkFiles u.cfg u.reg u.places data fs with
    | error e => rw [hc] at h; simp at h
    | ok rep =>
      rw [hc] at h
      simp only at h
      obtain ⟨fsA, hA1, hA2, hA3⟩ := quiet_takes_first u.can u.cfg u.reg u.places ht data hk fs rep hc
      have hrs : repairStep u rep fs = (fsA, none) := by
        unfold repairStep
        rw [hq]
        simpa using hA1
      rw [hrs] at h
      simp only at h
      have D := C23_check_report u.cfg u.reg (view u.places fs) u.places.dirs data rep hk hc
      have hvic : ∀ p, Victim u.places fs p → HasExt p ".hpd" := by
        rintro q ⟨k, hq⟩
        obtain ⟨r, hr, rfl⟩ := List.mem_map.mp hq
        exact paths_hpd u.places _
          ((mem_onFile u.places fs r).mp (mem_withId.mp (List.mem_of_mem_tail hr)).1).1
      obtain ⟨fsB, hB1, hB2, hB3⟩ : ∃ fsB, badStep u rep fsA = (fsB, none) ∧
          (u.deletefiles = true → ∀ p ∈ rep.bad, fsB p = none) ∧
          ∀ p, (u.deletefiles = true → p ∉ rep.bad) → fsB p = fsA p := by
        unfold badStep
        rw [hq]
        cases u.deletefiles with
        | true =>
          have := remove_list u.can hcan rep.bad fsA
          exact ⟨_, rfl, fun _ => this.gone, fun p hp => this.rest p (hp rfl)⟩
        | false => exact ⟨fsA, rfl, by simp, fun _ _ => rfl⟩
      rw [hB1] at h
      simp only at h
      have hrec : ∀ p ∈ paths u.places, recordAt fsB p =
          if Victim u.places fs p then none else recordAt fs p := by
        intro p hp
        have h1 := recordAt_suppressed u.places _ fs fsA hvic hA2 p hp
        by_cases hb : p ∈ rep.bad
        · have h2 : recordAt fs p = none := by
            rw [D.bad] at hb
            exact bad_unreadable _ u.places fs p hb
          rw [h2, ite_self] at h1 ⊢
          cases hdel : u.deletefiles with
          | true => unfold recordAt; rw [hB2 hdel p hb]
          | false =>
            unfold recordAt at h1 ⊢
            rw [hB3 p (by rw [hdel]; simp)]
            exact h1
        · rw [← h1]
          unfold recordAt
          rw [hB3 p (fun _ => hb)]
      have hdel : u.deletefiles = true →
          ∀ q ∈ unreadable (allVisits u.cfg.recursive (view u.places fs) u.places.dirs), fsB q = none := by
        intro hd q hq
        rw [← D.bad] at hq
        exact hB2 hd q hq
      have hfrm : ∀ q, (u.deletefiles = true →
          q ∉ unreadable (allVisits u.cfg.recursive (view u.places fs) u.places.dirs)) → ¬ Victim u.places fs q → (∀ p, Victim u.places fs p → fs p ≠ none → q ≠ p ++ "~") →
          fsB q = fs q := by
        intro q h1 h2 h3
        rw [← D.bad] at h1
        rw [hB3 q h1, hA2.rest q h2 h3]
      split at h
      · cases hc2 : checkFiles u.cfg u.reg u.places data fsB with
        | error e => rw [hc2] at h; simp at h
        | ok rep2 =>
          rw [hc2] at h
          exact ⟨fsB, rep2, hc2, hrec, hdel, hfrm, h⟩
      · rename_i hne
        push Not at hne
        obtain ⟨hn1, hn2⟩ := hne
        -- nothing was bad or redundant: nothing has been changed
        have e1 : fsA = fs := by
          rw [hn2] at hA1
          simp only [redRepairQuiet, Prod.mk.injEq, and_true] at hA1
          exact hA1.symm
        have e2 : fsB = fs := by
          rw [← e1]
          funext p
          exact hB3 p (fun _ => by rw [hn1]; simp)
        rw [e2] at h hrec hfrm hdel
        exact ⟨fs, rep, hc, hrec, hdel, hfrm, h⟩

end PyroMat.Data.Props
