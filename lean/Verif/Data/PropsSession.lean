import Verif.Data.PropsCrash
import Verif.Data.Session

/-!
# C111: whatever is done to the collection in a session, it can be saved and read again
-/

set_option linter.unusedSimpArgs false

namespace PyroMat.Data.Props

open PyroMat PyroMat.Data PyroMat.Data.Spec

theorem lookup_del (c : Coll) (k j : String) : (c.del k).lookup j = if j = k then none else c.lookup j := by
  induction c with
  | nil => simp [Coll.del]
  | cons e c ih =>
    obtain ⟨i, r⟩ := e
    unfold Coll.del at ih ⊢
    by_cases hi : i = k
    · subst hi
      rw [List.filter_cons_of_neg (by simp), ih, List.lookup_cons]
      by_cases hj : j = i
      · simp [hj]
      · rw [if_neg hj, if_neg hj]
        have : (j == i) = false := by simpa using hj
        simp [this]
    · rw [List.filter_cons_of_pos (by simpa using hi), List.lookup_cons, List.lookup_cons, ih]
      by_cases hj : j = i
      · subst hj; simp [hi]
      · have : (j == i) = false := by simpa using hj
        simp [this]

theorem keyed_set {data : Coll} (hk : Keyed data) (k : String) (r : Rec) (h : r.id = k) : Keyed (data.set k r) := by
  refine ⟨(set_keys data k r hk.distinct).1, ?_⟩
  intro j x hx
  rw [lookup_set] at hx
  split at hx
  · rename_i hj
    cases hx
    rw [hj, h]
  · exact hk.own j x hx

theorem keyed_del {data : Coll} (hk : Keyed data) (k : String) : Keyed (data.del k) := by
  refine ⟨?_, ?_⟩
  · exact (List.filter_sublist.map Prod.fst).nodup hk.distinct
  · intro j x hx
    rw [lookup_del] at hx
    split at hx
    · cases hx
    · exact hk.own j x hx

theorem place_of_path (pl : Places) (dest : String) (r : Rec) (h : r.fromfile ∈ paths pl) :
    place dest r = r.fromfile := by
  unfold place
  rw [if_neg]
  intro h0
  rw [h0] at h
  obtain ⟨b, -, hb⟩ := paths_hpd pl "" h
  have := congrArg String.toList hb
  simp at this

/-- Putting an entry with a file of its own into the collection keeps the files apart. -/
theorem apart_set (pl : Places) (fs : Flat) (dest : String) (data : Coll) (ha : Apart pl fs dest data) (r : Rec)
    (h1 : place dest r ∈ paths pl) (h2 : ∀ x, recordAt fs (place dest r) = some x → x.id = r.id)
    (h3 : ∀ k r', data.lookup k = some r' → k ≠ r.id → place dest r' ≠ place dest r) :
    Apart pl fs dest (data.set r.id r) := by
  refine ⟨?_, ?_⟩
  · intro k x hx
    rw [lookup_set] at hx
    split at hx
    · rename_i hk
      cases hx
      rw [hk]
      exact ⟨h1, h2⟩
    · exact ha.free k x hx
  · intro k x k' x' hx hx' he
    rw [lookup_set] at hx hx'
    split at hx <;> split at hx'
    · rename_i a b; rw [a, b]
    · rename_i a b
      cases hx
      exact absurd he.symm (h3 k' x' hx' b)
    · rename_i a b
      cases hx'
      exact absurd he (h3 k x hx a)
    · exact ha.own k x k' x' hx hx' he

/-- What holds throughout a session. -/
structure Sound (pl : Places) (reg : Registry) (dest : String) (s : Session) : Prop where
  keyed : Keyed s.data
  apart : Apart pl s.files dest s.data
  mem : ∀ k r, s.data.lookup k = some r → Loadable reg r

theorem sound_load (pl : Places) (ht : Tidy pl) (reg : Registry) (dest : String) (s : Session) (cfg : Cfg)
    (h : Sound pl reg dest s) :
    Sound pl reg dest ⟨(load cfg reg (view pl s.files) pl.dirs s.data).1, s.files⟩ := by
  rw [load_eq, records_view _ _ ht]
  generalize hrs : onFile pl s.files = rs
  have hon : ∀ r ∈ rs, r ∈ onFile pl s.files := by rw [hrs]; exact fun _ h => h
  clear hrs
  obtain ⟨data, fs⟩ := s
  induction rs generalizing data with
  | nil => exact h
  | cons t rs ih =>
    have hon' := fun r hr => hon r (List.mem_cons_of_mem t hr)
    simp only [List.map_cons, runActs]
    rcases recAct_cases cfg reg t data with ⟨-, -, hr⟩ | ⟨-, -, -, hr⟩ | ⟨-, hl, hr⟩ | ⟨-, -, e, hr⟩
    · rw [hr]; exact h
    · rw [hr]; exact ih data h hon'
    · rw [hr]
      refine ih _ ?_ hon'
      obtain ⟨hp, hrec⟩ := (mem_onFile pl fs t).mp (hon t List.mem_cons_self)
      have hpl := place_of_path pl dest t hp
      refine ⟨keyed_set h.keyed _ _ rfl, apart_set pl fs dest data h.apart t (by rw [hpl]; exact hp) ?_ ?_, ?_⟩
      · intro x hx
        rw [hpl, hrec] at hx
        cases hx; rfl
      · intro k r' hr' hne he
        refine hne ((h.apart.free k r' hr').2 t ?_).symm
        show recordAt fs (place dest r') = some t
        rw [he, hpl, hrec]
      · intro k r hk
        rw [lookup_set] at hk
        split at hk
        · cases hk; exact hl
        · exact h.mem k r hk
    · rw [hr]; exact h

theorem sound_new (pl : Places) (reg : Registry) (dest : String) (s : Session) (d : NewData)
    (hd : ∀ r, mkNew d = some r → Fits pl dest s r) (h : Sound pl reg dest s) :
    Sound pl reg dest ⟨(new reg d s.data).1, s.files⟩ := by
  unfold new
  split
  · rename_i i c hi hc
    split
    · exact h
    · rename_i mk hmk
      split
      · exact h
      · rename_i r hr
        split
        · exact h
        · rename_i hmr
          have hid : r.id = i ∧ r.cls = c := by
            unfold mkNew at hr
            rw [hi, hc] at hr
            split at hr
            · rename_i h1 h2 _ _
              cases hr
              cases h1; cases h2
              exact ⟨rfl, rfl⟩
            · cases hr
          obtain ⟨rfl, rfl⟩ := hid
          obtain ⟨f1, f2, f3⟩ := hd r hr
          refine ⟨keyed_set h.keyed _ _ rfl, apart_set pl s.files dest s.data h.apart r f1 f2 f3, ?_⟩
          intro k x hk
          rw [lookup_set] at hk
          split at hk
          · cases hk; exact ⟨mk, hmk, hmr⟩
          · exact h.mem k x hk
  · exact h

theorem sound_edit (pl : Places) (reg : Registry) (dest : String) (s : Session) (k : String) (r r' : Rec)
    (hr : s.data.lookup k = some r) (hi : r'.id = r.id) (hf : r'.fromfile = r.fromfile) (hl : Loadable reg r')
    (h : Sound pl reg dest s) : Sound pl reg dest ⟨s.data.set k r', s.files⟩ := by
  have hk := h.keyed.own k r hr
  have hpl : place dest r' = place dest r := by unfold place; rw [hi, hf]
  have hid : r'.id = k := by rw [hi, hk]
  obtain ⟨f1, f2⟩ := h.apart.free k r hr
  refine ⟨keyed_set h.keyed k r' hid, ?_, ?_⟩
  · rw [← hid]
    refine apart_set pl s.files dest s.data h.apart r' (by rw [hpl]; exact f1) ?_ ?_
    · intro x hx
      rw [hpl] at hx
      rw [hid]
      exact f2 x hx
    · intro j x hx hne he
      rw [hpl] at he
      exact hne (by rw [hid]; exact h.apart.own j x k r hx hr he)
  · intro j x hx
    rw [lookup_set] at hx
    split at hx
    · cases hx; exact hl
    · exact h.mem j x hx

theorem sound_del (pl : Places) (reg : Registry) (dest : String) (s : Session) (k : String)
    (h : Sound pl reg dest s) : Sound pl reg dest ⟨s.data.del k, s.files⟩ := by
  have hsub : ∀ j x, (s.data.del k).lookup j = some x → s.data.lookup j = some x := by
    intro j x hx
    rw [lookup_del] at hx
    split at hx
    · cases hx
    · exact hx
  exact ⟨keyed_del h.keyed k,
    ⟨fun j x hx => h.apart.free j x (hsub j x hx),
      fun j x j' x' hx hx' he => h.apart.own j x j' x' (hsub j x hx) (hsub j' x' hx') he⟩,
    fun j x hx => h.mem j x (hsub j x hx)⟩

/-- All invariants of a session: see `C111_reachable`. -/
theorem sound_step (pl : Places) (ht : Tidy pl) (reg : Registry) (hb : Blind reg) (dest : String) (s t : Session)
    (hs : Sound pl reg dest s) (hf : ∀ r ∈ onFile pl s.files, Loadable reg r) (h : Step pl reg dest s t) :
    Sound pl reg dest t ∧ ∀ r ∈ onFile pl t.files, Loadable reg r := by
  cases h with
  | load cfg => exact ⟨sound_load pl ht reg dest s cfg hs, hf⟩
  | clear =>
    refine ⟨⟨⟨by simp [clear], ?_⟩, ⟨?_, ?_⟩, ?_⟩, hf⟩ <;> intros <;> simp_all [clear]
  | new d hd => exact ⟨sound_new pl reg dest s d hd hs, hf⟩
  | edit k r r' h1 h2 h3 h4 => exact ⟨sound_edit pl reg dest s k r r' h1 h2 h3 h4 hs, hf⟩
  | del k => exact ⟨sound_del pl reg dest s k hs, hf⟩
  | update u hp hr hd hq hc g hi =>
    subst hp hr
    refine ⟨⟨hs.keyed, apart_after u hq hc ht s.data hs.keyed _ _ dest hd hs.apart hi, hs.mem⟩, ?_⟩
    intro x hx
    rcases records_after u hq hc ht s.data hs.keyed _ _ dest hd (apart_room _ _ _ _ hs.apart) hi x hx with h | ⟨r, h1, h2⟩
    · exact hf x h
    · rw [h2]
      exact hb _ _ (hs.mem _ r h1)
  | other g hg =>
    refine ⟨⟨hs.keyed, ⟨fun k r hr => ⟨(hs.apart.free k r hr).1, fun x hx => ?_⟩, hs.apart.own⟩, hs.mem⟩, ?_⟩
    · exact (hg _ (hs.apart.free k r hr).1 x hx).2 k r hr rfl
    · intro x hx
      obtain ⟨h1, h2⟩ := (mem_onFile pl g x).mp hx
      exact (hg _ h1 x h2).1

/-- C111: at any point of any session, the collection has one entry for each of its keys, which is the
entry's identifier; each entry has a data file of its own which holds no record with another
identifier; every entry in memory and every record on file can be loaded. -/
theorem C111_reachable (pl : Places) (ht : Tidy pl) (reg : Registry) (hb : Blind reg) (dest : String) (fs : Flat)
    (hf : ∀ r ∈ onFile pl fs, Loadable reg r) (s : Session) (h : History pl reg dest ⟨[], fs⟩ s) :
    Keyed s.data ∧ Apart pl s.files dest s.data ∧ (∀ k r, s.data.lookup k = some r → Loadable reg r) ∧
      ∀ r ∈ onFile pl s.files, Loadable reg r := by
  have key : Sound pl reg dest s ∧ ∀ r ∈ onFile pl s.files, Loadable reg r := by
    induction h with
    | start =>
      refine ⟨⟨⟨by simp, ?_⟩, ⟨?_, ?_⟩, ?_⟩, hf⟩ <;> intros <;> simp_all
    | step _ h ih => exact sound_step pl ht reg hb dest _ _ ih.1 ih.2 h
  exact ⟨key.1.keyed, key.1.apart, key.1.mem, key.2⟩

/-- C111: whatever has been done in the session so far, a quiet `updatefiles()` that is not interrupted
succeeds, and the next session that loads the files, with any configuration, finds exactly the collection that
was in memory: the same identifiers, and under each an entry that says the same.
Missing: entries made by `new` must name a data file of their own, or none (see `C111_copy_defect`). -/
theorem C111_saved_partial (u : Update) (hq : u.verbose = false) (hcan : ∀ p, u.can p = true) (ht : Tidy u.places)
    (hb : Blind u.reg) (dest : String) (hd : NewIn u dest) (hfatal : u.cfg.fatal = false) (fs : Flat)
    (hf : ∀ r ∈ onFile u.places fs, Loadable u.reg r) (s : Session)
    (h : History u.places u.reg dest ⟨[], fs⟩ s) :
    ∃ fs', updatefiles u s.data s.files = (fs', none) ∧ ∀ cfg', ∃ data',
      load cfg' u.reg (view u.places fs') u.places.dirs [] = (data', none) ∧
      ∀ k, (data'.lookup k).map Rec.says = (s.data.lookup k).map Rec.says := by
  obtain ⟨h1, h2, h3, h4⟩ := C111_reachable u.places ht u.reg hb dest fs hf s h
  obtain ⟨fs', h5⟩ := C91_succeeds u hq hcan ht s.data h1 s.files dest hd hfatal h4
  refine ⟨fs', h5, fun cfg' => ?_⟩
  obtain ⟨data', h6, h7⟩ := C91_recorded u hq hcan ht s.data h1 s.files fs' dest hd (apart_room _ _ _ _ h2)
    (fun k r hr p => hb r p (h3 k r hr)) h5 cfg'
  refine ⟨data', h6, fun k => ?_⟩
  rw [h7 k, Option.map_map]
  rfl

theorem interrupted_complete (can : String → Bool) (ops : List Op) : ∀ s, Interrupted can ops s (runOps can ops s) := by
  induction ops with
  | nil => intro s; exact .stop _ _
  | cons op ops ih => intro s; exact .next (ih (op.run can s))

/-- C111: a completed update is a step of a session, so that the session can go on. -/
theorem C111_continues (u : Update) (hq : u.verbose = false) (hcan : ∀ p, u.can p = true)
    (dest : String) (hd : NewIn u dest) (s t : Session) (fs' : Flat)
    (h : History u.places u.reg dest s t) (hu : updatefiles u t.data t.files = (fs', none)) :
    History u.places u.reg dest s ⟨t.data, fs'⟩ := by
  refine .step h (.update t u rfl rfl hd hq hcan fs' ?_)
  have := interrupted_complete u.can (updateOps u t.data t.files) t.files
  rwa [← C110_operations u hq _ _ _ hu] at this

theorem alone (pl : Places) (fs : Flat) (hn : ((onFile pl fs).map Rec.id).Nodup) :
    ∀ f ∈ onFile pl fs, withId f.id (onFile pl fs) = [f] := by
  intro f hfm
  have hsub : (withId f.id (onFile pl fs)).Nodup := (List.Nodup.of_map _ hn).filter _
  have hall : ∀ x ∈ withId f.id (onFile pl fs), x = f := by
    intro x hx
    obtain ⟨h1, h2⟩ := mem_withId.mp hx
    exact List.inj_on_of_nodup_map hn h1 hfm h2
  have hmem : f ∈ withId f.id (onFile pl fs) := mem_withId.mpr ⟨hfm, rfl⟩
  generalize withId f.id (onFile pl fs) = l at hsub hall hmem
  match l, hsub, hall, hmem with
  | [a], _, hall, _ => rw [hall a (by simp)]
  | a :: b :: l, hsub, hall, _ =>
    exfalso
    have ha := hall a (by simp)
    have hb := hall b (by simp)
    rw [ha, hb] at hsub
    simp at hsub

theorem loaded (pl : Places) (ht : Tidy pl) (reg : Registry) (fs : Flat) (hn : ((onFile pl fs).map Rec.id).Nodup)
    (cfg : Cfg) (data : Coll) (hl : load cfg reg (view pl fs) pl.dirs [] = (data, none)) (k : String) :
    data.lookup k = (withId k (onFile pl fs)).head? := by
  have := C21_precedence cfg reg (view pl fs) pl.dirs [] data hl k
  rw [records_view _ _ ht] at this
  rw [this]
  cases hw : withId k (onFile pl fs) with
  | nil => simp [winner]
  | cons f l =>
    obtain ⟨h1, h2⟩ := mem_withId.mp (by rw [hw]; simp : f ∈ withId k (onFile pl fs))
    subst h2
    rw [alone pl fs hn f h1] at hw
    cases hw
    cases cfg.overwrite <;> simp [winner]

/-- C111: a session that only loads has nothing to save.  When no identifier is on file twice, a quiet
`updatefiles()` without `deletefiles`, right after a load, changes no file at all. -/
theorem C111_idle (u : Update) (hq : u.verbose = false) (hcan : ∀ p, u.can p = true) (ht : Tidy u.places)
    (hdel : u.deletefiles = false) (dest : String) (hd : NewIn u dest) (hfatal : u.cfg.fatal = false) (fs : Flat)
    (hf : ∀ r ∈ onFile u.places fs, Loadable u.reg r) (hn : ((onFile u.places fs).map Rec.id).Nodup)
    (cfg : Cfg) (data : Coll) (hl : load cfg u.reg (view u.places fs) u.places.dirs [] = (data, none)) :
    updatefiles u data fs = (fs, none) := by
  have hs : Sound u.places u.reg dest ⟨data, fs⟩ := by
    have := sound_load u.places ht u.reg dest ⟨[], fs⟩ cfg
      ⟨⟨by simp, by intros; simp_all⟩, ⟨by intros; simp_all, by intros; simp_all⟩, by intros; simp_all⟩
    simp only [hl] at this
    exact this
  have hone := alone u.places fs hn
  have W := loaded u.places ht u.reg fs hn cfg data hl
  have hob : ∀ p, ¬ Obsolete u.places data fs p := by
    rintro p ⟨f, h1, -, h2⟩
    rw [W, hone f h1] at h2
    simp at h2
  have hun : ∀ r, ¬ Unsaved u.places data fs r := by
    rintro r ⟨h1, h2⟩
    rw [W] at h1
    exact h2 h1
  have hroom := apart_room _ _ _ _ hs.apart
  obtain ⟨fs', hu⟩ := C91_succeeds u hq hcan ht data hs.keyed fs dest hd hfatal hf
  have hi := interrupted_complete u.can (updateOps u data fs) fs
  rw [← C110_operations u hq _ _ _ hu] at hi
  rw [hu]
  congr 1
  funext q
  by_cases hp : q ∈ paths u.places
  · rcases C110_files_partial u hq hcan ht data hs.keyed fs fs' dest hd hroom hi q hp with
      h | ⟨r, h, -⟩ | ⟨h, -⟩ | ⟨h, -⟩
    · exact h
    · exact absurd h (hun r)
    · exact absurd h (hob q)
    · rw [hdel] at h; cases h
  · exact C110_untouched u hq hcan ht data hs.keyed fs fs' dest hd hroom hi q hp
      (fun p h => absurd h (hob p)) (fun h => by rw [hdel] at h; cases h)

/-! ## A copied entry -/

theorem addOps_write (u : Update) (dest : String) (hd : NewIn u dest) (data : Coll) (k : String) (r : Rec)
    (hr : data.lookup k = some r) (l : List String) (hl : ∀ j ∈ l, (data.lookup j).isSome) (hk : k ∈ l) :
    Op.write (place dest r) r ∈ addOps u data l := by
  induction l with
  | nil => simp at hk
  | cons j l ih =>
    obtain ⟨x, hx⟩ := Option.isSome_iff_exists.mp (hl j List.mem_cons_self)
    simp only [addOps, hx, newTarget_place u dest hd x, List.mem_cons]
    rcases List.mem_cons.mp hk with rfl | h
    · rw [hr] at hx
      cases hx
      exact Or.inl rfl
    · exact Or.inr (ih (fun j h => hl j (List.mem_cons_of_mem _ h)) h)

theorem only_write (can : String → Bool) (hcan : ∀ p, can p = true) (p : String) (r : Rec) (ops : List Op)
    (h : ∀ op ∈ ops, op = .write p r) (hne : ops ≠ []) :
    ∀ s, runOps can ops s = fun q => if q = p then some (contentOf r) else s q := by
  induction ops with
  | nil => exact absurd rfl hne
  | cons op ops ih =>
    intro s
    have h1 := h op List.mem_cons_self
    subst h1
    have e : runOps can (.write p r :: ops) s = runOps can ops (writeFile can s p r) := rfl
    rw [e]
    by_cases ho : ops = []
    · subst ho
      funext q
      simp [runOps, writeFile, hcan]
    · rw [ih (fun o h' => h o (List.mem_cons_of_mem _ h')) ho]
      funext q
      by_cases hq : q = p <;> simp [writeFile, hcan, hq]

/-- **C111 disagreement.** A new entry made by copying the data of an existing one and giving it another identifier
names that entry's file, as `new` demands a `'fromfile'` item (`dat.py:334-356`, see
`C62_new_fromfile_defect`).  `updatefiles` then writes the new entry over the file without a warning
(`dat.py:479-491`): the existing entry, unchanged in memory, is no longer on file. -/
theorem C111_copy_defect (u : Update) (hq : u.verbose = false) (hcan : ∀ p, u.can p = true) (ht : Tidy u.places)
    (hdel : u.deletefiles = false) (dest : String) (hd : NewIn u dest) (hfatal : u.cfg.fatal = false) (fs : Flat)
    (hf : ∀ r ∈ onFile u.places fs, Loadable u.reg r) (hn : ((onFile u.places fs).map Rec.id).Nodup)
    (cfg : Cfg) (data : Coll) (hl : load cfg u.reg (view u.places fs) u.places.dirs [] = (data, none))
    (f : Rec) (hfm : f ∈ onFile u.places fs) (n : Rec) (hnl : Loadable u.reg n)
    (hid : ∀ x ∈ onFile u.places fs, x.id ≠ n.id) (hfile : n.fromfile = f.fromfile) :
    ∃ data' fs', new u.reg ⟨some n.id, some n.cls, some n.doc, some n.fromfile, n.rest⟩ data = (data', none) ∧
      updatefiles u data' fs = (fs', none) ∧ data'.lookup f.id = some f ∧
      withId f.id (onFile u.places fs) = [f] ∧ withId f.id (onFile u.places fs') = [] := by
  have hone := alone u.places fs hn
  have W := loaded u.places ht u.reg fs hn cfg data hl
  have hs : Sound u.places u.reg dest ⟨data, fs⟩ := by
    have := sound_load u.places ht u.reg dest ⟨[], fs⟩ cfg
      ⟨⟨by simp, by intros; simp_all⟩, ⟨by intros; simp_all, by intros; simp_all⟩, by intros; simp_all⟩
    simp only [hl] at this
    exact this
  have hk : Keyed (data.set n.id n) := keyed_set hs.keyed _ _ rfl
  have hnone : withId n.id (onFile u.places fs) = [] := by
    by_contra h
    obtain ⟨x, h1, h2⟩ := withId_ne_nil.mp h
    exact hid x h1 h2
  have hlook : ∀ k, (data.set n.id n).lookup k = if k = n.id then some n else (withId k (onFile u.places fs)).head? := by
    intro k
    rw [lookup_set, W]
  obtain ⟨hfp, hfr⟩ := (mem_onFile _ _ f).mp hfm
  have hplace : place dest n = f.fromfile := by
    rw [place_of_path u.places dest n (by rw [hfile]; exact hfp), hfile]
  have hhome : home u.places fs dest n = f.fromfile := by
    unfold home
    rw [hnone]
    exact hplace
  obtain ⟨fs', hu⟩ := C91_succeeds u hq hcan ht (data.set n.id n) hk fs dest hd hfatal hf
  refine ⟨data.set n.id n, fs', ?_, hu, ?_, hone f hfm, ?_⟩
  · obtain ⟨mk, h1, h2⟩ := hnl
    simp [new, h1, mkNew, h2]
  · rw [hlook, if_neg (hid f hfm), hone f hfm]
    rfl
  · have hob : ∀ p, ¬ Obsolete u.places (data.set n.id n) fs p := by
      rintro p ⟨x, h1, -, h2⟩
      rw [hlook, if_neg (hid x h1), hone x h1] at h2
      simp at h2
    have hops : ∀ op ∈ updateOps u (data.set n.id n) fs, op = .write f.fromfile n := by
      intro op hop
      have hleg := ops_legit u hq hcan ht (data.set n.id n) hk fs dest hd op hop
      cases op with
      | write p r =>
        obtain ⟨⟨h1, h2⟩, rfl⟩ := hleg
        rw [hlook] at h1
        split at h1
        · cases h1
          rw [hhome]
        · exact absurd h1 h2
      | hide p => exact absurd hleg (hob p)
      | remove p => rw [Legit, hdel] at hleg; cases hleg.1
    have hne : updateOps u (data.set n.id n) fs ≠ [] := by
      have hcheck : ∀ rep, checkFiles u.cfg u.reg u.places (data.set n.id n) fs = .ok rep →
          rep.redundant = [] ∧ n.id ∈ rep.added ∧ ∀ j ∈ rep.added, ((data.set n.id n).lookup j).isSome := by
        intro rep hc
        have D := C23_check_report u.cfg u.reg (view u.places fs) u.places.dirs (data.set n.id n) rep hk.distinct hc
        have hr := records_view u.cfg.recursive u.places ht fs
        refine ⟨?_, ?_, ?_⟩
        · cases hred : rep.redundant with
          | nil => rfl
          | cons e l =>
            exfalso
            obtain ⟨j, files⟩ := e
            have h1 := D.redundant j
            rw [hr, hred] at h1
            simp only [List.lookup_cons, beq_self_eq_true] at h1
            split at h1
            · rename_i h2
              obtain ⟨x, hx1, hx2⟩ := withId_ne_nil.mp
                (show withId j (onFile u.places fs) ≠ [] by intro h0; rw [h0] at h2; simp at h2)
              subst hx2
              rw [hone x hx1] at h2
              simp at h2
            · cases h1
        · rw [D.added, hr]
          refine ⟨((set_keys data n.id n hs.keyed.distinct).2 n.id).mpr (Or.inl rfl), ?_⟩
          rintro ⟨x, h1, h2⟩
          exact hid x h1 h2
        · intro j hj
          have := ((D.added j).mp hj).1
          obtain ⟨e, he, rfl⟩ := List.mem_map.mp this
          exact List.lookup_isSome_iff.mpr ⟨e, he, by simp⟩
      obtain ⟨rep, hc⟩ := check_ok u.cfg u.reg (view u.places fs) u.places.dirs hfatal
        (by rw [records_view _ _ ht]; exact hf) (data.set n.id n)
      obtain ⟨hred, hadd, hall⟩ := hcheck rep hc
      have hfirst : repairOps rep ++ badOps u rep = [] := by
        simp [repairOps, hred, badOps, hdel]
      have hw : Op.write (place dest n) n ∈ recordOps u (data.set n.id n) rep := by
        unfold recordOps
        refine List.mem_append_left _ (List.mem_append_left _ ?_)
        exact addOps_write u dest hd _ n.id n (by rw [hlook, if_pos rfl]) rep.added hall hadd
      have hc' : checkFiles u.cfg u.reg u.places (data.set n.id n) fs = .ok rep := hc
      unfold updateOps
      simp only [hc', hfirst, runOps, List.foldl_nil, List.nil_append, ite_self]
      exact List.ne_nil_of_mem hw
    have hfs' := C110_operations u hq _ _ _ hu
    rw [only_write u.can hcan f.fromfile n _ hops hne] at hfs'
    by_contra hnil
    obtain ⟨x, h1, h2⟩ := withId_ne_nil.mp hnil
    obtain ⟨hxp, hxr⟩ := (mem_onFile _ _ x).mp h1
    by_cases hxe : x.fromfile = f.fromfile
    · rw [recordAt_content fs' _ n (by rw [hfs', hxe]; simp)] at hxr
      have h3 := congrArg Rec.id (Option.some.inj hxr)
      exact hid f hfm (h2.symm.trans h3.symm)
    · have hx : recordAt fs x.fromfile = some x := by
        unfold recordAt at hxr ⊢
        rw [hfs'] at hxr
        simpa [hxe] using hxr
      have hxm : x ∈ withId f.id (onFile u.places fs) := mem_withId.mpr ⟨(mem_onFile _ _ x).mpr ⟨hxp, hx⟩, h2⟩
      rw [hone f hfm, List.mem_singleton] at hxm
      exact hxe (by rw [hxm])

end PyroMat.Data.Props
