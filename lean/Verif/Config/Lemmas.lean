import Verif.Config.Spec

set_option linter.unusedSimpArgs false

namespace PyroMat.Config

open Spec

/-- Two states with the same keys in the same order whose entries are related by `R`. -/
inductive SRel (R : Entry → Entry → Prop) : State → State → Prop where
  | nil : SRel R [] []
  | cons {k e e' s s'} : R e e' → SRel R s s' → SRel R ((k, e) :: s) ((k, e') :: s')

theorem SRel.refl {R : Entry → Entry → Prop} (h : ∀ e, R e e) : ∀ s, SRel R s s
  | [] => .nil
  | (_, e) :: s => .cons (h e) (SRel.refl h s)

theorem SRel.trans {R : Entry → Entry → Prop} (h : ∀ a b c, R a b → R b c → R a c)
    {s t u : State} (h1 : SRel R s t) (h2 : SRel R t u) : SRel R s u := by
  induction h1 generalizing u with
  | nil => exact h2
  | cons hr _ ih =>
    cases h2 with
    | cons hr' h2' => exact .cons (h _ _ _ hr hr') (ih h2')

theorem SRel.keys {R} {s t : State} (h : SRel R s t) : t.map Prod.fst = s.map Prod.fst := by
  induction h with
  | nil => rfl
  | cons _ _ ih => simp [ih]

theorem SRel.find {R} {s t : State} (h : SRel R s t) (k : String) :
    (s.find k = none ∧ t.find k = none) ∨
    ∃ e e', s.find k = some e ∧ t.find k = some e' ∧ R e e' := by
  induction h with
  | nil => left; exact ⟨rfl, rfl⟩
  | @cons k' e e' s s' hr _ ih =>
    by_cases hk : (k == k') = true
    · right
      exact ⟨e, e', by simp [State.find, List.lookup_cons, hk],
        by simp [State.find, List.lookup_cons, hk], hr⟩
    · have hk' : (k == k') = false := by simpa using hk
      simpa [State.find, List.lookup_cons, hk'] using ih

theorem SRel.modify {R : Entry → Entry → Prop} (hrefl : ∀ e, R e e) (s : State) (k : String)
    (f : Entry → Entry) (hf : ∀ e, s.find k = some e → R e (f e)) : SRel R s (s.modify k f) := by
  induction s with
  | nil => exact .nil
  | cons p s ih =>
    obtain ⟨k', e⟩ := p
    by_cases hk : k' = k
    · subst hk
      simp only [State.modify, if_true]
      exact .cons (hf e (by simp [State.find, List.lookup_cons])) (SRel.refl hrefl s)
    · simp only [State.modify, hk, if_false]
      refine .cons (hrefl e) (ih ?_)
      intro e' he'
      apply hf
      have : (k == k') = false := by simpa using fun h => hk h.symm
      simpa [State.find, List.lookup_cons, this] using he'

theorem find_modify_same {s : State} {k : String} {e : Entry} (f : Entry → Entry)
    (h : s.find k = some e) : (s.modify k f).find k = some (f e) := by
  induction s with
  | nil => simp [State.find] at h
  | cons p s ih =>
    obtain ⟨k', e'⟩ := p
    by_cases hk : k' = k
    · subst hk
      simp [State.find, List.lookup_cons] at h
      subst h
      simp [State.modify, State.find, List.lookup_cons]
    · have : (k == k') = false := by simpa using fun h => hk h.symm
      simp only [State.find, List.lookup_cons, this] at h
      have := ih h
      simp only [State.modify, hk, if_false, State.find, List.lookup_cons]
      rw [‹(k == k') = false›]
      exact this

theorem find_modify_other {s : State} {k j : String} (f : Entry → Entry) (h : j ≠ k) :
    (s.modify k f).find j = s.find j := by
  induction s with
  | nil => rfl
  | cons p s ih =>
    obtain ⟨k', e'⟩ := p
    by_cases hk : k' = k
    · subst hk
      have : (j == k') = false := by simpa using h
      simp [State.modify, State.find, List.lookup_cons, this]
    · simp only [State.modify, hk, if_false, State.find, List.lookup_cons]
      by_cases hj : (j == k') = true
      · rw [hj]
      · have hj' : (j == k') = false := by simpa using hj
        rw [hj']
        exact ih

theorem modify_self {s : State} {k : String} {e : Entry} (h : s.find k = some e) :
    s.modify k (fun _ => e) = s := by
  induction s with
  | nil => rfl
  | cons p s ih =>
    obtain ⟨k', e'⟩ := p
    by_cases hk : k' = k
    · subst hk
      simp [State.find, List.lookup_cons] at h
      simp [State.modify, h]
    · have hk2 : (k == k') = false := by simpa using fun h => hk h.symm
      simp only [State.find, List.lookup_cons, hk2] at h
      simp [State.modify, hk, ih h]

/-! ### Entry-level facts about `write` -/

/-- Induction principle for `write`: a relation that is reflexive, transitive and closed under
storing a castable scalar in a writable entry is closed under `write`. -/
theorem write_rel {R : Entry → Entry → Prop} (c : Casts) (hrefl : ∀ e, R e e)
    (htrans : ∀ a b d, R a b → R b d → R a d)
    (hstore : ∀ e v t, e.writeAllowed = true → c.cast e.etype v = some t → R e (e.store t).1) :
    ∀ (v : PyVal) (e : Entry), R e (Entry.write c e v).1 := by
  have hs : ∀ v e, R e (Entry.writeScalar c e v).1 := by
    intro v e
    unfold Entry.writeScalar
    split
    · split
      · exact hrefl e
      · rename_i h1 _ t h2; exact hstore e v t h1 h2
    · exact hrefl e
  intro v
  apply PyVal.rec (motive_1 := fun v => ∀ e, R e (Entry.write c e v).1)
    (motive_2 := fun vs => ∀ e, R e (Entry.writeAll c e vs).1)
  · intro e; rw [Entry.write]; · exact hs _ e
    all_goals simp
  · intro b e; rw [Entry.write]; · exact hs _ e
    all_goals simp
  · intro b e; rw [Entry.write]; · exact hs _ e
    all_goals simp
  · intro b e; rw [Entry.write]; · exact hs _ e
    all_goals simp
  · intro b e; rw [Entry.write]; · exact hs _ e
    all_goals simp
  · intro xs ih e
    rw [Entry.write]
    split
    · exact ih e
    · exact hs _ e
  · intro xs ih e
    rw [Entry.write]
    split
    · exact ih e
    · exact hs _ e
  · intro b e; rw [Entry.write]; · exact hs _ e
    all_goals simp
  · intro e; rw [Entry.writeAll]; exact hrefl e
  · intro v vs ih1 ih2 e
    rw [Entry.writeAll]
    have h1 := ih1 e
    cases hw : Entry.write c e v with
    | mk e' o =>
      rw [hw] at h1
      cases o with
      | none => exact htrans _ _ _ h1 (ih2 e')
      | some err => exact h1

/-- Which operations are allowed to restore a default / change a default. -/
def Op.isRestore (k : String) : Op → Bool
  | .restore (some j) => j == k
  | _ => false

/-- Closure of a state relation under `setItem`, `update`, `loadFile`, `loadLoop`. -/
structure Closed (R : Entry → Entry → Prop) : Prop where
  refl : ∀ e, R e e
  trans : ∀ a b d, R a b → R b d → R a d
  write : ∀ c v e, R e (Entry.write c e v).1

theorem setItem_rel {R} (h : Closed R) (c : Casts) (b : Bool) (s : State) (k : String)
    (v : PyVal) : SRel R s (setItem c b s k v).1 := by
  unfold setItem
  cases hk : s.find k with
  | none => exact SRel.refl h.refl s
  | some e =>
    refine SRel.modify h.refl s k _ ?_
    intro e' he'
    rw [hk] at he'
    cases he'
    exact h.write c v e

theorem update_rel {R} (h : Closed R) (c : Casts) (b : Bool) (d : List (String × PyVal)) :
    ∀ s : State, SRel R s (update c b s d).1 := by
  induction d with
  | nil => intro s; exact SRel.refl h.refl s
  | cons p d ih =>
    obtain ⟨k, v⟩ := p
    intro s
    unfold update
    have h1 := setItem_rel h c b s k v
    cases hs : setItem c b s k v with
    | mk s' o =>
      rw [hs] at h1
      cases o with
      | none => exact SRel.trans h.trans h1 (ih s')
      | some err => exact h1

theorem loadFile_rel {R} (h : Closed R) (c : Casts) (b : Bool) (fs : FS) (s : State) (p : String) :
    SRel R s (loadFile c b fs s p).1 := by
  unfold loadFile
  split
  · exact SRel.refl h.refl s
  · exact SRel.refl h.refl s
  · exact update_rel h c b _ s

theorem loadLoop_rel {R} (h : Closed R) (c : Casts) (b : Bool) (fs : FS)
    (expand : String → String) (s : State) (k : Nat) (found : List String) :
    SRel R s (loadLoop c b fs expand s k found).1 := by
  fun_induction loadLoop c b fs expand s k found with
  | case1 => exact SRel.refl h.refl _
  | case2 => assumption
  | case3 => exact SRel.refl h.refl _
  | case4 => assumption
  | case5 s k found raw _ path _ r _ s' err hl =>
    have := loadFile_rel h c b fs s path
    rw [hl] at this
    exact this
  | case6 s k found raw _ path _ r _ s' hl ih =>
    have := loadFile_rel h c b fs s path
    rw [hl] at this
    exact SRel.trans h.trans this ih

theorem loadRoot_rel {R} (h : Closed R) (c : Casts) (b : Bool) (fs : FS)
    (expand : String → String) (s : State) : SRel R s (loadRoot c b fs expand s).1 := by
  unfold loadRoot
  split
  · exact SRel.refl h.refl _
  · exact loadLoop_rel h ..

/-- Every operation relates the state before to the state after by `R`, provided the default
operations do. -/
theorem step_rel {R} (h : Closed R) (env : Env) (s : State) (op : Op)
    (hr : ∀ k, op = .restore (some k) → ∀ e, R e e.restoreDefault)
    (hd : ∀ k v, op = .entrySetDefault k v → ∀ e, R e (Entry.setDefault env.casts e v).1) :
    SRel R s (step env s op).1 := by
  cases op with
  | set k v => exact setItem_rel h ..
  | update d => exact update_rel h ..
  | restore k =>
    cases k with
    | none => exact SRel.refl h.refl s
    | some k =>
      simp only [step, restoreDefault]
      cases hk : s.find k with
      | none => exact SRel.refl h.refl s
      | some e => exact SRel.modify h.refl s k _ (fun e _ => hr k rfl e)
  | load p =>
    unfold step
    split <;> first
      | exact loadRoot_rel h ..
      | exact loadFile_rel h ..
      | simp_all
  | entryWrite k v =>
    simp only [step]
    cases hk : s.find k with
    | none => exact SRel.refl h.refl s
    | some e =>
      refine SRel.modify h.refl s k _ ?_
      intro e' he'
      rw [hk] at he'
      cases he'
      exact h.write env.casts v e
  | entrySetDefault k v =>
    simp only [step]
    cases hk : s.find k with
    | none => exact SRel.refl h.refl s
    | some e =>
      refine SRel.modify h.refl s k _ ?_
      intro e' he'
      rw [hk] at he'
      cases he'
      exact hd k v rfl e
  | get k =>
    simp only [step]
    split <;> exact SRel.refl h.refl s

theorem run_rel {R} (h : Closed R) (hr : ∀ e, R e e.restoreDefault)
    (hd : ∀ c v e, R e (Entry.setDefault c e v).1) (hist : List (Env × Op)) :
    ∀ s : State, SRel R s (run s hist) := by
  induction hist with
  | nil => intro s; exact SRel.refl h.refl s
  | cons p hist ih =>
    obtain ⟨env, op⟩ := p
    intro s
    exact SRel.trans h.trans
      (step_rel h env s op (fun _ _ e => hr e) (fun _ v _ e => hd env.casts v e)) (ih _)

end PyroMat.Config
