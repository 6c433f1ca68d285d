import Verif.Config.Lemmas

/-!
# Property theorems C11-C17: the configuration object
-/

set_option linter.unusedSimpArgs false

namespace PyroMat.Config.Props

open PyroMat PyroMat.Config PyroMat.Config.Spec

/-! ## C11 - read-only parameters -/

/-- Entries that are not writable stay as they are. -/
def ROKeep (e e' : Entry) : Prop := e.writeAllowed = false → e' = e

theorem roKeep_closed : Closed ROKeep where
  refl _ _ := rfl
  trans a b d h1 h2 h := by
    have hb := h1 h
    subst hb
    exact h2 h
  write c v e := by
    apply write_rel (R := ROKeep) c (fun _ _ => rfl)
    · intro a b d h1 h2 h
      have hb := h1 h
      subst hb
      exact h2 h
    · intro e v t hw _ h
      rw [hw] at h
      cases h

theorem roKeep_restore (e : Entry) : ROKeep e e.restoreDefault := by
  intro h; simp [Entry.restoreDefault, h]

theorem roKeep_setDefault (c : Casts) (v : PyVal) (e : Entry) :
    ROKeep e (Entry.setDefault c e v).1 := by
  intro h; simp [Entry.setDefault, h]

/-- C11.  In any state, under any history of operations (assignments, updates, file loads,
restores, direct entry writes), in any environments, the value of a read-only parameter reads
the same before and after. -/
theorem C11_readonly (s : State) (hist : List (Env × Op)) (k : String) (e : Entry)
    (hk : s.find k = some e) (hro : e.writeAllowed = false) :
    getItem (run s hist) k = getItem s k := by
  rcases (run_rel roKeep_closed roKeep_restore roKeep_setDefault hist s).find k with h | h
  · rw [hk] at h; exact absurd h.1 (by simp)
  · obtain ⟨e1, e2, h1, h2, hr⟩ := h
    rw [hk] at h1
    cases h1
    rw [hr hro] at h2
    simp [getItem, h2, hk]

/-- C11 for the shipped table: `install_dir` and `version` always read as they were set at
start-up. -/
theorem C11_install_dir_version (dir ver cp dd rd : String) (T p nan : Fl)
    (hist : List (Env × Op)) :
    getItem (run (initState dir ver cp dd rd T p nan) hist) "install_dir"
      = .ok (.one (.str dir)) ∧
    getItem (run (initState dir ver cp dd rd T p nan) hist) "version" = .ok (.one (.str ver)) := by
  constructor
  · rw [C11_readonly _ hist "install_dir" _ rfl rfl]; rfl
  · rw [C11_readonly _ hist "version" _ rfl rfl]; rfl

/-! ## C12 - appended parameters -/

/-- An appended entry keeps its list as a prefix. -/
def PrefixKeep (e e' : Entry) : Prop :=
  e'.append = e.append ∧ (e.append = true → ∀ vs, e.value = .many vs →
    ∃ ws, e'.value = .many (vs ++ ws))

theorem prefixKeep_refl (e : Entry) : PrefixKeep e e :=
  ⟨rfl, fun _ vs h => ⟨[], by simp [h]⟩⟩

theorem prefixKeep_trans (a b d : Entry) (h1 : PrefixKeep a b) (h2 : PrefixKeep b d) :
    PrefixKeep a d := by
  refine ⟨h2.1.trans h1.1, fun ha vs hv => ?_⟩
  obtain ⟨ws, hw⟩ := h1.2 ha vs hv
  obtain ⟨xs, hx⟩ := h2.2 (h1.1.trans ha) _ hw
  exact ⟨ws ++ xs, by rw [hx, List.append_assoc]⟩

theorem prefixKeep_closed : Closed PrefixKeep where
  refl := prefixKeep_refl
  trans := prefixKeep_trans
  write c v e := by
    apply write_rel (R := PrefixKeep) c prefixKeep_refl prefixKeep_trans
    intro e v t _ _
    unfold Entry.store
    by_cases ha : e.append = true
    · simp only [ha, if_true]
      cases hv : e.value with
      | one x => exact prefixKeep_refl e
      | many vs =>
        refine ⟨by simp [ha], fun _ ws hw => ?_⟩
        rw [hv] at hw
        cases hw
        exact ⟨[t], rfl⟩
    · refine ⟨by simp [ha], fun h => absurd h ha⟩

theorem prefixKeep_setDefault (c : Casts) (v : PyVal) (e : Entry) :
    PrefixKeep e (Entry.setDefault c e v).1 := by
  unfold Entry.setDefault
  split
  · split
    · exact prefixKeep_refl e
    · exact ⟨rfl, fun _ vs h => ⟨[], by simp [h]⟩⟩
  · exact prefixKeep_refl e

/-- C12.  Whatever happens to the configuration short of restoring parameter `k` itself, the
list read from an appended parameter `k` earlier is a prefix of the list read later. -/
theorem C12_append_only (hist : List (Env × Op)) (k : String)
    (hh : ∀ p ∈ hist, Op.isRestore k p.2 = false) :
    ∀ (s : State) (e : Entry) (vs : List TVal), s.find k = some e → e.append = true →
      getItem s k = .ok (.many vs) →
      ∃ ws, getItem (run s hist) k = .ok (.many (vs ++ ws)) := by
  induction hist with
  | nil => intro s e vs _ _ hv; exact ⟨[], by simpa [run] using hv⟩
  | cons p hist ih =>
    obtain ⟨env, op⟩ := p
    intro s e vs hk ha hv
    have hop : Op.isRestore k op = false := hh (env, op) (by simp)
    have hstep : ∃ e', (step env s op).1.find k = some e' ∧ PrefixKeep e e' := by
      by_cases hr : ∃ j, op = .restore (some j)
      · obtain ⟨j, rfl⟩ := hr
        have hjk : k ≠ j := by
          intro h; subst h; simp [Op.isRestore] at hop
        simp only [step, restoreDefault]
        cases hj : s.find j with
        | none => exact ⟨e, hk, prefixKeep_refl e⟩
        | some e0 => exact ⟨e, by simp only; rw [find_modify_other _ hjk]; exact hk,
            prefixKeep_refl e⟩
      · rcases (step_rel prefixKeep_closed env s op (fun j h => absurd ⟨j, h⟩ hr)
          (fun _ v _ e => prefixKeep_setDefault env.casts v e)).find k with h | h
        · rw [hk] at h; exact absurd h.1 (by simp)
        · obtain ⟨e1, e2, h1, h2, h3⟩ := h
          rw [hk] at h1
          cases h1
          exact ⟨e2, h2, h3⟩
    obtain ⟨e', hk', hp⟩ := hstep
    have hv' : e.value = .many vs := by
      simp only [getItem, hk, Except.ok.injEq] at hv
      exact hv
    obtain ⟨ws, hw⟩ := hp.2 ha vs hv'
    obtain ⟨xs, hx⟩ := ih (fun q hq => hh q (List.mem_cons_of_mem _ hq)) _ e' (vs ++ ws) hk'
      (hp.1.trans ha) (by simp [getItem, hk', hw])
    exact ⟨ws ++ xs, by rw [run, hx, List.append_assoc]⟩

/-- C12, restoring: only `restore_default` shrinks the list, and to exactly the default. -/
theorem C12_restore_appended (env : Env) (s : State) (k : String) (e : Entry)
    (hk : s.find k = some e) (ha : e.append = true) (hw : e.writeAllowed = true) :
    getItem (step env s (.restore (some k))).1 k = .ok (.many [e.default]) := by
  simp only [step, restoreDefault, hk]
  simp only [getItem]
  rw [find_modify_same _ hk]
  simp [Entry.restoreDefault, hw, ha]

/-- The three appended parameters of the shipped table. -/
example (dir ver cp dd rd : String) (T p nan : Fl) :
    ∀ k ∈ ["config_file", "dat_dir", "reg_dir"], ∃ e, (initState dir ver cp dd rd T p nan).find k
      = some e ∧ e.append = true ∧ e.writeAllowed = true := by
  intro k hk
  simp only [List.mem_cons, List.not_mem_nil, or_false] at hk
  rcases hk with rfl | rfl | rfl
  all_goals exact ⟨_, rfl, rfl, rfl⟩

theorem writeAll_append (c : Casts) (xs : List PyVal) :
    ∀ (ts : List TVal) (e : Entry) (vs : List TVal), e.writeAllowed = true → e.append = true →
      e.value = .many vs → (leaves.leavesAll xs).mapM (c.cast e.etype) = some ts →
      Entry.writeAll c e xs = ({ e with value := .many (vs ++ ts) }, none) := by
  have main : ∀ v : PyVal, ∀ (ts : List TVal) (e : Entry) (vs : List TVal),
      e.writeAllowed = true → e.append = true → e.value = .many vs →
      (leaves v).mapM (c.cast e.etype) = some ts →
      Entry.write c e v = ({ e with value := .many (vs ++ ts) }, none) := by
    intro v
    have hsc : ∀ v : PyVal, leaves v = [v] → (∀ e, Entry.write c e v = Entry.writeScalar c e v) →
        ∀ (ts : List TVal) (e : Entry) (vs : List TVal),
        e.writeAllowed = true → e.append = true → e.value = .many vs →
        (leaves v).mapM (c.cast e.etype) = some ts →
        Entry.write c e v = ({ e with value := .many (vs ++ ts) }, none) := by
      intro v hl hwv ts e vs hw ha hv hm
      rw [hwv, Entry.writeScalar]
      rw [hl] at hm
      cases hc : c.cast e.etype v with
      | none => simp [hc] at hm
      | some t =>
        simp [hc] at hm
        subst hm
        simp [hwv, Entry.store, ha, hv, hw, hc]
    apply PyVal.rec (motive_1 := fun v => ∀ (ts : List TVal) (e : Entry) (vs : List TVal),
        e.writeAllowed = true → e.append = true → e.value = .many vs →
        (leaves v).mapM (c.cast e.etype) = some ts →
        Entry.write c e v = ({ e with value := .many (vs ++ ts) }, none))
      (motive_2 := fun xs => ∀ (ts : List TVal) (e : Entry) (vs : List TVal),
        e.writeAllowed = true → e.append = true → e.value = .many vs →
        (leaves.leavesAll xs).mapM (c.cast e.etype) = some ts →
        Entry.writeAll c e xs = ({ e with value := .many (vs ++ ts) }, none))
    · exact hsc _ (by rw [leaves]; all_goals simp) (fun e => by rw [Entry.write]; all_goals simp)
    · intro b; exact hsc _ (by rw [leaves]; all_goals simp) (fun e => by rw [Entry.write]; all_goals simp)
    · intro b; exact hsc _ (by rw [leaves]; all_goals simp) (fun e => by rw [Entry.write]; all_goals simp)
    · intro b; exact hsc _ (by rw [leaves]; all_goals simp) (fun e => by rw [Entry.write]; all_goals simp)
    · intro b; exact hsc _ (by rw [leaves]; all_goals simp) (fun e => by rw [Entry.write]; all_goals simp)
    · intro xs ih ts e vs hw ha hv hm
      rw [Entry.write, if_pos (by simp [hw, ha])]
      exact ih ts e vs hw ha hv (by rw [leaves] at hm; exact hm)
    · intro xs ih ts e vs hw ha hv hm
      rw [Entry.write, if_pos (by simp [hw, ha])]
      exact ih ts e vs hw ha hv (by rw [leaves] at hm; exact hm)
    · intro b; exact hsc _ (by rw [leaves]; all_goals simp) (fun e => by rw [Entry.write]; all_goals simp)
    · intro ts e vs hw ha hv hm
      rw [leaves.leavesAll] at hm
      simp at hm
      subst hm
      rw [Entry.writeAll]
      simp [← hv]
    · intro v xs ih1 ih2 ts e vs hw ha hv hm
      rw [leaves.leavesAll, List.mapM_append] at hm
      cases h1 : (leaves v).mapM (c.cast e.etype) with
      | none => simp [h1] at hm
      | some t1 =>
        cases h2 : (leaves.leavesAll xs).mapM (c.cast e.etype) with
        | none => simp [h1, h2] at hm
        | some t2 =>
          simp [h1, h2] at hm
          subst hm
          rw [Entry.writeAll, ih1 t1 e vs hw ha hv h1]
          have h3 := ih2 t2 { e with value := .many (vs ++ t1) } (vs ++ t1) hw ha rfl h2
          simp only
          rw [h3, List.append_assoc]
  intro ts e vs hw ha hv hm
  have := main (.list xs) ts e vs hw ha hv (by rw [leaves]; exact hm)
  rw [Entry.write] at this
  simpa [hw, ha] using this

/-- C12, what is appended: assigning a value (or a list of values, nested in any way) whose
scalars can all be cast appends exactly those scalars in order. -/
theorem C12_append_exact (c : Casts) (b : Bool) (s : State) (k : String) (e : Entry)
    (vs ts : List TVal) (v : PyVal) (hk : s.find k = some e) (hw : e.writeAllowed = true)
    (ha : e.append = true) (hv : getItem s k = .ok (.many vs))
    (hc : (leaves v).mapM (c.cast e.etype) = some ts) :
    getItem (setItem c b s k v).1 k = .ok (.many (vs ++ ts)) ∧ (setItem c b s k v).2 = none := by
  have hv' : e.value = .many vs := by
    simp only [getItem, hk, Except.ok.injEq] at hv
    exact hv
  have h1 := writeAll_append c [v] ts e vs hw ha hv' (by
    rw [leaves.leavesAll, leaves.leavesAll, List.append_nil]; exact hc)
  have h2 : Entry.write c e v = ({ e with value := .many (vs ++ ts) }, none) := by
    rw [Entry.writeAll] at h1
    cases hw' : Entry.write c e v with
    | mk e' o =>
      rw [hw'] at h1
      cases o with
      | none =>
        simp only at h1
        rw [Entry.writeAll] at h1
        exact h1
      | some err => simp at h1
  simp only [setItem, hk, h2]
  simp [getItem, find_modify_same _ hk]

example : (leaves (.list [.str "a", .tuple [.str "b", .list []], .str "c"])).mapM
    ((⟨fun v => match v with | .str s => some s | _ => none, fun _ => none, fun _ => none⟩ :
      Casts).cast .str) = some [.str "a", .str "b", .str "c"] := by
  simp [leaves, leaves.leavesAll, Casts.cast]

/-! ## C13 - the set of parameters -/

/-- C13.  Reading or assigning an unknown name raises a parameter error and changes nothing; no
history of operations adds, removes or renames a parameter. -/
theorem C13_fixed_parameters (s : State) :
    (∀ k, s.find k = none → getItem s k = .error .param ∧
      ∀ c b v, setItem c b s k v = (s, some .param)) ∧
    ∀ hist : List (Env × Op), (run s hist).map Prod.fst = s.map Prod.fst := by
  refine ⟨fun k hk => ⟨by simp [getItem, hk], fun c b v => by simp [setItem, hk]⟩, fun hist => ?_⟩
  have hc : Closed (fun _ _ => True) := ⟨fun _ => trivial, fun _ _ _ _ _ => trivial,
    fun _ _ _ => trivial⟩
  exact (run_rel hc (fun _ => trivial) (fun _ _ _ => trivial) hist s).keys

/-- C13, converse: every name in the table can be read, and a bulk update stops at the first
unknown name with the earlier assignments in effect. -/
theorem C13_update_stops (c : Casts) (s : State) (d1 d2 : List (String × PyVal)) (k : String)
    (v : PyVal) (hk : s.find k = none) (hd : ∀ p ∈ d1, s.find p.1 ≠ none) :
    update c true s (d1 ++ (k, v) :: d2) = ((update c true s d1).1, some .param) := by
  have hc : Closed (fun _ _ => True) := ⟨fun _ => trivial, fun _ _ _ _ _ => trivial,
    fun _ _ _ => trivial⟩
  have hfind : ∀ (s s' : State) (j : String), SRel (fun _ _ => True) s s' →
      (s'.find j = none ↔ s.find j = none) := by
    intro s s' j h
    rcases h.find j with h | ⟨e, e', h1, h2, -⟩
    · simp [h.1, h.2]
    · simp [h1, h2]
  induction d1 generalizing s with
  | nil => simp [update, setItem, hk]
  | cons p d1 ih =>
    obtain ⟨j, w⟩ := p
    have hj : s.find j ≠ none := hd (j, w) (by simp)
    have hrel := setItem_rel hc c true s j w
    have herr : (setItem c true s j w).2 = none := by
      cases he : s.find j with
      | none => exact absurd he hj
      | some e => simp only [setItem, he]; split <;> rfl
    simp only [List.cons_append, update]
    cases hs : setItem c true s j w with
    | mk s' o =>
      rw [hs] at hrel herr
      simp only at herr
      subst herr
      simp only
      exact ih s' ((hfind s s' k hrel).mpr hk)
        (fun p hp h => hd p (List.mem_cons_of_mem _ hp) ((hfind s s' p.1 hrel).mp h))

example (dir ver cp dd rd : String) (T p nan : Fl) :
    (initState dir ver cp dd rd T p nan).find "unit_presure" = none ∧
    (initState dir ver cp dd rd T p nan).find "unit_pressure" ≠ none := ⟨rfl, by
      simp [initState, State.find, List.lookup]⟩

/-! ## C14 - types -/

/-- Entry metadata never changes, and a well-typed entry stays well-typed. -/
def TypeKeep (e e' : Entry) : Prop :=
  e'.append = e.append ∧ e'.etype = e.etype ∧
  (HasType e.etype e.default ∧ Holds e.append e.etype e.value →
    HasType e.etype e'.default ∧ Holds e.append e.etype e'.value)

theorem typeKeep_refl (e : Entry) : TypeKeep e e := ⟨rfl, rfl, id⟩

theorem typeKeep_trans (a b d : Entry) (h1 : TypeKeep a b) (h2 : TypeKeep b d) : TypeKeep a d := by
  refine ⟨h2.1.trans h1.1, h2.2.1.trans h1.2.1, fun h => ?_⟩
  have hb := h1.2.2 h
  have := h2.2.2
  rw [h1.1, h1.2.1] at this
  exact this hb

theorem cast_hasType {c : Casts} {t : EType} {v : PyVal} {x : TVal} (h : c.cast t v = some x) :
    HasType t x := by
  cases t <;> simp only [Casts.cast, Option.map_eq_some_iff] at h <;>
    obtain ⟨y, -, rfl⟩ := h <;> rfl

theorem typeKeep_closed : Closed TypeKeep where
  refl := typeKeep_refl
  trans := typeKeep_trans
  write c v e := by
    apply write_rel (R := TypeKeep) c typeKeep_refl typeKeep_trans
    intro e v t _ hct
    have ht := cast_hasType hct
    unfold Entry.store
    by_cases ha : e.append = true
    · simp only [ha, if_true]
      cases hv : e.value with
      | one x => exact typeKeep_refl e
      | many vs =>
        refine ⟨by simp [ha], rfl, fun h => ⟨h.1, ?_⟩⟩
        have h2 := h.2
        rw [hv] at h2
        refine ⟨h2.1, fun w hw => ?_⟩
        rcases List.mem_append.mp hw with hw | hw
        · exact h2.2 w hw
        · simp at hw; subst hw; exact ht
    · have ha' : e.append = false := by simpa using ha
      simp only [ha', Bool.false_eq_true, if_false]
      exact ⟨by simp [ha'], rfl, fun h => ⟨h.1, ⟨ha', ht⟩⟩⟩

theorem typeKeep_restore (e : Entry) : TypeKeep e e.restoreDefault := by
  unfold Entry.restoreDefault
  split
  · refine ⟨rfl, rfl, fun h => ⟨h.1, ?_⟩⟩
    by_cases ha : e.append = true
    · simp only [ha, if_true]
      exact ⟨rfl, fun w hw => by simp at hw; subst hw; exact h.1⟩
    · have ha' : e.append = false := by simpa using ha
      simp only [ha', Bool.false_eq_true, if_false]
      exact ⟨rfl, h.1⟩
  · exact typeKeep_refl e

theorem typeKeep_setDefault (c : Casts) (v : PyVal) (e : Entry) :
    TypeKeep e (Entry.setDefault c e v).1 := by
  unfold Entry.setDefault
  split
  · split
    · exact typeKeep_refl e
    · rename_i hc
      exact ⟨rfl, rfl, fun h => ⟨cast_hasType hc, h.2⟩⟩
  · exact typeKeep_refl e

/-- The documented kind of every shipped parameter: appended or not, and its type. -/
def declared : List (String × Bool × EType) :=
  [("install_dir", false, .str), ("version", false, .str), ("config_file", true, .str),
   ("config_verbose", false, .bool), ("warning_verbose", false, .bool),
   ("error_verbose", false, .bool), ("dat_dir", true, .str), ("dat_verbose", false, .bool),
   ("dat_overwrite", false, .bool), ("dat_exist_fatal", false, .bool),
   ("dat_recursive", false, .bool), ("reg_dir", true, .str), ("reg_verbose", false, .bool),
   ("reg_overwrite", false, .bool), ("reg_exist_fatal", false, .bool), ("def_T", false, .float),
   ("def_T_unit", false, .str), ("def_p", false, .float), ("def_p_unit", false, .str),
   ("def_oob", false, .float), ("unit_force", false, .str), ("unit_energy", false, .str),
   ("unit_temperature", false, .str), ("unit_pressure", false, .str), ("unit_molar", false, .str),
   ("unit_volume", false, .str), ("unit_length", false, .str), ("unit_mass", false, .str),
   ("unit_time", false, .str), ("unit_matter", false, .str)]

/-- C14.  After any history whatever, in any environments (so with any Python values and any
behaviour of the casts), each shipped parameter holds a value of its declared kind. -/
theorem C14_typed (dir ver cp dd rd : String) (T p nan : Fl) (hist : List (Env × Op))
    (k : String) (app : Bool) (t : EType) (hk : (k, app, t) ∈ declared) :
    ∃ v, getItem (run (initState dir ver cp dd rd T p nan) hist) k = .ok v ∧ Holds app t v := by
  have hinit : ∃ e, (initState dir ver cp dd rd T p nan).find k = some e ∧ e.append = app ∧
      e.etype = t ∧ HasType e.etype e.default ∧ Holds e.append e.etype e.value := by
    simp only [declared, List.mem_cons, List.not_mem_nil, or_false, Prod.mk.injEq] at hk
    have app_ok : ∀ d : String, HasType .str (.str d) ∧ Holds true .str (.many [.str d]) :=
      fun d => ⟨rfl, rfl, fun v hv => by simp at hv; subst hv; rfl⟩
    rcases hk with h | h | h | h | h | h | h | h | h | h | h | h | h | h | h | h | h | h | h | h |
      h | h | h | h | h | h | h | h | h | h <;> obtain ⟨rfl, rfl, rfl⟩ := h
    all_goals first
      | exact ⟨_, rfl, rfl, rfl, rfl, rfl, rfl⟩
      | exact ⟨_, rfl, rfl, rfl, app_ok _⟩
  obtain ⟨e, he, happ, htyp, hwt⟩ := hinit
  rcases (run_rel typeKeep_closed typeKeep_restore typeKeep_setDefault hist
    (initState dir ver cp dd rd T p nan)).find k with h | h
  · rw [he] at h; exact absurd h.1 (by simp)
  · obtain ⟨e1, e2, h1, h2, h3⟩ := h
    rw [he] at h1
    cases h1
    refine ⟨e2.value, by simp [getItem, h2], ?_⟩
    have := (h3.2.2 hwt).2
    rw [happ, htyp] at this
    exact this

/-! ## C15 - rejected and accepted assignments -/

/-- C15 (partial: a rejected *list* assigned to an appended parameter is excluded, see
`C15_partial_append_defect`).  A rejected assignment - the parameter is read-only, or the value
cannot be cast - leaves the whole configuration unchanged. -/
theorem C15_rejected_unchanged_partial (c : Casts) (b : Bool) (s : State) (k : String) (e : Entry)
    (v : PyVal) (hk : s.find k = some e)
    (hrej : e.writeAllowed = false ∨
      (c.cast e.etype v = none ∧ (e.append = false ∨ leaves v = [v]))) :
    (setItem c b s k v).1 = s := by
  have key : (Entry.write c e v).1 = e := by
    rcases hrej with h | ⟨h1, h2⟩
    · exact roKeep_closed.write c v e h
    · have hsc : (Entry.writeScalar c e v).1 = e := by
        unfold Entry.writeScalar
        rw [h1]
        split <;> rfl
      cases v with
      | list xs =>
        rw [Entry.write]
        rcases h2 with h2 | h2
        · simp only [h2, Bool.and_false, Bool.false_eq_true, if_false]; exact hsc
        · exfalso
          have hall : ∀ (v : PyVal), ∀ ys, PyVal.list ys ∉ leaves v := by
            intro v
            apply PyVal.rec (motive_1 := fun v => ∀ ys, PyVal.list ys ∉ leaves v)
              (motive_2 := fun vs => ∀ ys, PyVal.list ys ∉ leaves.leavesAll vs)
            all_goals (first
              | (intro ys; rw [leaves]; all_goals simp; done)
              | (intro b ys; rw [leaves]; all_goals simp; done)
              | (intro xs ih ys; rw [leaves]; exact ih ys)
              | (intro ys; rw [leaves.leavesAll]; simp; done)
              | (intro v vs ih1 ih2 ys; rw [leaves.leavesAll]
                 simp only [List.mem_append, not_or]; exact ⟨ih1 ys, ih2 ys⟩))
          exact hall (.list xs) xs (by rw [h2]; simp)
      | tuple xs =>
        rw [Entry.write]
        rcases h2 with h2 | h2
        · simp only [h2, Bool.and_false, Bool.false_eq_true, if_false]; exact hsc
        · exfalso
          have hall : ∀ (v : PyVal), ∀ ys, PyVal.tuple ys ∉ leaves v := by
            intro v
            apply PyVal.rec (motive_1 := fun v => ∀ ys, PyVal.tuple ys ∉ leaves v)
              (motive_2 := fun vs => ∀ ys, PyVal.tuple ys ∉ leaves.leavesAll vs)
            all_goals (first
              | (intro ys; rw [leaves]; all_goals simp; done)
              | (intro b ys; rw [leaves]; all_goals simp; done)
              | (intro xs ih ys; rw [leaves]; exact ih ys)
              | (intro ys; rw [leaves.leavesAll]; simp; done)
              | (intro v vs ih1 ih2 ys; rw [leaves.leavesAll]
                 simp only [List.mem_append, not_or]; exact ⟨ih1 ys, ih2 ys⟩))
          exact hall (.tuple xs) xs (by rw [h2]; simp)
      | none => rw [Entry.write]; · exact hsc
                all_goals simp
      | bool b => rw [Entry.write]; · exact hsc
                  all_goals simp
      | int i => rw [Entry.write]; · exact hsc
                 all_goals simp
      | float f => rw [Entry.write]; · exact hsc
                   all_goals simp
      | str s => rw [Entry.write]; · exact hsc
                 all_goals simp
      | obj n => rw [Entry.write]; · exact hsc
                 all_goals simp
  simp only [setItem, hk, key]
  exact modify_self hk

/-- C15: a rejected assignment - the parameter is read-only, or the value cannot be cast - is
reported: the entry raises `PMParamError` and, while messages cannot be printed, the assignment
itself raises. -/
theorem C15_rejected_reported (c : Casts) (s : State) (k : String) (e : Entry) (v : PyVal)
    (hk : s.find k = some e)
    (hrej : e.writeAllowed = false ∨ (c.cast e.etype v = none ∧ e.append = false)) :
    (Entry.write c e v).2 = some .param ∧ (setItem c false s k v).2 = some .attribute := by
  have hsc : (Entry.writeScalar c e v).2 = some .param := by
    rcases hrej with h | ⟨h, -⟩
    · simp [Entry.writeScalar, h]
    · unfold Entry.writeScalar
      rw [h]; split <;> rfl
  have hg : (e.writeAllowed && e.append) = false := by
    rcases hrej with h | ⟨-, h⟩ <;> simp [h]
  have key : (Entry.write c e v).2 = some .param := by
    cases v <;> rw [Entry.write] <;> simp [hg, hsc]
  refine ⟨key, ?_⟩
  simp only [setItem, hk, key]
  rfl

/-- C15, accepted assignment to a normal parameter: it is what a later read returns, no
exception is raised, and every other parameter reads the same as before. -/
theorem C15_accepted (c : Casts) (b : Bool) (s : State) (k : String) (e : Entry) (v : PyVal)
    (t : TVal) (hk : s.find k = some e) (hw : e.writeAllowed = true) (ha : e.append = false)
    (hc : c.cast e.etype v = some t) :
    getItem (setItem c b s k v).1 k = .ok (.one t) ∧ (setItem c b s k v).2 = none ∧
    ∀ j, j ≠ k → getItem (setItem c b s k v).1 j = getItem s j := by
  have hwr : Entry.write c e v = ({ e with value := .one t }, none) := by
    have hsc : Entry.writeScalar c e v = ({ e with value := .one t }, none) := by
      simp [Entry.writeScalar, hw, hc, Entry.store, ha]
    cases v <;> rw [Entry.write] <;> simp [ha, hsc]
  simp only [setItem, hk, hwr]
  refine ⟨by simp [getItem, find_modify_same _ hk], by simp, fun j hj => ?_⟩
  simp [getItem, find_modify_other _ hj]

/-- Assignment to any parameter, accepted or not, never affects another one. -/
theorem C15_others_untouched (c : Casts) (b : Bool) (s : State) (k j : String) (v : PyVal)
    (hj : j ≠ k) : getItem (setItem c b s k v).1 j = getItem s j := by
  unfold setItem
  cases hk : s.find k with
  | none => rfl
  | some e => simp [getItem, find_modify_other _ hj]

/-- Casts under which an object's `str()` raises (a Python object with a failing `__str__`). -/
def badCasts : Casts where
  toStr | .str s => some s | _ => none
  toFloat | .float f => some f | _ => none
  toBool | .bool b => some b | _ => none

/-- C15 fails for appended parameters: `config['dat_dir'] = ['a', bad]` with an object whose
`str()` raises is rejected, but `'a'` stays appended. -/
theorem C15_partial_append_defect :
    let s := initState "d" "v" "c" "data" "reg" 0 0 0
    getItem (setItem badCasts true s "dat_dir" (.list [.str "a", .obj 0])).1 "dat_dir"
      = .ok (.many [.str "data", .str "a"]) ∧
    (Entry.write badCasts ⟨true, .str, true, .str "data", .many [.str "data"]⟩
      (.list [.str "a", .obj 0])).2 = some .param := by
  constructor
  · simp [setItem, initState, State.find, List.lookup, Entry.write, Entry.writeAll,
      Entry.writeScalar, badCasts, Casts.cast, Entry.store, State.modify, getItem]
  · simp [Entry.write, Entry.writeAll, Entry.writeScalar, badCasts, Casts.cast, Entry.store]

/-- `config.py:41` documents that assigning to a read-only parameter "will throw an error"; the
code swallows it: no exception reaches the user (`utility.py:378-382`). -/
theorem C15_readonly_write_is_silent (c : Casts) (s : State) (k : String) (e : Entry) (v : PyVal)
    (hk : s.find k = some e) : (setItem c true s k v).2 = none := by
  simp only [setItem, hk]
  split <;> rfl

/-! ## C16 - loading configuration files -/

/-- The `config_file` entry is an appended string list (true of every reachable state, C14). -/
def ConfigFileOK (s : State) : Prop :=
  ∃ e vs, s.find "config_file" = some e ∧ e.append = true ∧ e.value = .many vs

theorem configFiles_prefix {s s' : State} (h : SRel PrefixKeep s s') (hok : ConfigFileOK s) :
    ConfigFileOK s' ∧ ∃ ws, configFiles s' = configFiles s ++ ws := by
  obtain ⟨e, vs, he, ha, hv⟩ := hok
  rcases h.find "config_file" with h | ⟨e1, e2, h1, h2, h3⟩
  · rw [he] at h; exact absurd h.1 (by simp)
  · rw [he] at h1
    cases h1
    obtain ⟨ws, hw⟩ := h3.2 ha vs hv
    refine ⟨⟨e2, vs ++ ws, h2, h3.1.trans ha, hw⟩, ?_⟩
    simp only [configFiles, he, h2, hv, hw, List.map_append]
    exact ⟨_, rfl⟩

theorem firstOccurrences_snoc_mem {l : List String} {x : String} (h : x ∈ l) :
    firstOccurrences (l ++ [x]) = firstOccurrences l := by
  induction l with
  | nil => simp at h
  | cons y l ih =>
    simp only [List.cons_append, firstOccurrences]
    by_cases hxl : x ∈ l
    · rw [ih hxl]
    · have hxy : x = y := by
        rcases List.mem_cons.mp h with h | h
        · exact h
        · exact absurd h hxl
      subst hxy
      congr 1
      clear ih h
      have : ∀ l : List String, (firstOccurrences (l ++ [x])).filter (· ≠ x)
          = (firstOccurrences l).filter (· ≠ x) := by
        intro l
        induction l with
        | nil => simp [firstOccurrences]
        | cons z l ih =>
          simp only [List.cons_append, firstOccurrences]
          by_cases hz : z = x
          · subst hz
            simp only [ne_eq, not_true_eq_false, decide_false, List.filter_cons,
              Bool.false_eq_true, if_false]
            rw [ih]
          · simp only [List.filter_cons, ne_eq, hz, not_false_eq_true, decide_true, if_true]
            congr 1
            rw [List.filter_filter, List.filter_filter]
            have hcomm : ∀ m : List String, m.filter (fun a => decide ¬a = x && decide ¬a = z)
                = (m.filter (· ≠ x)).filter (· ≠ z) := by
              intro m
              rw [List.filter_filter]
              congr 1
              funext a
              simp [Bool.and_comm]
            have h1 := hcomm (firstOccurrences (l ++ [x]))
            have h2 := hcomm (firstOccurrences l)
            simp only [ne_eq] at h1 h2 ih ⊢
            rw [h1, h2, ih]
      exact this l

theorem firstOccurrences_snoc_notMem {l : List String} {x : String} (h : x ∉ l) :
    firstOccurrences (l ++ [x]) = firstOccurrences l ++ [x] := by
  induction l with
  | nil => simp [firstOccurrences]
  | cons y l ih =>
    have hy : x ≠ y := fun e => h (by simp [e])
    have hl : x ∉ l := fun e => h (by simp [e])
    simp only [List.cons_append, firstOccurrences]
    rw [ih hl, List.filter_append]
    simp [hy]

theorem mem_firstOccurrences {l : List String} {x : String} :
    x ∈ firstOccurrences l ↔ x ∈ l := by
  induction l with
  | nil => simp [firstOccurrences]
  | cons y l ih =>
    simp only [firstOccurrences, List.mem_cons, List.mem_filter, ih]
    by_cases h : x = y
    · simp [h]
    · simp [h]

theorem nodup_firstOccurrences (l : List String) : (firstOccurrences l).Nodup := by
  induction l with
  | nil => simp [firstOccurrences]
  | cons y l ih =>
    simp only [firstOccurrences, List.nodup_cons]
    exact ⟨by simp, List.Pairwise.filter _ ih⟩

theorem loadLoop_spec (c : Casts) (b : Bool) (fs : FS) (expand : String → String) (s : State)
    (k : Nat) (found : List String) (hok : ConfigFileOK s) (hkle : k ≤ (configFiles s).length)
    (hfound : found = firstOccurrences (((configFiles s).take k).map expand))
    (s' : State) (found' : List String)
    (h : loadLoop c b fs expand s k found = (s', found', none)) :
    found' = firstOccurrences ((configFiles s').map expand) ∧
    ∃ more, found' = found ++ more ∧
      s' = more.foldl (fun s p => (loadFile c b fs s p).1) s ∧
      ∀ p ∈ more, ∀ e, fs.lookup p ≠ some (.error e) := by
  fun_induction loadLoop c b fs expand s k found with
  | case1 s k found hk =>
    simp only [Prod.mk.injEq, and_true] at h
    obtain ⟨rfl, rfl⟩ := h
    have : (configFiles s).length ≤ k := by
      rcases Nat.lt_or_ge k (configFiles s).length with hlt | hge
      · rw [List.getElem?_eq_getElem hlt] at hk; cases hk
      · exact hge
    rw [List.take_of_length_le this] at hfound
    exact ⟨hfound, [], by simp, rfl, by simp⟩
  | case2 s k found raw hk path hf hb ih =>
    have hlt := (List.getElem?_eq_some_iff.mp hk).1
    have hraw := (List.getElem?_eq_some_iff.mp hk).2
    apply ih hok (by omega) ?_ h
    rw [List.take_add_one, hk]
    simp only [Option.toList_some, List.map_append, List.map_cons, List.map_nil]
    rw [firstOccurrences_snoc_mem]
    · exact hfound
    · rw [hfound] at hf; exact mem_firstOccurrences.mp hf
  | case3 => simp at h
  | case4 s k found raw hk path hf hl ih =>
    have hlt := (List.getElem?_eq_some_iff.mp hk).1
    obtain ⟨h1, more, h2, h3, h4⟩ := ih hok (by omega) (by
      rw [List.take_add_one, hk]
      simp only [Option.toList_some, List.map_append, List.map_cons, List.map_nil]
      rw [firstOccurrences_snoc_notMem]
      · rw [hfound]
      · intro hm; exact hf (by rw [hfound]; exact mem_firstOccurrences.mpr hm)) h
    refine ⟨h1, path :: more, by rw [h2]; simp, ?_, ?_⟩
    · simp only [List.foldl_cons]
      have : loadFile c b fs s path = (s, none) := by simp [loadFile, hl]
      rw [this]; exact h3
    · intro p hp e
      rcases List.mem_cons.mp hp with rfl | hp
      · rw [hl]; simp
      · exact h4 p hp e
  | case5 => simp at h
  | case6 s k found raw hk path hf r hl s1 hlf ih =>
    have hlt := (List.getElem?_eq_some_iff.mp hk).1
    have hrel := loadFile_rel prefixKeep_closed c b fs s path
    rw [hlf] at hrel
    obtain ⟨hok1, ws, hws⟩ := configFiles_prefix hrel hok
    have hlen : k + 1 ≤ (configFiles s1).length := by
      rw [hws]; simp only [List.length_append]; omega
    have htake : (configFiles s1).take (k + 1) = (configFiles s).take (k + 1) := by
      rw [hws, List.take_append_of_le_length (by omega)]
    obtain ⟨h1, more, h2, h3, h4⟩ := ih hok1 hlen (by
      rw [htake, List.take_add_one, hk]
      simp only [Option.toList_some, List.map_append, List.map_cons, List.map_nil]
      rw [firstOccurrences_snoc_notMem]
      · rw [hfound]
      · intro hm; exact hf (by rw [hfound]; exact mem_firstOccurrences.mpr hm)) h
    refine ⟨h1, path :: more, by rw [h2]; simp, ?_, ?_⟩
    · simp only [List.foldl_cons, hlf]
      exact h3
    · intro p hp e
      rcases List.mem_cons.mp hp with rfl | hp
      · intro he
        rw [loadFile, he] at hlf
        simp at hlf
      · exact h4 p hp e

/-- C16.  `load()` always returns (the model's loop is a total function, accepted by a
well-founded measure for every finite file system, cyclic references included).  When it
returns normally, the files it executed are exactly the files listed in the resulting
`config_file` parameter (after path expansion), each once, in order of first mention, and the
resulting configuration is that of executing them one after the other. -/
theorem C16_load (c : Casts) (b : Bool) (fs : FS) (expand : String → String) (s s' : State)
    (files : List String) (hok : ConfigFileOK s)
    (h : loadRoot c b fs expand s = (s', files, none)) :
    files.Nodup ∧ files = firstOccurrences ((configFiles s').map expand) ∧
    s' = files.foldl (fun s p => (loadFile c b fs s p).1) s := by
  unfold loadRoot at h
  obtain ⟨e, vs, he, -, -⟩ := id hok
  rw [he] at h
  obtain ⟨h1, more, h2, h3, -⟩ := loadLoop_spec c b fs expand s 0 [] hok (Nat.zero_le _)
    (by simp [firstOccurrences]) s' files h
  simp only [List.nil_append] at h2
  subst h2
  exact ⟨by rw [h1]; exact nodup_firstOccurrences _, h1, h3⟩

/-- The entry with another value, everything else the same. -/
def _root_.PyroMat.Config.Entry.hold (e : Entry) (v : TVal) : Entry := { e with value := .one v }

theorem hold_self {e : Entry} {v : TVal} (h : e.value = .one v) : e.hold v = e := by
  cases e; simp only at h; subst h; rfl

theorem update_last (c : Casts) (k : String) (d : List (String × PyVal)) :
    ∀ (s : State) (e : Entry) (v0 : TVal), s.find k = some e → e.writeAllowed = true →
      e.append = false → e.value = .one v0 → (update c true s d).2 = none →
      (update c true s d).1.find k
        = some (e.hold ((assigned c e.etype k d).getLast?.getD v0)) := by
  induction d with
  | nil =>
    intro s e v0 hk _ _ hv _
    simp [update, assigned, hk, hold_self hv]
  | cons p d ih =>
    obtain ⟨j, v⟩ := p
    intro s e v0 hk hw ha hv herr
    unfold update at herr ⊢
    cases hs : setItem c true s j v with
    | mk s1 o =>
      rw [hs] at herr
      cases o with
      | some err => simp at herr
      | none =>
        simp only at herr ⊢
        by_cases hjk : j = k
        · subst hjk
          cases hc : c.cast e.etype v with
          | none =>
            have hs1 := C15_rejected_unchanged_partial c true s j e v hk (Or.inr ⟨hc, Or.inl ha⟩)
            rw [hs] at hs1
            simp only at hs1
            subst hs1
            rw [ih s1 e v0 hk hw ha hv herr]
            simp [assigned, List.filter_cons, hc]
          | some t =>
            have hfind : s1.find j = some (e.hold t) := by
              have hwr : Entry.write c e v = ({ e with value := .one t }, none) := by
                have hsc : Entry.writeScalar c e v = ({ e with value := .one t }, none) := by
                  simp [Entry.writeScalar, hw, hc, Entry.store, ha]
                cases v <;> rw [Entry.write] <;> simp [ha, hsc]
              have : s1 = (setItem c true s j v).1 := by rw [hs]
              rw [this]
              simp only [setItem, hk, hwr]
              exact find_modify_same _ hk
            rw [ih s1 _ t hfind hw ha rfl herr]
            simp only [assigned, List.filter_cons, decide_true, if_true, List.filterMap_cons, hc]
            rw [List.getLast?_cons]
            simp [Entry.hold]
        · have hfind : s1.find k = some e := by
            have : s1 = (setItem c true s j v).1 := by rw [hs]
            rw [this]
            unfold setItem
            cases hj : s.find j with
            | none => exact hk
            | some ej => simp only; rw [find_modify_other _ (Ne.symm hjk)]; exact hk
          rw [ih s1 e v0 hfind hw ha hv herr]
          have hne : (decide (j = k)) = false := by simpa using hjk
          simp [assigned, List.filter_cons, hne]

theorem getLast?_append_getD {α} (l m : List α) (d : α) :
    (l ++ m).getLast?.getD d = m.getLast?.getD (l.getLast?.getD d) := by
  cases h : m.getLast? with
  | none =>
    have : m = [] := List.getLast?_eq_none_iff.mp h
    subst this; simp
  | some x =>
    simp [List.getLast?_append, h]

/-- C16, precedence.  Once the configuration object exists, after a normal load the value of a
normal (writable, not appended) parameter is the last castable value assigned to it when the
executed files are read in order - so later files win - and the previous value if no file
assigns it.  (`hknown`: the executed files use only known parameter names; otherwise the load
raises, C13.) -/
theorem C16_last_file_wins (c : Casts) (fs : FS) (expand : String → String) (s s' : State)
    (files : List String) (hok : ConfigFileOK s)
    (h : loadRoot c true fs expand s = (s', files, none))
    (k : String) (e : Entry) (v0 : TVal) (hk : s.find k = some e) (hw : e.writeAllowed = true)
    (ha : e.append = false) (hv : getItem s k = .ok (.one v0))
    (hknown : ∀ p ∈ files, ∀ q ∈ fileVars fs p, q.1 ∈ s.map Prod.fst) :
    getItem s' k
      = .ok (.one ((assigned c e.etype k (files.flatMap (fileVars fs))).getLast?.getD v0)) := by
  obtain ⟨-, -, h3⟩ := C16_load c true fs expand s s' files hok h
  have hv' : e.value = .one v0 := by
    simp only [getItem, hk, Except.ok.injEq] at hv
    exact hv
  have hcl : Closed (fun _ _ => True) := ⟨fun _ => trivial, fun _ _ _ _ _ => trivial,
    fun _ _ _ => trivial⟩
  -- restrict the no-error requirement to the states met on the way
  have key : ∀ (fl : List String), (∀ p ∈ fl, ∀ q ∈ fileVars fs p, q.1 ∈ s.map Prod.fst) →
      ∀ (t : State) (e : Entry) (v0 : TVal), t.map Prod.fst = s.map Prod.fst →
      t.find k = some e → e.writeAllowed = true → e.append = false → e.value = .one v0 →
      (fl.foldl (fun s p => (loadFile c true fs s p).1) t).find k
        = some (e.hold ((assigned c e.etype k (fl.flatMap (fileVars fs))).getLast?.getD v0)) := by
    intro fl
    induction fl with
    | nil => intro _ t e v0 _ hk _ _ hv; simp [assigned, hk, hold_self hv]
    | cons p fl ih =>
      intro hkn t e v0 hkeys hk hw ha hv
      simp only [List.foldl_cons, List.flatMap_cons]
      have hsplit : assigned c e.etype k (fileVars fs p ++ fl.flatMap (fileVars fs))
          = assigned c e.etype k (fileVars fs p) ++
            assigned c e.etype k (fl.flatMap (fileVars fs)) := by
        simp [assigned, List.filter_append, List.filterMap_append]
      rw [hsplit, getLast?_append_getD]
      have hkn' := fun q hq => hkn q (List.mem_cons_of_mem _ hq)
      have hkeys' : ((loadFile c true fs t p).1).map Prod.fst = s.map Prod.fst := by
        rw [(loadFile_rel hcl c true fs t p).keys]; exact hkeys
      cases hl : fs.lookup p with
      | none =>
        have h1 : (loadFile c true fs t p).1 = t := by simp [loadFile, hl]
        have h2 : fileVars fs p = [] := by simp [fileVars, hl]
        rw [h1, h2, ih hkn' t e v0 hkeys hk hw ha hv]
        simp [assigned]
      | some r =>
        cases r with
        | error x =>
          have h1 : (loadFile c true fs t p).1 = t := by simp [loadFile, hl]
          have h2 : fileVars fs p = [] := by simp [fileVars, hl]
          rw [h1, h2, ih hkn' t e v0 hkeys hk hw ha hv]
          simp [assigned]
        | ok d =>
          have h1 : (loadFile c true fs t p).1 = (update c true t d).1 := by simp [loadFile, hl]
          have h2 : fileVars fs p = d := by simp [fileVars, hl]
          have hnone : ∀ (d : List (String × PyVal)) (t : State),
              t.map Prod.fst = s.map Prod.fst → (∀ q ∈ d, q.1 ∈ s.map Prod.fst) →
              (update c true t d).2 = none := by
            intro d
            induction d with
            | nil => intro t _ _; rfl
            | cons q d ihd =>
              obtain ⟨j, w⟩ := q
              intro t hkt hd
              have hj : j ∈ t.map Prod.fst := by rw [hkt]; exact hd (j, w) (by simp)
              have hfj : ∃ ej, t.find j = some ej := by
                clear hkt hd ihd
                induction t with
                | nil => simp at hj
                | cons x t iht =>
                  obtain ⟨kx, ex⟩ := x
                  by_cases hjx : (j == kx) = true
                  · exact ⟨ex, by simp [State.find, List.lookup_cons, hjx]⟩
                  · have hjx' : (j == kx) = false := by simpa using hjx
                    have : j ∈ t.map Prod.fst := by
                      have hne : j ≠ kx := by simpa using hjx
                      simpa [hne] using hj
                    obtain ⟨ej, hej⟩ := iht this
                    exact ⟨ej, by simpa [State.find, List.lookup_cons, hjx'] using hej⟩
              obtain ⟨ej, hej⟩ := hfj
              have herr : (setItem c true t j w).2 = none := by
                simp only [setItem, hej]; split <;> rfl
              unfold update
              cases hs : setItem c true t j w with
              | mk t1 o =>
                rw [hs] at herr
                simp only at herr
                subst herr
                simp only
                have hk1 : t1.map Prod.fst = s.map Prod.fst := by
                  have := (setItem_rel hcl c true t j w).keys
                  rw [hs] at this
                  rw [this]; exact hkt
                exact ihd t1 hk1 (fun q hq => hd q (List.mem_cons_of_mem _ hq))
          have h3 := update_last c k d t e v0 hk hw ha hv (hnone d t hkeys (by
            intro q hq; exact hkn p (by simp) q (by rw [h2]; exact hq)))
          rw [h1] at hkeys'
          rw [h1, h2, ih hkn' _ _ _ hkeys' h3 hw ha rfl]
          rfl
  have := key files hknown s e v0 rfl hk hw ha hv'
  rw [← h3] at this
  simp [getItem, this, Entry.hold]

/-- A cyclic pair of configuration files: the default one lists `b`, `b` lists both again. -/
def cyclicFS : FS :=
  [("c", .ok [("config_file", .str "b"), ("unit_pressure", .str "Pa")]),
   ("b", .ok [("config_file", .list [.str "c", .str "b"]), ("unit_pressure", .str "psi")])]

theorem loadLoop_done {c b fs expand s k found} (hk : (configFiles s)[k]? = none) :
    loadLoop c b fs expand s k found = (s, found, none) := by
  rw [loadLoop]; split
  · rfl
  · rename_i h; rw [hk] at h; cases h

theorem loadLoop_seen {c fs expand s k found raw} (hk : (configFiles s)[k]? = some raw)
    (hf : expand raw ∈ found) :
    loadLoop c true fs expand s k found = loadLoop c true fs expand s (k + 1) found := by
  rw [loadLoop]; split
  · rename_i h; rw [hk] at h; cases h
  · rename_i r h; rw [hk] at h; cases h; simp [hf]

theorem loadLoop_new {c b fs expand s k found raw r s'} (hk : (configFiles s)[k]? = some raw)
    (hf : expand raw ∉ found) (hl : fs.lookup (expand raw) = some r)
    (hs : loadFile c b fs s (expand raw) = (s', none)) :
    loadLoop c b fs expand s k found
      = loadLoop c b fs expand s' (k + 1) (found ++ [expand raw]) := by
  rw [loadLoop]; split
  · rename_i h; rw [hk] at h; cases h
  · rename_i r h; rw [hk] at h; cases h
    simp only [hf, dif_neg, not_false_eq_true]
    split
    · rename_i h; rw [hl] at h; cases h
    · rw [hs]

/-- Non-vacuity of C16: on the cyclic pair, `load()` executes `c` then `b`, and the last wins. -/
example :
    let r := loadRoot badCasts true cyclicFS id (initState "d" "v" "c" "data" "reg" 0 0 0)
    r.2 = (["c", "b"], none) ∧ getItem r.1 "unit_pressure" = .ok (.one (.str "psi")) := by
  have h : loadRoot badCasts true cyclicFS id (initState "d" "v" "c" "data" "reg" 0 0 0)
      = loadLoop badCasts true cyclicFS id (initState "d" "v" "c" "data" "reg" 0 0 0) 0 [] := rfl
  rw [h, loadLoop_new (raw := "c") rfl (by simp) rfl rfl,
    loadLoop_new (raw := "b") rfl (by simp) rfl rfl, loadLoop_seen (raw := "c") rfl (by simp),
    loadLoop_seen (raw := "b") rfl (by simp), loadLoop_done rfl]
  exact ⟨rfl, rfl⟩

/-- Disagreement: while PYroMat is being imported the object `pm.config` does not exist yet, so
the warning about a repeated reference raises `AttributeError`: with the cyclic pair of files the
import fails instead of skipping the repetition. -/
theorem C16_import_time_defect :
    (loadRoot badCasts false cyclicFS id (initState "d" "v" "c" "data" "reg" 0 0 0)).2
      = (["c", "b"], some .attribute) := by
  have h : loadRoot badCasts false cyclicFS id (initState "d" "v" "c" "data" "reg" 0 0 0)
      = loadLoop badCasts false cyclicFS id (initState "d" "v" "c" "data" "reg" 0 0 0) 0 [] := rfl
  rw [h, loadLoop_new (raw := "c") rfl (by simp) rfl rfl,
    loadLoop_new (raw := "b") rfl (by simp) rfl rfl, loadLoop]
  split
  · rename_i h; cases h
  · rename_i r h; cases h; simp

/-! ## C17 - restoring defaults -/

/-- C17 (partial: `restore_default()` without an argument is excluded, see
`C17_restore_all_defect`).  `restore_default(k)` gives a writable parameter its default (as a
one-element list if it is an appended one), changes no other parameter, does nothing to a
read-only parameter, raises `KeyError` for an unknown name, and is idempotent. -/
theorem C17_restore_partial (s : State) (k : String) :
    (s.find k = none → restoreDefault s (some k) = (s, some .key)) ∧
    (∀ e, s.find k = some e →
      (restoreDefault s (some k)).2 = none ∧
      (e.writeAllowed = true → getItem (restoreDefault s (some k)).1 k
        = .ok (if e.append then .many [e.default] else .one e.default)) ∧
      (e.writeAllowed = false → getItem (restoreDefault s (some k)).1 k = getItem s k)) ∧
    (∀ j, j ≠ k → getItem (restoreDefault s (some k)).1 j = getItem s j) ∧
    (∀ j, getItem (restoreDefault (restoreDefault s (some k)).1 (some k)).1 j
      = getItem (restoreDefault s (some k)).1 j) := by
  refine ⟨fun h => by simp [restoreDefault, h], fun e h => ?_, fun j hj => ?_, fun j => ?_⟩
  · simp only [restoreDefault, h]
    refine ⟨trivial, fun hw => ?_, fun hw => ?_⟩
    · simp [getItem, find_modify_same _ h, Entry.restoreDefault, hw]
    · simp [getItem, find_modify_same _ h, Entry.restoreDefault, hw, h]
  · cases h : s.find k with
    | none => simp [restoreDefault, h]
    | some e => simp [restoreDefault, h, getItem, find_modify_other _ hj]
  · cases h : s.find k with
    | none => simp [restoreDefault, h]
    | some e =>
      have h2 := find_modify_same Entry.restoreDefault h
      simp only [restoreDefault, h, h2]
      by_cases hj : j = k
      · subst hj
        simp only [getItem, h2, find_modify_same Entry.restoreDefault h2]
        unfold Entry.restoreDefault
        split <;> simp_all
      · simp [getItem, find_modify_other _ hj]

/-- Disagreement with the documentation of `restore_default` (`utility.py:343-349`: "if p is
None, all parameters are restored"): in every state the call raises `AttributeError` and restores
nothing. -/
theorem C17_restore_all_defect (s : State) : restoreDefault s none = (s, some .attribute) := rfl

/-- ... so for instance a changed pressure unit stays changed. -/
theorem C17_restore_all_witness :
    let s := (setItem badCasts true (initState "d" "v" "c" "data" "reg" 0 0 0) "unit_pressure"
      (.str "Pa")).1
    getItem (restoreDefault s none).1 "unit_pressure" = .ok (.one (.str "Pa")) ∧
    getItem (restoreDefault s (some "unit_pressure")).1 "unit_pressure"
      = .ok (.one (.str "bar")) := ⟨rfl, rfl⟩

/-- Disagreement with `utility.py:79-83` ("etype: ... if None, no type cast is applied"):
creating an entry without a type raises `NameError`. -/
theorem C14_untyped_entry_defect (c : Casts) (d : PyVal) (a w : Bool) :
    mkEntry c d a w none = .error .name := rfl

end PyroMat.Config.Props
