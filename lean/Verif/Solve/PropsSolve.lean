import Mathlib.Tactic.Ring
import Mathlib.Tactic.FieldSimp
import Mathlib.Tactic.Linarith
import Mathlib.Tactic.NormNum
import Verif.Solve.PropsArgs

/-!
# The solver (C57) and its elementwise use (C58)
-/

namespace PyroMat.Solve.Props

open PyroMat PyroMat.Solve PyroMat.Solve.Spec

theorem num_put (a : Args) (k : String) (x : ℝ) : num (put a k (.one x)) k = x := by
  unfold num
  rw [lookup_put, if_pos rfl]

/-- The calls the solver makes for its own point. -/
theorem evalFn_mem (S : Solver) (a : Args) : Event.value a ∈ (evalFn S a).2 := by
  unfold evalFn
  cases S.fn <;> simp

/-! ## What a returned value means -/

theorem loop_converged (S : Solver) (y thr : ℝ) (limits : Option (ℝ × ℝ)) (k i : Nat)
    (cnt : Option Nat) (st : St) (x : ℝ)
    (h : (loop S y thr limits k i cnt st).1.1 = some x) :
    ∃ a, Event.value a ∈ (loop S y thr limits k i cnt st).2 ∧ num a S.param = x ∧
      |(evalFn S a).1.1 - y| < thr := by
  induction k generalizing i cnt st with
  | zero => simp [loop] at h
  | succ k ih =>
    rw [loop] at h ⊢
    simp only at h ⊢
    split_ifs at h ⊢ with hc
    · simp only [Option.some.injEq] at h
      exact ⟨_, evalFn_mem S _, by rw [num_put]; exact h, hc⟩
    · obtain ⟨a, hm, hx, ha⟩ := ih _ _ _ h
      exact ⟨a, by simp [hm], hx, ha⟩

theorem loop_count (S : Solver) (y thr : ℝ) (limits : Option (ℝ × ℝ)) (k i : Nat)
    (cnt : Option Nat) (st : St) (hk : 0 < k) :
    ∃ c, (loop S y thr limits k i cnt st).1.2.1 = some c ∧ i ≤ c ∧ c < i + k := by
  induction k generalizing i cnt st with
  | zero => omega
  | succ k ih =>
    rw [loop]
    simp only
    split_ifs with hc
    · exact ⟨i, rfl, by omega, by omega⟩
    · rcases Nat.eq_zero_or_pos k with rfl | hk'
      · exact ⟨i, by simp [loop], by omega, by omega⟩
      · obtain ⟨c, h1, h2, h3⟩ := ih (i + 1) (some i) _ hk'
        exact ⟨c, h1, by omega, by omega⟩

/-- The iteration never reports a failure, whatever happened. -/
theorem element_ok (S : Solver) (y : ℝ) (a : Args) (hm : 0 < S.maxIter) :
    ∃ d, (element S y a).1 = .ok
      (((loop S y (tol S y) (limitsOf S a).1 S.maxIter 0 none
        ⟨(startOf S (limitsOf S a).1 a).1, (startOf S (limitsOf S a).1 a).1, 0, none, a⟩).1.1).getD 0,
        d) := by
  obtain ⟨c, h1, _, h3⟩ := loop_count S y (tol S y) (limitsOf S a).1 S.maxIter 0 none
    ⟨(startOf S (limitsOf S a).1 a).1, (startOf S (limitsOf S a).1 a).1, 0, none, a⟩ hm
  unfold element
  simp only [afterLoop]
  unfold tol at h1 ⊢
  rw [h1]
  have hc : ¬ c ≥ S.maxIter := by omega
  simp only [if_neg hc]
  exact ⟨_, rfl⟩

/-- **C57, partial.** A number returned for target `y` is either a point at which the property was
evaluated and matched `y` within the tolerance, or the number 0 written without convergence.
Missing: failure to converge is not reported, see `C57_silent_defect`. -/
theorem C57_answer_partial (S : Solver) (y : ℝ) (a d : Args) (x : ℝ)
    (h : (element S y a).1 = .ok (x, d)) :
    (∃ b, Event.value b ∈ (element S y a).2 ∧ at_ S b = x ∧ |(evalFn S b).1.1 - y| < tol S y) ∨
      x = 0 := by
  unfold element at h ⊢
  simp only at h ⊢
  split at h
  · simp at h
  · rename_i u hu
    simp only [Except.ok.injEq, Prod.mk.injEq] at h
    cases hl : (loop S y (max S.small |S.eps * y|) (limitsOf S a).1 S.maxIter 0 none
      ⟨(startOf S (limitsOf S a).1 a).1, (startOf S (limitsOf S a).1 a).1, 0, none, a⟩).1.1 with
    | none =>
      right
      rw [hl] at h
      exact h.1.symm
    | some z =>
      left
      rw [hl] at h
      obtain ⟨b, hb, hz, hc⟩ := loop_converged S y _ _ _ _ _ _ z hl
      refine ⟨b, ?_, ?_, hc⟩
      · exact List.mem_append_right _ hb
      · rw [← h.1]; exact hz

/-! ## Limits -/

theorem clamp_mem (l : ℝ × ℝ) (h : l.1 ≤ l.2) (x : ℝ) :
    l.1 ≤ clamp (some l) x ∧ clamp (some l) x ≤ l.2 := by
  unfold clamp
  exact ⟨le_max_right _ _, max_le (min_le_right _ _) h⟩

/-- The user's property is only ever called at the solver's own point: not true of a property given
without a derivative. -/
def Direct (S : Solver) : Prop := ∀ a, ∀ e ∈ (evalFn S a).2, e = Event.value a

theorem direct_fdf (S : Solver) (g : Args → ℝ × ℝ) (h : S.fn = .fdf g) : Direct S := by
  intro a e he
  unfold evalFn at he
  rw [h] at he
  simpa using he

theorem direct_fAndDf (S : Solver) (f df : Args → ℝ) (h : S.fn = .fAndDf f df) : Direct S := by
  intro a e he
  unfold evalFn at he
  rw [h] at he
  simpa using he

theorem loop_limits (S : Solver) (y thr : ℝ) (l : ℝ × ℝ) (hl : l.1 ≤ l.2) (hdir : Direct S)
    (hstep : ∀ a, l.1 ≤ num a S.param → num a S.param ≤ l.2 →
      ¬ |(evalFn S a).1.1 - y| < thr →
      l.1 ≤ num a S.param + -((evalFn S a).1.1 - y) / (evalFn S a).1.2 ∧
      num a S.param + -((evalFn S a).1.1 - y) / (evalFn S a).1.2 ≤ l.2)
    (k i : Nat) (cnt : Option Nat) (st : St) (hx : l.1 ≤ st.x ∧ st.x ≤ l.2)
    (ho : l.1 ≤ st.xOld ∧ st.xOld ≤ l.2) (hd : l.1 ≤ st.xOld + st.dx ∧ st.xOld + st.dx ≤ l.2) :
    ∀ b, Event.value b ∈ (loop S y thr (some l) k i cnt st).2 →
      l.1 ≤ at_ S b ∧ at_ S b ≤ l.2 := by
  induction k generalizing i cnt st with
  | zero => intro b hb; simp [loop] at hb
  | succ k ih =>
    intro b hb
    rw [loop] at hb
    simp only at hb
    have hown : ∀ c, Event.value c ∈ (evalFn S (put st.args S.param (.one st.x))).2 →
        l.1 ≤ at_ S c ∧ at_ S c ≤ l.2 := by
      intro c hc
      have := hdir _ _ hc
      simp only [Event.value.injEq] at this
      unfold at_
      rw [this, num_put]
      exact hx
    split_ifs at hb with hc
    · exact hown b hb
    · rcases List.mem_append.mp hb with hb | hb
      · exact hown b hb
      · refine ih _ _ _ ?_ ?_ ?_ b hb
        all_goals unfold advance
        all_goals split_ifs
        · exact clamp_mem l hl _
        · simp only
          constructor <;> linarith [hd.1, hd.2, ho.1, ho.2]
        · exact hx
        · exact ho
        · have := hstep (put st.args S.param (.one st.x)) (by rw [num_put]; exact hx.1)
            (by rw [num_put]; exact hx.2) hc
          rw [num_put] at this
          exact this
        · simp only
          constructor <;> linarith [hd.1, hd.2, ho.1, ho.2]

/-- **C57, partial.** If the start lies within the limits and the full Newton step from any
evaluated point within the limits ends within them, no evaluation is outside the limits.  The
property must be given with its derivative.  Missing: Newton steps that leave the limits, and
properties given without derivative, see `C57_limits_defect` and `C57_perturbation_defect`. -/
theorem C57_limits_partial (S : Solver) (y : ℝ) (a : Args) (lim : Args → ℝ × ℝ)
    (hlim : S.lim = some lim) (hl : (lim a).1 ≤ (lim a).2) (hdir : Direct S)
    (hstart : ∀ f, S.init = some f → (lim a).1 ≤ f a ∧ f a ≤ (lim a).2)
    (hstep : ∀ b, (lim a).1 ≤ at_ S b → at_ S b ≤ (lim a).2 →
      ¬ |(evalFn S b).1.1 - y| < tol S y →
      (lim a).1 ≤ at_ S b + -((evalFn S b).1.1 - y) / (evalFn S b).1.2 ∧
      at_ S b + -((evalFn S b).1.1 - y) / (evalFn S b).1.2 ≤ (lim a).2) :
    ∀ b, Event.value b ∈ (element S y a).2 → (lim a).1 ≤ at_ S b ∧ at_ S b ≤ (lim a).2 := by
  intro b hb
  have hL : limitsOf S a = (some (lim a), [.limits a]) := by unfold limitsOf; rw [hlim]
  have hst : (lim a).1 ≤ (startOf S (some (lim a)) a).1 ∧
      (startOf S (some (lim a)) a).1 ≤ (lim a).2 := by
    unfold startOf
    cases hi : S.init with
    | some f => exact hstart f hi
    | none => simp only; constructor <;> linarith
  have hse : ∀ c, Event.value c ∉ (startOf S (some (lim a)) a).2 := by
    intro c
    unfold startOf
    cases S.init <;> simp
  have hb' : Event.value b ∈ (loop S y (tol S y) (some (lim a)) S.maxIter 0 none
      ⟨(startOf S (some (lim a)) a).1, (startOf S (some (lim a)) a).1, 0, none, a⟩).2 := by
    unfold element at hb
    simp only [hL] at hb
    unfold tol
    split at hb
    all_goals
      simp only [List.mem_append, List.mem_cons, List.not_mem_nil, or_false, reduceCtorEq,
        false_or, hse b] at hb
      exact hb
  refine loop_limits S y (tol S y) (lim a) hl hdir hstep S.maxIter 0 none _ hst hst ?_ b hb'
  simp only [add_zero]
  exact hst

/-- **C57.** Whatever the property does, the point after a step that reduced the error is within the
limits. -/
theorem C57_projected (l : ℝ × ℝ) (h : l.1 ≤ l.2) (st : St) (a : Args) (error df : ℝ)
    (hb : better st.old |error|) :
    l.1 ≤ (advance (some l) st a error df).x ∧ (advance (some l) st a error df).x ≤ l.2 := by
  unfold advance
  rw [if_pos hb]
  exact clamp_mem l h _

/-- **C57.** A solver with neither start nor limits, or with limits in the wrong order, cannot be
made; any other can. -/
theorem C57_construct (init : Option ℝ) (lim : Option (ℝ × ℝ)) :
    construct init lim = .error .analysis ↔
      (init = none ∧ lim = none) ∨ ∃ l, lim = some l ∧ l.2 ≤ l.1 := by
  cases init <;> cases lim <;> simp [construct]

/-- **C57.** The target must be given exactly once, by position or under the property's name. -/
theorem C57_target (S : Solver) (y : Option Arg) (kwargs : Args) :
    target S y kwargs = .error .analysis ↔
      ((∃ v, (update S.defaults kwargs).lookup S.propName = some v) ↔ y.isSome) := by
  unfold target
  cases h : (update S.defaults kwargs).lookup S.propName <;> cases y <;> simp [h]

theorem lookup_filter_ne (l : Args) (k j : String) :
    (l.filter (fun p => p.1 ≠ k)).lookup j = if j = k then none else l.lookup j := by
  induction l with
  | nil => simp
  | cons a l ih =>
    by_cases ha : a.1 = k
    · rw [List.filter_cons_of_neg (by simpa using ha), ih]
      by_cases hj : j = k
      · simp [hj]
      · have : (j == a.1) = false := by rw [ha]; simpa using hj
        rw [if_neg hj, if_neg hj]
        obtain ⟨a1, a2⟩ := a
        simp only at this
        rw [List.lookup, this]
    · rw [List.filter_cons_of_pos (by simpa using ha), List.lookup_cons, List.lookup_cons, ih]
      by_cases hj : j = k
      · have : (j == a.1) = false := by rw [hj]; simpa using fun h => ha h.symm
        rw [this]
      · simp [hj]

/-- **C57.** The target is the value given, and what is passed on to the property are the other
arguments: never the property's own name. -/
theorem C57_passes (S : Solver) (y : Option Arg) (kwargs : Args) {v : Arg} {args : Args}
    (h : target S y kwargs = .ok (v, args)) :
    (y = some v ∨ y = none ∧ (update S.defaults kwargs).lookup S.propName = some v) ∧
      args.lookup S.propName = none ∧
      ∀ j, j ≠ S.propName → args.lookup j = (update S.defaults kwargs).lookup j := by
  unfold target at h
  cases hl : (update S.defaults kwargs).lookup S.propName with
  | none =>
    cases y with
    | none => simp [hl] at h
    | some w =>
      simp only [hl, Except.ok.injEq, Prod.mk.injEq] at h
      obtain ⟨rfl, rfl⟩ := h
      exact ⟨Or.inl rfl, hl, fun _ _ => rfl⟩
  | some w =>
    cases y with
    | some u => simp [hl] at h
    | none =>
      simp only [hl, Except.ok.injEq, Prod.mk.injEq] at h
      obtain ⟨rfl, rfl⟩ := h
      refine ⟨Or.inr ⟨rfl, rfl⟩, ?_, ?_⟩
      · rw [lookup_filter_ne, if_pos rfl]
      · intro j hj; rw [lookup_filter_ne, if_neg hj]

/-! ## Elementwise use -/

/-- Two dictionaries agree except perhaps on one key. -/
def AgreeBut (k : String) (a b : Args) : Prop := ∀ j, j ≠ k → a.lookup j = b.lookup j

/-- The user's callables read their keywords by name, and the start and the limits do not read the
unknown. -/
structure Reads (S : Solver) : Prop where
  fdf : ∀ g, S.fn = .fdf g → ∀ a b : Args, (∀ j, a.lookup j = b.lookup j) → g a = g b
  fAndDf : ∀ f df, S.fn = .fAndDf f df → ∀ a b : Args, (∀ j, a.lookup j = b.lookup j) →
    f a = f b ∧ df a = df b
  fOnly : ∀ f, S.fn = .fOnly f → ∀ a b : Args, (∀ j, a.lookup j = b.lookup j) → f a = f b
  init : ∀ f, S.init = some f → ∀ a b, AgreeBut S.param a b → f a = f b
  lim : ∀ f, S.lim = some f → ∀ a b, AgreeBut S.param a b → f a = f b

theorem put_agree {k : String} {a b : Args} (h : AgreeBut k a b) (v : Arg) :
    ∀ j, (put a k v).lookup j = (put b k v).lookup j := by
  intro j
  rw [lookup_put, lookup_put]
  by_cases hj : j = k
  · rw [if_pos hj, if_pos hj]
  · rw [if_neg hj, if_neg hj, h j hj]

theorem agree_put (k : String) (a : Args) (v : Arg) : AgreeBut k (put a k v) a := by
  intro j hj
  rw [lookup_put, if_neg hj]

theorem evalFn_agree {S : Solver} (hr : Reads S) {a b : Args}
    (h : ∀ j, a.lookup j = b.lookup j) : (evalFn S a).1 = (evalFn S b).1 := by
  unfold evalFn
  cases hf : S.fn with
  | fdf g => exact hr.fdf g hf a b h
  | fAndDf f df =>
    obtain ⟨h1, h2⟩ := hr.fAndDf f df hf a b h
    simp only [h1, h2]
  | fOnly f =>
    have hn : num a S.param = num b S.param := by unfold num; rw [h S.param]
    simp only [hn]
    rw [hr.fOnly f hf a b h, hr.fOnly f hf _ _ (put_agree (fun j _ => h j) _)]

theorem loop_agree {S : Solver} (hr : Reads S) (y thr : ℝ) (limits : Option (ℝ × ℝ)) (k i : Nat)
    (cnt : Option Nat) (s t : St) (h : AgreeBut S.param s.args t.args)
    (hx : s.x = t.x) (ho : s.xOld = t.xOld) (hd : s.dx = t.dx) (he : s.old = t.old) :
    (loop S y thr limits k i cnt s).1.1 = (loop S y thr limits k i cnt t).1.1 ∧
    (loop S y thr limits k i cnt s).1.2.1 = (loop S y thr limits k i cnt t).1.2.1 := by
  induction k generalizing i cnt s t with
  | zero => simp [loop]
  | succ k ih =>
    have hev := evalFn_agree hr (put_agree h (.one s.x))
    rw [loop, loop]
    simp only
    rw [← hx, ← hev]
    split_ifs with hc
    · exact ⟨rfl, rfl⟩
    · refine ih (i + 1) (some i) _ _ ?_ ?_ ?_ ?_ ?_
      all_goals unfold advance
      all_goals rw [← he]
      all_goals split_ifs
      · intro j hj
        exact put_agree h _ j
      · intro j hj
        exact put_agree h _ j
      all_goals simp [hx, ho, hd]

theorem loop_args (S : Solver) (y thr : ℝ) (limits : Option (ℝ × ℝ)) (k i : Nat)
    (cnt : Option Nat) (s : St) :
    AgreeBut S.param (loop S y thr limits k i cnt s).1.2.2 s.args := by
  induction k generalizing i cnt s with
  | zero => intro j _; simp [loop]
  | succ k ih =>
    rw [loop]
    simp only
    split_ifs with hc
    · exact agree_put _ _ _
    · intro j hj
      rw [ih _ _ _ j hj]
      unfold advance
      split_ifs <;> exact agree_put _ _ _ j hj

/-- The number stored for an element. -/
noncomputable def value (S : Solver) (y : ℝ) (a : Args) : Except Err ℝ :=
  (element S y a).1.map Prod.fst

theorem element_agree {S : Solver} (hr : Reads S) (y : ℝ) {a b : Args}
    (h : AgreeBut S.param a b) : value S y a = value S y b := by
  have hlim : (limitsOf S a).1 = (limitsOf S b).1 := by
    unfold limitsOf
    cases hl : S.lim with
    | none => rfl
    | some l => simp only [hr.lim l hl a b h]
  have hst : (startOf S (limitsOf S a).1 a).1 = (startOf S (limitsOf S b).1 b).1 := by
    rw [hlim]
    unfold startOf
    cases hi : S.init with
    | none => cases (limitsOf S b).1 <;> rfl
    | some f => exact hr.init f hi a b h
  have hL := loop_agree hr y (max S.small |S.eps * y|) (limitsOf S a).1 S.maxIter 0 none
    ⟨(startOf S (limitsOf S a).1 a).1, (startOf S (limitsOf S a).1 a).1, 0, none, a⟩
    ⟨(startOf S (limitsOf S b).1 b).1, (startOf S (limitsOf S b).1 b).1, 0, none, b⟩ h hst hst rfl rfl
  rw [hlim] at hL
  unfold value element
  simp only [hlim] at hL ⊢
  rw [hL.2]
  cases afterLoop S (loop S y (max S.small |S.eps * y|) (limitsOf S b).1 S.maxIter 0 none
    ⟨(startOf S (limitsOf S b).1 b).1, (startOf S (limitsOf S b).1 b).1, 0, none, b⟩).1.2.1 with
  | error e => rfl
  | ok u =>
    simp only [Except.map, hL.1]

theorem element_args (S : Solver) (y : ℝ) (a d : Args) (x : ℝ)
    (h : (element S y a).1 = .ok (x, d)) : AgreeBut S.param d a := by
  unfold element at h
  simp only at h
  split at h
  · simp at h
  · simp only [Except.ok.injEq, Prod.mk.injEq] at h
    rw [← h.2]
    exact loop_args S y _ _ _ _ _ _

/-- The dictionary an element sees, seen alone. -/
def alone (args : Args) (k : Nat) : Args := args.map (fun p => (p.1, pick p.2 k))

theorem lookup_alone (args : Args) (k : Nat) (j : String) :
    (alone args k).lookup j = (args.lookup j).map (fun a => pick a k) := by
  induction args with
  | nil => rfl
  | cons p args ih =>
    obtain ⟨i, a⟩ := p
    unfold alone at ih ⊢
    rw [List.map_cons, List.lookup_cons, List.lookup_cons]
    cases j == i <;> simp [ih]

/-- The target of element `k` as a number. -/
noncomputable def targetAt (y : Arg) (k : Nat) : ℝ :=
  match y with
  | .one x => x
  | .many l => if l.length = 1 then l.getD 0 0 else l.getD k 0

theorem scalar_pick (y : Arg) (k : Nat) : scalar (pick y k) = .ok (targetAt y k) := by
  cases y with
  | one x => rfl
  | many l =>
    unfold pick targetAt
    by_cases h : l.length = 1
    · obtain ⟨x, rfl⟩ := List.length_eq_one_iff.mp h
      simp [scalar]
    · simp [h, scalar]

theorem elements_spec (S : Solver) (hr : Reads S) (hm : 0 < S.maxIter) (y : Arg) (args : Args)
    (hd : (args.map Prod.fst).Nodup) (hpar : S.param ∉ args.map Prod.fst) (it : Iter)
    (h : vectorize y args args = .ok it) (k i : Nat) (hk : i + k ≤ it.n) (d : Args)
    (hkeep : ∀ key a, (key, a) ∈ args → (∀ m, ¬ Arg.lenIs a m) → d.lookup key = some a)
    (hclean : ∀ key, key ∉ args.map Prod.fst → key ≠ S.param → d.lookup key = none) :
    ∃ xs, (elements S it y args k i d).1 = .ok xs ∧ xs.length = k ∧
      ∀ j, j < k → ∃ x, xs[j]? = some x ∧
        value S (targetAt y (i + j)) (alone args (i + j)) = .ok x := by
  induction k generalizing i d with
  | zero => exact ⟨[], rfl, rfl, by omega⟩
  | succ k ih =>
    obtain ⟨d', hn, hd1, hd2⟩ := C58_element y args args (List.Perm.refl _) hd it h i (by omega) d hkeep
    have hag : AgreeBut S.param d' (alone args i) := by
      intro j hj
      rw [lookup_alone]
      by_cases hja : j ∈ args.map Prod.fst
      · obtain ⟨⟨j', a⟩, hm', rfl⟩ := List.mem_map.mp hja
        rw [hd1 j' a hm', (lookup_mem args hd j' a).mpr hm']
        rfl
      · rw [hd2 j hja, hclean j hja hj]
        have : args.lookup j = none := by
          cases hl : args.lookup j with
          | none => rfl
          | some a => exact absurd (List.mem_map_of_mem (f := Prod.fst) ((lookup_mem args hd j a).mp hl)) hja
        rw [this]; rfl
    obtain ⟨d'', he⟩ := element_ok S (targetAt y i) d' hm
    set x := ((loop S (targetAt y i) (tol S (targetAt y i)) (limitsOf S d').1 S.maxIter 0 none
        ⟨(startOf S (limitsOf S d').1 d').1, (startOf S (limitsOf S d').1 d').1, 0, none, d'⟩).1.1).getD 0
      with hxdef
    have hback := element_args S _ _ _ _ he
    have hd'' : ∀ key a, (key, a) ∈ args → d''.lookup key = some (pick a i) := by
      intro key a hka
      have hkp : key ≠ S.param := fun e => hpar (e ▸ List.mem_map_of_mem (f := Prod.fst) hka)
      rw [hback key hkp]
      exact hd1 key a hka
    obtain ⟨xs, hxs, hlen, hval⟩ := ih (i + 1) (by omega) d''
      (fun key a hka hno => by rw [hd'' key a hka, pick_whole hno])
      (fun key hkey hkp => by rw [hback key hkp, hd2 key hkey, hclean key hkey hkp])
    refine ⟨x :: xs, ?_, by simp [hlen], ?_⟩
    · rw [elements, hn]
      simp only [scalar_pick, he, hxs]
    · intro j hj
      cases j with
      | zero =>
        refine ⟨x, rfl, ?_⟩
        rw [Nat.add_zero, ← element_agree hr _ hag]
        unfold value
        rw [he]; rfl
      | succ j =>
        obtain ⟨z, hz, hv⟩ := hval j (by omega)
        refine ⟨z, by simpa using hz, ?_⟩
        rw [show i + (j + 1) = i + 1 + j by omega]
        exact hv

/-- **C58.** A call with array arguments returns, element by element, what the solver finds for that
element's target and arguments alone.  The callables read their keywords by name; the unknown is not
among the arguments. -/
theorem C58_elementwise (S : Solver) (hr : Reads S) (hm : 0 < S.maxIter) (y : Arg) (args : Args)
    (hd : (args.map Prod.fst).Nodup) (hpar : S.param ∉ args.map Prod.fst)
    (it : Iter) (h : vectorize y args args = .ok it) :
    ∃ xs, (elements S it y args it.n 0 it.copy).1 = .ok xs ∧ xs.length = it.n ∧
      ∀ j, j < it.n → ∃ x, xs[j]? = some x ∧ value S (targetAt y j) (alone args j) = .ok x := by
  have hkeep := C58_first y args args (List.Perm.refl _) hd it h
  obtain ⟨_, hcopy⟩ := vectorize_keys y args args (List.Perm.refl _) hd it h
  have := elements_spec S hr hm y args hd hpar it h it.n 0 (by omega) it.copy hkeep (by
    intro key hkey _
    cases hl : it.copy.lookup key with
    | none => rfl
    | some a =>
      exfalso
      have hmem : (key, a) ∈ it.copy := by
        clear hkeep hcopy
        generalize it.copy = c at hl
        induction c with
        | nil => simp at hl
        | cons p c ih =>
          obtain ⟨j, b⟩ := p
          rw [List.lookup_cons] at hl
          by_cases hkj : key = j
          · subst hkj
            simp only [beq_self_eq_true, Option.some.injEq] at hl
            simp [hl]
          · have hb : (key == j) = false := by simpa using hkj
            rw [hb] at hl
            exact List.mem_cons_of_mem _ (ih hl)
      exact hkey (List.mem_map_of_mem (f := Prod.fst) ((hcopy key a).mp hmem).1))
  simpa using this

/-! ## A property that is a straight line -/

/-- The property given to the solver is the straight line `m x + c` in the unknown, however it was
given; its slope, where the user gives one, is `m`. -/
def Line (S : Solver) (m c : ℝ) : Prop :=
  match S.fn with
  | .fdf g => ∀ a, g a = (m * at_ S a + c, m)
  | .fAndDf f df => ∀ a, f a = m * at_ S a + c ∧ df a = m
  | .fOnly f => ∀ a, f a = m * at_ S a + c

theorem line_eval {S : Solver} {m c : ℝ} (hs : 0 < S.small) (hl : Line S m c) (a : Args) :
    (evalFn S a).1 = (m * num a S.param + c, m) := by
  unfold Line at hl
  unfold evalFn
  cases hf : S.fn with
  | fdf g => rw [hf] at hl; exact hl a
  | fAndDf f df =>
    rw [hf] at hl
    exact Prod.ext (hl a).1 (hl a).2
  | fOnly f =>
    rw [hf] at hl
    have hd : 0 < max |num a S.param * S.eps| S.small := lt_of_lt_of_le hs (le_max_right _ _)
    dsimp only at hl ⊢
    rw [hl, hl, at_, at_, num_put]
    refine Prod.ext rfl ?_
    dsimp only
    field_simp
    ring

/-- **C57.** For a property that is a straight line of nonzero slope the first step lands on the
solution, whichever way the property was given (with its slope, with a separate slope, or alone, in
which case the solver takes the slope from a difference): if the solution lies within the limits the
number returned is the start, already within the tolerance, or the exact solution. -/
theorem C57_line (S : Solver) (y m c : ℝ) (a : Args) (hl : Line S m c) (hm : m ≠ 0)
    (hs : 0 < S.small) (hi : 2 ≤ S.maxIter)
    (hlim : ∀ l, S.lim = some l → (l a).1 ≤ (y - c) / m ∧ (y - c) / m ≤ (l a).2) :
    ∃ x, value S y a = .ok x ∧ |m * x + c - y| < tol S y ∧
      (x = (startOf S (limitsOf S a).1 a).1 ∨ m * x + c = y) := by
  obtain ⟨d, he⟩ := element_ok S y a (by omega)
  have ht : 0 < tol S y := lt_of_lt_of_le hs (le_max_left _ _)
  obtain ⟨k, hk⟩ : ∃ k, S.maxIter = k + 1 + 1 := ⟨S.maxIter - 2, by omega⟩
  set x0 := (startOf S (limitsOf S a).1 a).1 with hx0
  have hcl : clamp (limitsOf S a).1 ((y - c) / m) = (y - c) / m := by
    unfold limitsOf
    cases hq : S.lim with
    | none => rfl
    | some l =>
      obtain ⟨h1, h2⟩ := hlim l hq
      dsimp only [clamp]
      rw [min_eq_left h2, max_eq_left h1]
  have hsol : m * ((y - c) / m) + c = y := by field_simp; ring
  unfold value
  rw [he, hk, loop]
  dsimp only
  rw [line_eval hs hl, num_put]
  dsimp only
  by_cases h0 : |m * x0 + c - y| < tol S y
  · rw [if_pos h0]
    exact ⟨x0, rfl, h0, Or.inl rfl⟩
  · rw [if_neg h0]
    have hadv : ∀ ag, (advance (limitsOf S a).1 ⟨x0, x0, 0, none, a⟩ ag (m * x0 + c - y) m).x
        = (y - c) / m := by
      intro ag
      unfold advance
      rw [if_pos (by trivial)]
      dsimp only
      rw [← hcl]
      congr 1
      field_simp
      ring
    rw [loop]
    dsimp only
    rw [line_eval hs hl, num_put, hadv]
    dsimp only
    have h1 : |m * ((y - c) / m) + c - y| < tol S y := by rw [hsol, sub_self, abs_zero]; exact ht
    rw [if_pos h1]
    exact ⟨(y - c) / m, rfl, h1, Or.inr hsol⟩

/-- The line `2 x + 1` given alone, between 0 and 1: for the target 2 the answer is within the
tolerance of the solution 1/2 (here the start is the solution); for the target 3/2 it is 1/4. -/
example : ∃ x, value
    { param := "T", propName := "h", eps := 1 / 1000000, small := 1 / 10000000000, maxIter := 30,
      defaults := [], fn := .fOnly (fun a => 2 * num a "T" + 1), init := none,
      lim := some (fun _ => (0, 1)) } (3 / 2) [] = .ok x ∧
    |2 * x + 1 - 3 / 2| < tol
    { param := "T", propName := "h", eps := 1 / 1000000, small := 1 / 10000000000, maxIter := 30,
      defaults := [], fn := .fOnly (fun a => 2 * num a "T" + 1), init := none,
      lim := some (fun _ => (0, 1)) } (3 / 2) := by
  obtain ⟨x, h1, h2, _⟩ := C57_line
    { param := "T", propName := "h", eps := 1 / 1000000, small := 1 / 10000000000, maxIter := 30,
      defaults := [], fn := .fOnly (fun a => 2 * num a "T" + 1), init := none,
      lim := some (fun _ => (0, 1)) } (3 / 2) 2 1 [] (fun a => rfl) (by norm_num) (by norm_num)
    (by norm_num) (by
      intro l hl
      obtain rfl := Option.some.inj hl
      norm_num)
  exact ⟨x, h1, h2⟩

/-! ## Disagreements -/

/-- **C57 disagreement.** Failure to converge is never reported: `count` is at most `max_iter - 1`
after the loop, so the test at `solve.py:457` never succeeds.  If no evaluation matches the target,
the call returns the number 0. -/
theorem C57_silent_defect (S : Solver) (y : ℝ) (a : Args) (hm : 0 < S.maxIter)
    (h : ∀ b, ¬ |(evalFn S b).1.1 - y| < tol S y) : value S y a = .ok 0 := by
  obtain ⟨d, he⟩ := element_ok S y a hm
  unfold value
  rw [he]
  cases hl : (loop S y (tol S y) (limitsOf S a).1 S.maxIter 0 none
      ⟨(startOf S (limitsOf S a).1 a).1, (startOf S (limitsOf S a).1 a).1, 0, none, a⟩).1.1 with
  | none => rfl
  | some z =>
    obtain ⟨b, _, _, hc⟩ := loop_converged S y _ _ _ _ _ _ z hl
    exact absurd hc (h b)

/-- A solver for `f` with derivative `df` between 0 and 1. -/
noncomputable def S01 (f df : ℝ → ℝ) : Solver where
  param := "T"
  propName := "h"
  eps := 1 / 1000000
  small := 1 / 10000000000
  maxIter := 30
  defaults := []
  fn := .fdf (fun a => (f (num a "T"), df (num a "T")))
  init := none
  lim := some (fun _ => (0, 1))

/-- `x ↦ x² + 1` never equals 0, and the solver answers 0 without an error. -/
example : value (S01 (fun x => x ^ 2 + 1) (fun x => 2 * x)) 0 [] = .ok 0 := by
  apply C57_silent_defect
  · simp [S01]
  · intro b
    have : (1 : ℝ) ≤ |num b "T" ^ 2 + 1 - 0| := by
      rw [abs_of_nonneg (by nlinarith [sq_nonneg (num b "T")])]
      nlinarith [sq_nonneg (num b "T")]
    simp only [evalFn, S01, tol]
    norm_num
    have h2 := this
    norm_num at h2
    linarith

/-- **C57 disagreement.** The limits are not enforced when the solver backs up from a bad step: the
step itself was not cut to the limits, so half of it may still end outside (`solve.py:441-443`).
For `f(x) = 1 - (x - 1/2)/10 + 21/5 (x - 1/2)²` between 0 and 1, the third evaluation is at 11/2. -/
theorem C57_limits_defect :
    ∃ b, Event.value b ∈ (element (S01 (fun x => 1 - (x - 1 / 2) / 10 + 21 / 5 * (x - 1 / 2) ^ 2)
      (fun x => -1 / 10 + 42 / 5 * (x - 1 / 2))) 0 []).2 ∧ num b "T" = 11 / 2 := by
  set S := S01 (fun x => 1 - (x - 1 / 2) / 10 + 21 / 5 * (x - 1 / 2) ^ 2)
      (fun x => -1 / 10 + 42 / 5 * (x - 1 / 2)) with hS
  have hm : S.maxIter = 30 := rfl
  have hp : S.param = "T" := rfl
  have hev : ∀ b, evalFn S b = ((1 - (num b "T" - 1 / 2) / 10 + 21 / 5 * (num b "T" - 1 / 2) ^ 2,
      -1 / 10 + 42 / 5 * (num b "T" - 1 / 2)), [.value b]) := fun b => rfl
  have ht : max S.small |S.eps * 0| = 1 / 10000000000 := by
    simp [hS, S01]
  have hL : limitsOf S [] = (some (0, 1), [.limits []]) := rfl
  have hst : startOf S (some (0, 1)) [] = (1 / 2, []) := by
    simp [startOf, hS, S01]
  refine ⟨put (put (put [] "T" (.one (1 / 2))) "T" (.one 1)) "T" (.one (11 / 2)), ?_, num_put _ _ _⟩
  have key : Event.value (put (put (put [] "T" (.one (1 / 2))) "T" (.one 1)) "T" (.one (11 / 2))) ∈
      (loop S 0 (1 / 10000000000) (some (0, 1)) 30 0 none ⟨1 / 2, 1 / 2, 0, none, []⟩).2 := by
    rw [loop]
    simp only [hev, hp, num_put]
    rw [if_neg (by norm_num)]
    apply List.mem_append_right
    have h1 : advance (some (0, 1)) ⟨1 / 2, 1 / 2, 0, none, []⟩ (put [] "T" (.one (1 / 2)))
        (1 - (1 / 2 - 1 / 2) / 10 + 21 / 5 * (1 / 2 - 1 / 2) ^ 2 - 0)
        (-1 / 10 + 42 / 5 * (1 / 2 - 1 / 2)) =
        ⟨1, 1 / 2, 10, some 1, put [] "T" (.one (1 / 2))⟩ := by
      unfold advance
      rw [if_pos (by simp [better])]
      norm_num [clamp]
    rw [h1, loop]
    simp only [hev, hp, num_put]
    rw [if_neg (by norm_num)]
    apply List.mem_append_right
    have h2 : advance (some (0, 1)) ⟨1, 1 / 2, 10, some 1, put [] "T" (.one (1 / 2))⟩
        (put (put [] "T" (.one (1 / 2))) "T" (.one 1))
        (1 - (1 - 1 / 2) / 10 + 21 / 5 * (1 - 1 / 2) ^ 2 - 0)
        (-1 / 10 + 42 / 5 * (1 - 1 / 2)) =
        ⟨11 / 2, 1 / 2, 5, some 1, put (put [] "T" (.one (1 / 2))) "T" (.one 1)⟩ := by
      unfold advance
      rw [if_neg (by norm_num [better])]
      norm_num
    rw [h2, loop]
    simp only [hev, hp]
    split_ifs
    · simp
    · simp
  unfold element
  simp only [hL, hst, ht, hm]
  split
  · exact List.mem_append_right _ key
  · exact List.mem_append_right _ key

/-- **C57 disagreement.** A property given without its derivative is also evaluated above the upper
limit whenever the solver stands on it: the slope is estimated at a slightly larger value
(`solve.py:475-481`). -/
theorem C57_perturbation_defect (S : Solver) (f : Args → ℝ) (hf : S.fn = .fOnly f)
    (hs : 0 < S.small) (hi : ℝ) (a : Args) :
    ∃ b, Event.value b ∈ (evalFn S (put a S.param (.one hi))).2 ∧ hi < at_ S b := by
  unfold evalFn
  rw [hf]
  simp only [num_put]
  refine ⟨_, List.mem_cons_of_mem _ (List.mem_singleton.mpr rfl), ?_⟩
  unfold at_
  rw [num_put]
  have : 0 < max |hi * S.eps| S.small := lt_of_lt_of_le hs (le_max_right _ _)
  linarith

theorem loop_leaves (S : Solver) (y thr : ℝ) (limits : Option (ℝ × ℝ)) (k i : Nat)
    (cnt : Option Nat) (s : St) (hk : 0 < k) :
    ∃ x, (loop S y thr limits k i cnt s).1.2.2.lookup S.param = some (.one x) := by
  induction k generalizing i cnt s with
  | zero => omega
  | succ k ih =>
    rw [loop]
    simp only
    split_ifs with hc
    · exact ⟨s.x, by simp only; rw [lookup_put, if_pos rfl]⟩
    · rcases Nat.eq_zero_or_pos k with rfl | hk'
      · refine ⟨s.x, ?_⟩
        simp only [loop]
        unfold advance
        split_ifs <;> simp only [] <;> rw [lookup_put, if_pos rfl]
      · exact ih _ _ _ hk'

theorem element_leaves (S : Solver) (y : ℝ) (a d : Args) (x : ℝ) (hm : 0 < S.maxIter)
    (h : (element S y a).1 = .ok (x, d)) : ∃ z, d.lookup S.param = some (.one z) := by
  unfold element at h
  simp only at h
  split at h
  · simp at h
  · simp only [Except.ok.injEq, Prod.mk.injEq] at h
    rw [← h.2]
    exact loop_leaves S y _ _ _ _ _ _ hm

theorem element_start (S : Solver) (y : ℝ) (a : Args) (f : Args → ℝ) (hi : S.init = some f) :
    Event.start a ∈ (element S y a).2 := by
  have hs : ∀ l, (startOf S l a).2 = [.start a] := by
    intro l
    unfold startOf
    rw [hi]
  unfold element
  simp only [hs]
  split <;> simp

/-- **C57 disagreement.** The callables for the start and the limits are documented to be called
without the unknown (`solve.py:174-179`).  In a call with two targets the start for the second is
asked with the unknown among the keywords, left there by the first (`solve.py:417`). -/
theorem C57_start_keyword_defect (S : Solver) (f : Args → ℝ) (hi : S.init = some f)
    (hm : 0 < S.maxIter) (y0 y1 : ℝ) (hdef : S.defaults = []) :
    ∃ a z, Event.start a ∈ (call true S (some (.many [y0, y1])) []).2 ∧
      a.lookup S.param = some (.one z) := by
  have ht : target S (some (.many [y0, y1])) [] = .ok (.many [y0, y1], []) := by
    simp [target, update, hdef]
  have hv : vectorize (.many [y0, y1]) [] [] = .ok ⟨2, true, [], []⟩ := by
    simp [vectorize, startLen, checkKeys]
  obtain ⟨d, he⟩ := element_ok S y0 [] hm
  obtain ⟨z, hz⟩ := element_leaves S y0 [] d _ hm he
  obtain ⟨d2, he2⟩ := element_ok S y1 d hm
  refine ⟨d, z, ?_, hz⟩
  have hstart := element_start S y1 d f hi
  have hel : Event.start d ∈ (elements S ⟨2, true, [], []⟩ (.many [y0, y1]) [] 2 0 []).2 := by
    have hn0 : next ⟨2, true, [], []⟩ (.many [y0, y1]) [] 0 [] = .ok (.one y0, []) := by
      simp [next, fill, Arg.at]
    have hn1 : next ⟨2, true, [], []⟩ (.many [y0, y1]) [] 1 d = .ok (.one y1, d) := by
      simp [next, fill, Arg.at]
    rw [elements, hn0]
    simp only [scalar, he]
    rw [elements, hn1]
    simp only [scalar, he2, elements]
    simp [hstart]
  unfold call
  simp only [ht, hv]
  split
  · exact hel
  · simpa using hel

/-- **C57 disagreement.** With `max_iter = 0` the call raises `UnboundLocalError`
(`solve.py:414`, `457`). -/
theorem C57_zero_iterations_defect (S : Solver) (y : ℝ) (a : Args) (h : S.maxIter = 0) :
    (element S y a).1 = .error .unboundLocal := by
  unfold element
  simp [h, loop, afterLoop]

/-- **C57 disagreement.** With numpy 1.24 or later every call for a single element raises
`AttributeError`, because `np.float` is gone (`solve.py:461-462`). -/
theorem C57_np_float_defect (S : Solver) (y : Option Arg) (kwargs : Args) (v : Arg) (args : Args)
    (it : Iter) (ht : target S y kwargs = .ok (v, args)) (hv : vectorize v args args = .ok it)
    (h1 : it.n = 1) (xs : List ℝ)
    (hx : (elements S it v args it.n 0 it.copy).1 = .ok xs) :
    (call true S y kwargs).1 = .ok xs ∧ (call false S y kwargs).1 = .error .attribute := by
  unfold call
  simp only [ht, hv, hx]
  simp [h1]

/-! ## Concrete cases -/

/-- A solver meeting the hypotheses of `C57_limits_partial`: `f(x) = x` between 0 and 1, target 1/4.
Every Newton step lands on the solution. -/
example : ∀ b, Event.value b ∈ (element (S01 (fun x => x) (fun _ => 1)) (1 / 4) []).2 →
    0 ≤ num b "T" ∧ num b "T" ≤ 1 := by
  refine C57_limits_partial (S01 (fun x => x) (fun _ => 1)) (1 / 4) [] (fun _ => (0, 1)) rfl
    (by norm_num) (direct_fdf _ _ rfl) (by simp [S01]) ?_
  intro b h0 h1 _
  simp only [at_, evalFn, S01]
  norm_num

/-- Solvers of the form `S01` read their keywords by name. -/
example (f df : ℝ → ℝ) : Reads (S01 f df) := by
  refine ⟨fun g hg a b h => ?_, by simp [S01], by simp [S01], by simp [S01], ?_⟩
  · simp only [S01, Fn.fdf.injEq] at hg
    subst hg
    simp only [num, h "T"]
  · intro l hl a b _
    simp only [S01, Option.some.injEq] at hl
    subst hl
    rfl

end PyroMat.Solve.Props
