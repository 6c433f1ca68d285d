import Verif.Mp.PropsSat

/-!
# C48: the ideal-gas part of the Helmholtz energy
-/

set_option linter.unusedSimpArgs false

namespace PyroMat.Mp.Props

open PyroMat PyroMat.Mp PyroMat.Mp.Spec Filter Topology

theorem acc_two (a b : J6) : a.acc 2 b = a.add b := by simp [J6.acc, J6.add]

theorem acc_cut (d : Nat) (a b : J6) : (a.cut d).acc d b = (a.acc 2 b).cut d := by
  rcases d with _ | _ | d <;> simp [J6.acc, J6.cut]

theorem acc_cut' (d : Nat) (a b : J6) : (a.cut d).acc d (b.cut d) = (a.acc 2 b).cut d := by
  rcases d with _ | _ | d <;> simp [J6.acc, J6.cut]

theorem log_jet {x : ℝ} (hx : x ≠ 0) : Jet1 (fun s => ⟨Real.log s, 1 / s, -(1 / s) / s⟩) x := by
  refine ⟨by simpa using Real.hasDerivAt_log hx, (inv_jet hx).d1⟩

/-- The logarithm terms. -/
noncomputable def logT (c t : ℝ) : P3 := ⟨c * Real.log t, c / t, -(c / t) / t⟩
noncomputable def tlogT (c t : ℝ) : P3 := ⟨c * t * Real.log t, c * (Real.log t + 1), c / t⟩
noncomputable def expT (r : ℝ × ℝ) (t : ℝ) : P3 :=
  ⟨(aoExp t r.1 r.2).p, (aoExp t r.1 r.2).px, (aoExp t r.1 r.2).pxx⟩

theorem logT_jet (c : ℝ) {x : ℝ} (hx : x ≠ 0) : Jet1 (logT c) x := by
  refine (Jet1.mul (Jet1.const c x) (log_jet hx)).congr (Eventually.of_forall fun s => ?_)
  simp only [logT]
  congr 1 <;> ring

theorem tlogT_jet (c : ℝ) {x : ℝ} (hx : x ≠ 0) : Jet1 (tlogT c) x := by
  refine (Jet1.mul (Jet1.mul (Jet1.const c x) (Jet1.id x)) (log_jet hx)).congr ?_
  filter_upwards [isOpen_ne.mem_nhds hx] with s hs
  have hs' : s ≠ 0 := hs
  simp only [tlogT]
  congr 1 <;> field_simp <;> ring

theorem expT_jet (r : ℝ × ℝ) (hr : r.1 ≠ 0) {x : ℝ} (hx : x ≠ 0) : Jet1 (expT r) x := by
  have hlin : Jet1 (fun s : ℝ => (⟨-r.1 * s, -r.1, 0⟩ : P3)) x :=
    ⟨by simpa using (hasDerivAt_id x).const_mul (-r.1), hasDerivAt_const x _⟩
  have he := Jet1.exp hlin
  have hone : Jet1 (fun s : ℝ => (⟨1 - Real.exp (-r.1 * s), r.1 * Real.exp (-r.1 * s),
      -(r.1 * r.1) * Real.exp (-r.1 * s)⟩ : P3)) x := by
    refine ((Jet1.const 1 x).add ((Jet1.const (-1) x).mul he)).congr (Eventually.of_forall fun s => ?_)
    congr 1 <;> ring
  have hne : ∀ s : ℝ, s ≠ 0 → 1 - Real.exp (-r.1 * s) ≠ 0 := by
    intro s hs h0
    have : Real.exp (-r.1 * s) = 1 := by linarith
    rw [Real.exp_eq_one_iff] at this
    rcases mul_eq_zero.mp this with h | h
    · exact hr (by linarith)
    · exact hs h
  refine ((Jet1.const r.2 x).mul (Jet1.log hone (hne x hx))).congr ?_
  filter_upwards [isOpen_ne.mem_nhds hx] with s hs
  have hs' := hne s hs
  simp only [expT, aoExp]
  congr 1
  · ring
  · clear he hone
    generalize Real.exp (-r.1 * s) = e at hs'
    field_simp
    ring

/-- The routine at second order, as a function. -/
noncomputable def aoF (g : AOgroup) (t d : ℝ) : J6 :=
  (((((P3.liftY ⟨Real.log d, 1 / d, -(1 / d) / d⟩).add (logT (g.logt.getD 0) t).liftX).add
    (tlogT (g.tlogt.getD 0) t).liftX).add (evalGs1 (g.coef0.getD []) t).liftX)).add
    ((g.coef1.map (fun r => (expT r t).liftX)).foldr J6.add ⟨0, 0, 0, 0, 0, 0⟩)

theorem foldl_acc {α : Type} (f : α → J6) (l : List α) (s : J6) :
    l.foldl (fun acc r => acc.acc 2 (f r)) s =
      s.add ((l.map f).foldr J6.add ⟨0, 0, 0, 0, 0, 0⟩) := by
  induction l generalizing s with
  | nil => simp [J6.add]
  | cons a l ih =>
    rw [List.foldl_cons, ih, acc_two]
    simp [J6.add, add_assoc]

theorem foldl_acc_cut {α : Type} (d : Nat) (f : α → J6) (l : List α) (s : J6) :
    l.foldl (fun acc r => acc.acc d (f r)) (s.cut d) =
      (l.foldl (fun acc r => acc.acc 2 (f r)) s).cut d := by
  induction l generalizing s with
  | nil => rfl
  | cons a l ih => rw [List.foldl_cons, acc_cut, ih, List.foldl_cons]

theorem foldr_jet {α : Type} (f : α → ℝ → ℝ → J6) (l : List α) {x y : ℝ}
    (h : ∀ r ∈ l, Jet2 (f r) x y) :
    Jet2 (fun s t => (l.map (fun r => f r s t)).foldr J6.add ⟨0, 0, 0, 0, 0, 0⟩) x y := by
  induction l with
  | nil => exact Jet2.const 0 x y
  | cons a l ih =>
    exact (h a (by simp)).add (ih (fun r hr => h r (by simp [hr])))

theorem foldr_value {α : Type} (f : α → J6) (l : List α) :
    ((l.map f).foldr J6.add ⟨0, 0, 0, 0, 0, 0⟩).p = (l.map (fun r => (f r).p)).sum := by
  induction l with
  | nil => rfl
  | cons a l ih => simp [J6.add, ih]

theorem aoExp_lift (t : ℝ) (r : ℝ × ℝ) : aoExp t r.1 r.2 = (expT r t).liftX := by
  simp [expT, P3.liftX, aoExp]

theorem ao_eq (g : AOgroup) (t d : ℝ) (h : ∀ gs, g.coef0 = some gs → ∀ q ∈ gs, q.terms ≠ []) :
    ao g 2 t d = .ok (aoF g t d) := by
  obtain ⟨l, tl, c0, c1⟩ := g
  have hexp : ∀ s : J6, c1.foldl (fun acc tc => acc.acc 2 (aoExp t tc.1 tc.2)) s =
      s.add ((c1.map (fun r => (expT r t).liftX)).foldr J6.add ⟨0, 0, 0, 0, 0, 0⟩) := by
    intro s
    rw [foldl_acc (fun tc : ℝ × ℝ => aoExp t tc.1 tc.2)]
    simp only [aoExp_lift]
  unfold ao aoPoly
  cases c0 with
  | none =>
    simp only [hexp]
    congr 2
    cases l <;> cases tl <;>
      simp [aoLog, acc_two, J6.add, P3.liftX, P3.liftY, logT, tlogT, evalGs1]
  | some gs =>
    simp only [poly1_eq gs t (h gs rfl), hexp]
    simp only [aoF]
    congr 2
    cases l <;> cases tl <;>
      simp [aoLog, acc_two, J6.add, P3.liftX, P3.liftY, logT, tlogT]

theorem aoF_jet (g : AOgroup) (h1 : ∀ r ∈ g.coef1, r.1 ≠ 0) {t d : ℝ} (ht : 0 < t) (hd : 0 < d) :
    Jet2 (aoF g) t d := by
  refine ((((Jet2.liftY (log_jet hd.ne') t).add (Jet2.liftX (logT_jet _ ht.ne') d)).add
    (Jet2.liftX (tlogT_jet _ ht.ne') d)).add (Jet2.liftX (evalGs1_jet _ ht) d)).add ?_
  exact foldr_jet (fun r s _ => (expT r s).liftX) g.coef1
    (fun r hr => Jet2.liftX (expT_jet r (h1 r hr) ht.ne') d)

theorem aoF_value (g : AOgroup) (h : ∀ q ∈ g.coef0.getD [], Sorted1 q) (t d : ℝ) :
    (aoF g t d).p = aoVal g t d := by
  simp only [aoF, J6.add, P3.liftX, P3.liftY, logT, tlogT, aoVal, foldr_value]
  rw [evalGs1_value _ _ h]
  congr 1

/-- **C48.** For all coefficient data (polynomials in the documented order, exponents of the log/exp
terms positive) and all positive reduced temperatures and densities, the routine returns the
documented ideal-gas part and its partial derivatives. -/
theorem C48_ideal_part (g : AOgroup) (h : ∀ q ∈ g.coef0.getD [], Sorted1 q)
    (h1 : ∀ r ∈ g.coef1, 0 < r.1) (t d : ℝ) (ht : 0 < t) (hd : 0 < d) :
    ∃ j, ao g 2 t d = .ok j ∧ Is2 (aoVal g) t d j := by
  refine ⟨_, ao_eq g t d ?_, Jet2.is quadrant_open (fun a b hab => aoF_jet g (fun r hr => (h1 r hr).ne') hab.1 hab.2)
    (fun a b _ => aoF_value g h a b) (x := t) (y := d) ⟨ht, hd⟩⟩
  intro gs hgs q hq
  exact (h q (by simpa [hgs] using hq)).1

/-- **C48.** Asking for fewer derivatives returns the same numbers with the others 0. -/
theorem C48_order (n : Nat) (g : AOgroup) (t d : ℝ) :
    ao g n t d = (ao g 2 t d).map (J6.cut n) := by
  have hlog : aoLog g n t d = (aoLog g 2 t d).cut n := by
    unfold aoLog
    have h0 : (⟨Real.log d, 0, 0, 0, 0, 0⟩ : J6) = J6.cut n ⟨Real.log d, 0, 0, 0, 0, 0⟩ := by
      simp [J6.cut]
    cases g.logt <;> cases g.tlogt <;> simp only [] <;> rw [h0] <;> simp only [acc_cut] <;>
      simp only [J6.cut, ite_self]
  have hpoly : aoPoly g n t (aoLog g n t d) = (aoPoly g 2 t (aoLog g 2 t d)).map (J6.cut n) := by
    unfold aoPoly
    cases g.coef0 with
    | none => simp [hlog, Except.map]
    | some gs =>
      simp only
      rw [C46_order n t gs]
      cases poly1 t gs 2 with
      | error e => rfl
      | ok p =>
        simp only [Except.map, hlog]
        rw [← acc_cut']
        congr 2
        rcases n with _ | _ | n <;> simp [J6.cut, P3.cut]
  unfold ao
  rw [hpoly]
  cases aoPoly g 2 t (aoLog g 2 t d) with
  | error e => rfl
  | ok s =>
    simp only [Except.map]
    rw [foldl_acc_cut n (fun tc : ℝ × ℝ => aoExp t tc.1 tc.2)]

/-! ## Concrete case -/

example : let g : AOgroup := ⟨some 3, none, some [⟨1, 0, [(1, 5), (0, -2)]⟩], [(3, 1), (7 / 2, 2)]⟩
    (∀ q ∈ g.coef0.getD [], Sorted1 q) ∧ (∀ r ∈ g.coef1, 0 < r.1) := by
  refine ⟨?_, ?_⟩
  · intro q hq
    simp only [Option.getD, List.mem_singleton] at hq
    subst hq
    exact ⟨by simp, by simp⟩
  · intro r hr
    simp only [List.mem_cons, List.not_mem_nil, or_false] at hr
    rcases hr with rfl | rfl <;> norm_num

end PyroMat.Mp.Props
