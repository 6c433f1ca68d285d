import Verif.Mp.PropsAo

/-!
# C49: the residual part of the Helmholtz energy
-/

set_option linter.unusedSimpArgs false

namespace PyroMat.Mp.Props

open PyroMat PyroMat.Mp PyroMat.Mp.Spec Filter Topology

/-! ## Polynomials with exponentials -/

/-- `exp(-s^k)` and its derivatives as the code computes them. -/
noncomputable def expK (k : Nat) (s : ℝ) : P3 :=
  let ed := -(k : ℝ) * s ^ k / s
  ⟨Real.exp (-s ^ k), Real.exp (-s ^ k) * ed, Real.exp (-s ^ k) * (ed * (((k : ℝ) - 1) / s + ed))⟩

theorem pow_div_deriv (k : Nat) {s : ℝ} (hs : s ≠ 0) :
    HasDerivAt (fun u : ℝ => u ^ k) (k * s ^ k / s) s := by
  refine (hasDerivAt_pow k s).congr_deriv ?_
  cases k with
  | zero => simp
  | succ n => rw [Nat.add_sub_cancel, pow_succ]; field_simp

theorem expK_jet (k : Nat) {s : ℝ} (hs : s ≠ 0) : Jet1 (expK k) s := by
  have hN : Jet1 (fun u : ℝ => (⟨-u ^ k, -(k : ℝ) * u ^ k / u,
      -(k : ℝ) * u ^ k / u * ((k : ℝ) - 1) / u⟩ : P3)) s := by
    refine ⟨?_, ?_⟩
    · refine (pow_div_deriv k hs).neg.congr_deriv ?_
      ring
    · refine (((pow_div_deriv k hs).const_mul (-(k : ℝ))).div (hasDerivAt_id s) hs).congr_deriv ?_
      simp only [id]
      field_simp
      ring
  refine (Jet1.exp hN).congr (Eventually.of_forall fun u => ?_)
  simp only [expK]
  congr 2
  ring

theorem expTerm_eq (k : Nat) (d : ℝ) (p : J6) :
    expTerm k d (d ^ k) p = (expK k d).liftY.mul p := by
  simp only [expTerm, expK, P3.liftY, J6.mul]
  congr 1 <;> ring

/-- The loop over the polynomials, as a function. -/
noncomputable def expsF : List (List Group2) → Nat → ℝ → ℝ → J6
  | [], _, _, _ => ⟨0, 0, 0, 0, 0, 0⟩
  | gs :: rest, k, t, d => ((expK k d).liftY.mul (evalGs2 gs t d)).add (expsF rest (k + 1) t d)

theorem arExp_eq (t d : ℝ) (l : List (List Group2)) (h : ∀ gs ∈ l, ∀ q ∈ gs, q.terms ≠ [])
    (k : Nat) (s : J6) :
    arExp 2 t d l k (d ^ k) s = .ok (s.add (expsF l (k + 1) t d)) := by
  induction l generalizing k s with
  | nil => simp [arExp, expsF, J6.add]
  | cons gs l ih =>
    rw [arExp, poly2_eq gs t d (h gs (by simp))]
    simp only
    rw [← pow_succ, ih (fun g hg => h g (by simp [hg])), acc_two, expTerm_eq, expsF]
    simp [J6.add, add_assoc]

theorem expsF_jet (l : List (List Group2)) (hok : ∀ gs ∈ l, ∀ q ∈ gs, PreOk q) (k : Nat) {t d : ℝ}
    (ht : 0 < t) (hd : 0 < d) : Jet2 (expsF l k) t d := by
  induction l generalizing k with
  | nil => exact Jet2.const 0 t d
  | cons gs l ih =>
    exact ((Jet2.liftY (expK_jet k hd.ne') t).mul (evalGs2_jet gs (hok gs (by simp)) ht hd)).add
      (ih (fun g hg => hok g (by simp [hg])) (k + 1))

theorem expsF_value (l : List (List Group2)) (h : ∀ gs ∈ l, ∀ q ∈ gs, Sorted2 q) (k : Nat) (t d : ℝ) :
    (expsF l k t d).p = expsVal t d l k := by
  induction l generalizing k with
  | nil => rfl
  | cons gs l ih =>
    simp only [expsF, J6.add, J6.mul, P3.liftY, expK, expsVal]
    rw [ih (fun g hg => h g (by simp [hg])), evalGs2_value _ _ _ (h gs (by simp))]

/-! ## Gaussian terms -/

theorem lin_jet (a x : ℝ) : Jet1 (fun s => ⟨s - a, 1, 0⟩) x :=
  ⟨by simpa using (hasDerivAt_id x).sub_const a, hasDerivAt_const x 1⟩

/-- The exponent `-a (d - e)² - b (t - g)²`. -/
noncomputable def quadF (a e b g : ℝ) (t d : ℝ) : J6 :=
  ⟨-a * (d - e) ^ 2 - b * (t - g) ^ 2, -2 * b * (t - g), -2 * a * (d - e), -2 * b, 0, -2 * a⟩

theorem quadF_jet (a e b g t d : ℝ) : Jet2 (quadF a e b g) t d := by
  have hd : Jet1 (fun s : ℝ => (⟨-a * (s - e) ^ 2, -2 * a * (s - e), -2 * a⟩ : P3)) d := by
    refine ((Jet1.const (-a) d).mul ((lin_jet e d).mul (lin_jet e d))).congr
      (Eventually.of_forall fun s => ?_)
    congr 1 <;> ring
  have ht : Jet1 (fun s : ℝ => (⟨-b * (s - g) ^ 2, -2 * b * (s - g), -2 * b⟩ : P3)) t := by
    refine ((Jet1.const (-b) t).mul ((lin_jet g t).mul (lin_jet g t))).congr
      (Eventually.of_forall fun s => ?_)
    congr 1 <;> ring
  refine ((Jet2.liftY hd t).add (Jet2.liftX ht d)).congr' fun s u => ?_
  simp only [quadF, J6.add, P3.liftX, P3.liftY]
  congr 1 <;> ring

theorem exp_self_jet (x : ℝ) : Jet1 (fun s => ⟨Real.exp s, Real.exp s, Real.exp s⟩) x :=
  ⟨Real.hasDerivAt_exp x, Real.hasDerivAt_exp x⟩

/-- The exponential of the quadratic. -/
noncomputable def quadE (a e b g : ℝ) (t d : ℝ) : J6 :=
  let q := quadF a e b g t d
  P3.of ⟨Real.exp q.p, Real.exp q.p, Real.exp q.p⟩ q

theorem quadE_jet (a e b g t d : ℝ) : Jet2 (quadE a e b g) t d :=
  Jet2.outer (exp_self_jet _) (quadF_jet a e b g t d)

/-- A real power with its derivatives. -/
noncomputable def powP (a s : ℝ) : P3 := ⟨s ^ a, a * s ^ a / s, a * s ^ a / s * (a - 1) / s⟩

theorem gaussTerm_eq (r : Row1) (t d : ℝ) :
    gaussTerm r t d = ((J6.mul ⟨r.c, 0, 0, 0, 0, 0⟩ ((powP r.d d).liftY.mul (powP r.t t).liftX)).mul
      (quadE r.a r.ep r.b r.gam t d)) := by
  simp only [gaussTerm, quadE, quadF, P3.of, J6.mul, powP, P3.liftX, P3.liftY]
  congr 1 <;> ring

theorem gaussTerm_jet (r : Row1) {t d : ℝ} (ht : t ≠ 0) (hd : d ≠ 0) : Jet2 (gaussTerm r) t d := by
  refine (((Jet2.const r.c t d).mul ((Jet2.liftY (Jet1.rpow r.d hd) t).mul
    (Jet2.liftX (Jet1.rpow r.t ht) d))).mul (quadE_jet r.a r.ep r.b r.gam t d)).congr' fun s u => ?_
  exact gaussTerm_eq r s u

theorem gaussTerm_value (r : Row1) (t d : ℝ) : (gaussTerm r t d).p = gaussVal r t d := by
  simp only [gaussTerm, gaussVal]
  ring

/-! ## Non-analytic terms -/

theorem sq_rpow (x a : ℝ) : (x * x) ^ (1 / 2 * a) = |x| ^ a := by
  rw [← abs_mul_abs_self, ← pow_two, ← Real.rpow_natCast, ← Real.rpow_mul (abs_nonneg x)]
  congr 1
  push_cast
  ring

theorem sq_rpow' (x a : ℝ) : (x * x) ^ a = |x| ^ (2 * a) := by
  rw [← sq_rpow]
  congr 1
  ring

theorem naDelta_value (r : Row2) (s : Bool) (t d : ℝ) : (naDelta r s t d).p = deltaVal r t d := by
  cases s <;> simp only [naDelta, naInner, naOuter, deltaVal, if_true, Bool.false_eq_true,
    if_false] <;> rw [sq_rpow, sq_rpow'] <;> ring

theorem naTerm_value (r : Row2) (s1 s2 : Bool) (t d : ℝ) : (naTerm r s1 s2 t d).p = naVal r t d := by
  have h : (naPow r s2 (naDelta r s1 t d)).p = deltaVal r t d ^ r.b := by
    cases s2 <;> simp [naPow, naDelta_value]
  simp only [naTerm, naVal, h]

/-- A power of the squared distance from the critical density. -/
theorem abs_jet (mu c : ℝ) {d : ℝ} (hd : d ≠ 1) :
    Jet1 (fun s => ⟨c * ((s - 1) * (s - 1)) ^ mu, 2 * mu * (c * ((s - 1) * (s - 1)) ^ mu) / (s - 1),
      2 * mu * (c * ((s - 1) * (s - 1)) ^ mu) / (s - 1) * (2 * mu - 1) / (s - 1)⟩) d := by
  have h0 : d - 1 ≠ 0 := sub_ne_zero.mpr hd
  have hX : Jet1 (fun s : ℝ => (⟨(s - 1) * (s - 1), 2 * (s - 1), 2⟩ : P3)) d := by
    refine ((lin_jet 1 d).mul (lin_jet 1 d)).congr (Eventually.of_forall fun s => ?_)
    congr 1 <;> ring
  refine ((Jet1.const c d).mul (Jet1.comp (F := fun s => ⟨s ^ mu, mu * s ^ mu / s,
    mu * s ^ mu / s * (mu - 1) / s⟩) (Jet1.rpow mu (mul_ne_zero h0 h0)) hX)).congr ?_
  filter_upwards [isOpen_ne.mem_nhds hd] with s hs
  have hs' : s - 1 ≠ 0 := sub_ne_zero.mpr hs
  generalize ((s - 1) * (s - 1)) ^ mu = P
  generalize s - 1 = x at hs'
  congr 1
  all_goals first | ring1 | (field_simp; done) | (field_simp; ring1)

theorem naInner_jet (r : Row2) {d : ℝ} (hd : d ≠ 1) : Jet1 (naInner r false) d := by
  refine (abs_jet (1 / 2 * (1 / r.m)) r.A hd).congr (Eventually.of_forall fun s => ?_)
  simp only [naInner, Bool.false_eq_true, if_false]
  congr 1 <;> ring

theorem naOuter_jet (r : Row2) {d : ℝ} (hd : d ≠ 1) : Jet1 (naOuter r false) d := by
  refine (abs_jet r.a r.B hd).congr (Eventually.of_forall fun s => ?_)
  simp only [naOuter, Bool.false_eq_true, if_false]
  congr 1
  ring

theorem naDelta_jet (r : Row2) (t : ℝ) {d : ℝ} (hd : d ≠ 1) : Jet2 (naDelta r false) t d := by
  have ht : Jet1 (fun s : ℝ => (⟨-(s - 1), -1, 0⟩ : P3)) t :=
    ⟨((hasDerivAt_id t).sub_const 1).neg, hasDerivAt_const t _⟩
  have h1 := (Jet2.liftY (naInner_jet r hd) t).add (Jet2.liftX ht d)
  refine ((h1.mul h1).add (Jet2.liftY (naOuter_jet r hd) t)).congr' fun s u => ?_
  simp only [naDelta, J6.add, J6.mul, P3.liftX, P3.liftY]
  congr 1 <;> ring

/-- The distance raised to the power `b`, with the right mixed derivative. -/
noncomputable def powF (r : Row2) (t d : ℝ) : J6 :=
  (powP r.b (naDelta r false t d).p).of (naDelta r false t d)

/-- The non-analytic term with the right mixed derivative. -/
noncomputable def naF (r : Row2) (t d : ℝ) : J6 :=
  ((J6.mul ⟨r.c, 0, 0, 0, 0, 0⟩ (P3.liftY ⟨d, 1, 0⟩)).mul (powF r t d)).mul (quadE r.C 1 r.D 1 t d)

theorem delta_pos (r : Row2) (hB : 0 < r.B) (t : ℝ) {d : ℝ} (hd : d ≠ 1) : 0 < deltaVal r t d := by
  have h0 : 0 < |d - 1| := abs_pos.mpr (sub_ne_zero.mpr hd)
  have := Real.rpow_pos_of_pos h0 (2 * r.a)
  have := mul_pos hB this
  unfold deltaVal
  have := sq_nonneg ((1 - t) + r.A * |d - 1| ^ (1 / r.m))
  linarith

theorem naF_jet (r : Row2) (hB : 0 < r.B) (t : ℝ) {d : ℝ} (hd : d ≠ 1) : Jet2 (naF r) t d := by
  have h0 : (naDelta r false t d).p ≠ 0 := by
    rw [naDelta_value]; exact (delta_pos r hB t hd).ne'
  refine (((Jet2.const r.c t d).mul (Jet2.liftY (Jet1.id d) t)).mul
    (Jet2.outer (f := powP r.b) (Jet1.rpow r.b h0) (naDelta_jet r t hd))).mul
    (quadE_jet r.C 1 r.D 1 t d)

/-- All but the mixed derivative agree. -/
theorem naTerm_eq (r : Row2) (t d : ℝ) (h0 : deltaVal r t d ≠ 0) :
    ∃ w, naF r t d = { naTerm r false false t d with pxy := w } := by
  have h0' : (naDelta r false t d).p ≠ 0 := by rwa [naDelta_value]
  refine ⟨(naF r t d).pxy, ?_⟩
  simp only [naF, naTerm, powF, naPow, powP, P3.of, P3.liftY, J6.mul, quadE, quadF,
    Bool.false_eq_true, if_false]
  generalize naDelta r false t d = q at h0'
  generalize q.p ^ r.b = P
  congr 1
  all_goals first | ring1 | (field_simp; done) | (field_simp; ring1)

/-- Equal but for the mixed derivative. -/
def Same5 (a b : J6) : Prop :=
  a.p = b.p ∧ a.px = b.px ∧ a.py = b.py ∧ a.pxx = b.pxx ∧ a.pyy = b.pyy

theorem Same5.fix {a b : J6} (h : Same5 a b) : { a with pxy := b.pxy } = b := by
  obtain ⟨h1, h2, h3, h4, h5⟩ := h
  cases a; cases b; simp_all

theorem Same5.refl (a : J6) : Same5 a a := ⟨rfl, rfl, rfl, rfl, rfl⟩

theorem Same5.trans {a b c : J6} (h : Same5 a b) (h' : Same5 b c) : Same5 a c :=
  ⟨h.1.trans h'.1, h.2.1.trans h'.2.1, h.2.2.1.trans h'.2.2.1, h.2.2.2.1.trans h'.2.2.2.1,
    h.2.2.2.2.trans h'.2.2.2.2⟩

theorem rpow_half_sub (x a : ℝ) (hx : 0 < x) : (x * x) ^ (a - 1 / 2) = (x * x) ^ a / x := by
  have h : (x * x) ^ (1 / 2 : ℝ) = x := by
    have := sq_rpow x 1
    rwa [mul_one, Real.rpow_one, abs_of_pos hx] at this
  rw [Real.rpow_sub (mul_pos hx hx), h]

theorem naInner_above (r : Row2) {d : ℝ} (hd : 1 < d) (s : Bool) :
    naInner r s d = naInner r false d := by
  have h0 : 0 < d - 1 := sub_pos.mpr hd
  cases s
  · rfl
  simp only [naInner, if_true, Bool.false_eq_true, if_false]
  rw [rpow_half_sub _ _ h0, Real.rpow_sub (mul_pos h0 h0), Real.rpow_one]
  congr 1 <;> field_simp

theorem naOuter_above (r : Row2) {d : ℝ} (hd : 1 < d) (s : Bool) :
    naOuter r s d = naOuter r false d := by
  have h0 : 0 < d - 1 := sub_pos.mpr hd
  cases s
  · rfl
  simp only [naOuter, if_true, Bool.false_eq_true, if_false]
  rw [rpow_half_sub _ _ h0, Real.rpow_sub (mul_pos h0 h0), Real.rpow_one]
  congr 1 <;> field_simp

theorem naDelta_above (r : Row2) (t : ℝ) {d : ℝ} (hd : 1 < d) (s : Bool) :
    naDelta r s t d = naDelta r false t d := by
  simp only [naDelta, naInner_above r hd s, naOuter_above r hd s]

theorem naPow_same (r : Row2) (s : Bool) (p : J6) (hp : 0 < p.p) :
    Same5 (naPow r s p) (naPow r false p) := by
  have h2 : p.p ^ (2 : ℝ) = p.p * p.p := by
    rw [show (2 : ℝ) = ((2 : ℕ) : ℝ) by norm_num, Real.rpow_natCast, pow_two]
  cases s
  · exact Same5.refl _
  have h0 := hp.ne'
  refine ⟨?_, ?_, ?_, ?_, ?_⟩ <;>
    simp only [naPow, if_true, Bool.false_eq_true, if_false, Real.rpow_sub hp, Real.rpow_one, h2]
  all_goals generalize p.p ^ r.b = P
  all_goals first | (field_simp; done) | (field_simp; ring1)

/-- Away from the singularity the choice of formulas matters for the mixed derivative only. -/
theorem naTerm_same (r : Row2) (t d : ℝ) (h0 : 0 < deltaVal r t d) (s1 s2 : Bool)
    (hs : s1 = false ∨ 1 < d) : Same5 (naTerm r s1 s2 t d) (naF r t d) := by
  have h1 : naDelta r s1 t d = naDelta r false t d := by
    rcases hs with rfl | hd
    · rfl
    · exact naDelta_above r t hd s1
  have hp : 0 < (naDelta r false t d).p := by rwa [naDelta_value]
  have h2 : Same5 (naTerm r s1 s2 t d) (naTerm r false false t d) := by
    obtain ⟨e1, e2, e3, e4, e5⟩ := naPow_same r s2 (naDelta r false t d) hp
    refine ⟨?_, ?_, ?_, ?_, ?_⟩ <;> simp only [naTerm, h1, e1, e2, e3, e4, e5]
  obtain ⟨w, hw⟩ := naTerm_eq r t d h0.ne'
  rw [hw]
  exact h2

theorem Same5.add {a b c d : J6} (h : Same5 a b) (h' : Same5 c d) : Same5 (a.add c) (b.add d) := by
  obtain ⟨h1, h2, h3, h4, h5⟩ := h
  obtain ⟨k1, k2, k3, k4, k5⟩ := h'
  exact ⟨by simp [J6.add, h1, k1], by simp [J6.add, h2, k2], by simp [J6.add, h3, k3],
    by simp [J6.add, h4, k4], by simp [J6.add, h5, k5]⟩

theorem foldr_same {α : Type} (f g : α → J6) (l : List α) (h : ∀ r ∈ l, Same5 (f r) (g r)) :
    Same5 ((l.map f).foldr J6.add ⟨0, 0, 0, 0, 0, 0⟩) ((l.map g).foldr J6.add ⟨0, 0, 0, 0, 0, 0⟩) := by
  induction l with
  | nil => exact Same5.refl _
  | cons a l ih => exact (h a (by simp)).add (ih fun r hr => h r (by simp [hr]))

/-! ## The residual part -/

/-- Without the non-analytic terms. -/
noncomputable def arF1 (g : ARgroup) (t d : ℝ) : J6 :=
  ((evalGs2 (g.coef0.headD []) t d).add (expsF g.coef0.tail 1 t d)).add
    ((g.coef1.map (fun r => gaussTerm r t d)).foldr J6.add ⟨0, 0, 0, 0, 0, 0⟩)

/-- With right derivatives everywhere. -/
noncomputable def arF (g : ARgroup) (t d : ℝ) : J6 :=
  (arF1 g t d).add ((g.coef2.map (fun r => naF r t d)).foldr J6.add ⟨0, 0, 0, 0, 0, 0⟩)

/-- The coefficient data have the documented form: at least one polynomial, each polynomial listed in
descending order of exponents and within the limits of C47. -/
structure ArData (g : ARgroup) : Prop where
  some : g.coef0 ≠ []
  sorted : ∀ gs ∈ g.coef0, ∀ q ∈ gs, Sorted2 q
  pre : ∀ gs ∈ g.coef0, ∀ q ∈ gs, PreOk q

theorem arAt_eq (g : ARgroup) (hne : g.coef0 ≠ []) (h : ∀ gs ∈ g.coef0, ∀ q ∈ gs, Sorted2 q)
    (pts : List (ℝ × ℝ)) (t d : ℝ) :
    arAt g 2 pts t d = .ok ((arF1 g t d).add
      ((g.coef2.map (fun r => naTerm r (anySmall pts) (anyTiny r pts) t d)).foldr J6.add
        ⟨0, 0, 0, 0, 0, 0⟩)) := by
  obtain ⟨c0, c1, c2⟩ := g
  cases c0 with
  | nil => exact absurd rfl hne
  | cons first rest =>
    have h1 : arExp 2 t d rest 0 1 (evalGs2 first t d) =
        .ok ((evalGs2 first t d).add (expsF rest 1 t d)) := by
      have := arExp_eq t d rest (fun gs hgs q hq => (h gs (by simp [hgs]) q hq).1) 0
        (evalGs2 first t d)
      simpa using this
    unfold arAt
    simp only [poly2_eq first t d (fun q hq => (h first (by simp) q hq).1), h1]
    rw [foldl_acc (fun r => naTerm r (anySmall pts) (anyTiny r pts) t d),
      foldl_acc (fun r => gaussTerm r t d)]
    rfl

theorem arF1_jet (g : ARgroup) (h : ArData g) {t d : ℝ} (ht : 0 < t) (hd : 0 < d) :
    Jet2 (arF1 g) t d := by
  obtain ⟨c0, c1, c2⟩ := g
  cases c0 with
  | nil => exact absurd rfl h.some
  | cons first rest =>
    refine ((evalGs2_jet first (h.pre first (by simp)) ht hd).add
      (expsF_jet rest (fun gs hgs => h.pre gs (by simp [hgs])) 1 ht hd)).add ?_
    exact foldr_jet gaussTerm c1 (fun r _ => gaussTerm_jet r ht.ne' hd.ne')

theorem arF_jet (g : ARgroup) (h : ArData g) (hB : ∀ r ∈ g.coef2, 0 < r.B) {t d : ℝ} (ht : 0 < t)
    (hd : 0 < d) (h1 : g.coef2 ≠ [] → d ≠ 1) : Jet2 (arF g) t d := by
  refine (arF1_jet g h ht hd).add (foldr_jet naF g.coef2 fun r hr => ?_)
  exact naF_jet r (hB r hr) t (h1 (List.ne_nil_of_mem hr))

theorem arF1_value (g : ARgroup) (hne : g.coef0 ≠ []) (h : ∀ gs ∈ g.coef0, ∀ q ∈ gs, Sorted2 q)
    (t d : ℝ) : (arF1 g t d).p = poly2At (g.coef0.headD []) t d + expsVal t d g.coef0.tail 1 +
      (g.coef1.map (fun r => gaussVal r t d)).sum := by
  obtain ⟨c0, c1, c2⟩ := g
  cases c0 with
  | nil => exact absurd rfl hne
  | cons first rest =>
    simp only [arF1, J6.add, foldr_value, List.headD_cons, List.tail_cons]
    rw [evalGs2_value _ _ _ (h first (by simp)),
      expsF_value _ (fun gs hgs => h gs (by simp [hgs]))]
    simp only [gaussTerm_value]

theorem naF_value (r : Row2) (t d : ℝ) : (naF r t d).p = naVal r t d := by
  simp only [naF, J6.mul, powF, P3.of, powP, naDelta_value, quadE, quadF, P3.liftY, naVal]

theorem arF_value (g : ARgroup) (h : ArData g) (t d : ℝ) : (arF g t d).p = arVal g t d := by
  simp only [arF, J6.add, foldr_value, arF1_value g h.some h.sorted, naF_value, arVal]

/-- The region where the routine is examined: positive arguments, off the critical density if there
are non-analytic terms. -/
theorem region_open (g : ARgroup) :
    IsOpen {z : ℝ × ℝ | (0 < z.1 ∧ 0 < z.2) ∧ (g.coef2 ≠ [] → z.2 ≠ 1)} := by
  refine quadrant_open.inter ?_
  by_cases h : g.coef2 = []
  · have e : {z : ℝ × ℝ | g.coef2 ≠ [] → z.2 ≠ 1} = Set.univ := by
      ext z
      exact ⟨fun _ => trivial, fun _ hn => absurd h hn⟩
    show IsOpen {z : ℝ × ℝ | g.coef2 ≠ [] → z.2 ≠ 1}
    rw [e]
    exact isOpen_univ
  · have ho : IsOpen {z : ℝ × ℝ | z.2 ≠ 1} := isOpen_ne.preimage continuous_snd
    have e : {z : ℝ × ℝ | g.coef2 ≠ [] → z.2 ≠ 1} = {z : ℝ × ℝ | z.2 ≠ 1} := by
      ext z
      exact ⟨fun hz => hz h, fun hz _ => hz⟩
    show IsOpen {z : ℝ × ℝ | g.coef2 ≠ [] → z.2 ≠ 1}
    rw [e]
    exact ho

theorem arF_is (g : ARgroup) (h : ArData g) (hB : ∀ r ∈ g.coef2, 0 < r.B) {t d : ℝ} (ht : 0 < t)
    (hd : 0 < d) (h1 : g.coef2 ≠ [] → d ≠ 1) : Is2 (arVal g) t d (arF g t d) :=
  Jet2.is (region_open g) (fun _ _ hab => arF_jet g h hB hab.1.1 hab.1.2 hab.2)
    (fun a b _ => arF_value g h a b) (x := t) (y := d) ⟨⟨ht, hd⟩, h1⟩

theorem mapM_forall2 {α β : Type} (f : α → Except Err β) (R : α → β → Prop) (l : List α)
    (h : ∀ a ∈ l, ∃ b, f a = .ok b ∧ R a b) : ∃ bs, l.mapM f = .ok bs ∧ List.Forall₂ R l bs := by
  induction l with
  | nil => exact ⟨[], rfl, .nil⟩
  | cons a l ih =>
    obtain ⟨b, hb, hR⟩ := h a (by simp)
    obtain ⟨bs, hbs, hRs⟩ := ih (fun a' ha' => h a' (by simp [ha']))
    exact ⟨b :: bs, by rw [List.mapM_cons, hb, hbs]; rfl, .cons hR hRs⟩

/-- **C49.** For all data without non-analytic terms (polynomials in the documented order and within
the limits of C47) and every array of positive reduced temperatures and densities, the routine
returns, for every element, the documented residual part and its partial derivatives. -/
theorem C49_residual_analytic (g : ARgroup) (h : ArData g) (h2 : g.coef2 = []) (pts : List (ℝ × ℝ))
    (hp : ∀ z ∈ pts, 0 < z.1 ∧ 0 < z.2) :
    ∃ js, ar g 2 pts = .ok js ∧ List.Forall₂ (fun z j => Is2 (arVal g) z.1 z.2 j) pts js := by
  refine mapM_forall2 _ _ pts fun z hz => ⟨_, arAt_eq g h.some h.sorted pts z.1 z.2, ?_⟩
  have hi := arF_is g h (by simp [h2]) (hp z hz).1 (hp z hz).2 (by simp [h2])
  have e : (arF1 g z.1 z.2).add
      ((g.coef2.map (fun r => naTerm r (anySmall pts) (anyTiny r pts) z.1 z.2)).foldr J6.add
        ⟨0, 0, 0, 0, 0, 0⟩) = arF g z.1 z.2 := by
    simp [arF, h2]
  rw [e]
  exact hi

/-- **C49, partial.** With non-analytic terms: the value and all derivatives except the mixed one are
right for every element that lies above the critical density, and for every element off the critical
density of an array none of whose elements is within 1e-6 of the critical density.  Missing: the
mixed derivative (`C49_mixed_defect`) and elements below the critical density in an array with an
element close to it (`C49_array_defect`). -/
theorem C49_residual_partial (g : ARgroup) (h : ArData g) (hB : ∀ r ∈ g.coef2, 0 < r.B)
    (pts : List (ℝ × ℝ)) (hp : ∀ z ∈ pts, 0 < z.1 ∧ 0 < z.2) :
    ∃ js, ar g 2 pts = .ok js ∧
      List.Forall₂ (fun z j => (1 < z.2 ∨ ∀ z' ∈ pts, 1 / 1000000 ≤ |z'.2 - 1|) →
        ∃ w, Is2 (arVal g) z.1 z.2 { j with pxy := w }) pts js := by
  refine mapM_forall2 _ _ pts fun z hz => ⟨_, arAt_eq g h.some h.sorted pts z.1 z.2, fun hs => ?_⟩
  have hsmall : anySmall pts = false ∨ 1 < z.2 := by
    rcases hs with hs | hs
    · exact Or.inr hs
    · left
      simp only [anySmall, List.any_eq_false, decide_eq_true_eq, not_lt]
      exact hs
  have h1 : z.2 ≠ 1 := by
    intro e
    rcases hs with hs | hs
    · linarith
    · have := hs z hz
      rw [e] at this
      norm_num at this
  have hi := arF_is g h hB (hp z hz).1 (hp z hz).2 (fun _ => h1)
  refine ⟨(arF g z.1 z.2).pxy, ?_⟩
  rw [Same5.fix]
  · exact hi
  · refine (Same5.refl _).add (foldr_same _ _ _ fun r hr => ?_)
    exact naTerm_same r z.1 z.2 (delta_pos r (hB r hr) z.1 h1) _ _ hsmall

/-- **C49.** The value is right for every array, close to the critical density or not. -/
theorem C49_value (g : ARgroup) (hne : g.coef0 ≠ []) (h : ∀ gs ∈ g.coef0, ∀ q ∈ gs, Sorted2 q)
    (pts : List (ℝ × ℝ)) :
    ∃ js, ar g 2 pts = .ok js ∧ List.Forall₂ (fun z j => j.p = arVal g z.1 z.2) pts js := by
  refine mapM_forall2 _ _ pts fun z _ => ⟨_, arAt_eq g hne h pts z.1 z.2, ?_⟩
  simp only [J6.add, foldr_value, arF1_value g hne h, naTerm_value, arVal]

theorem arExp_cut (n : Nat) (t d : ℝ) (l : List (List Group2)) (k : Nat) (x : ℝ) (s : J6) :
    arExp n t d l k x (s.cut n) = (arExp 2 t d l k x s).map (J6.cut n) := by
  induction l generalizing k x s with
  | nil => rfl
  | cons gs l ih =>
    rw [arExp, arExp, C47_order n t d gs]
    cases poly2 t d gs 2 with
    | error e => rfl
    | ok p =>
      simp only [Except.map]
      have e : (s.cut n).acc n (expTerm (k + 1) d (x * d) (p.cut n)) =
          (s.acc 2 (expTerm (k + 1) d (x * d) p)).cut n := by
        rw [← acc_cut']
        rcases n with _ | _ | n <;> simp [J6.cut, J6.acc, expTerm]
      rw [e, ih]
      rfl

/-- **C49.** Asking for fewer derivatives returns the same numbers with the others 0. -/
theorem C49_order (n : Nat) (g : ARgroup) (pts : List (ℝ × ℝ)) (t d : ℝ) :
    arAt g n pts t d = (arAt g 2 pts t d).map (J6.cut n) := by
  unfold arAt
  cases g.coef0 with
  | nil => rfl
  | cons first rest =>
    simp only
    rw [C47_order n t d first]
    cases poly2 t d first 2 with
    | error e => rfl
    | ok s =>
      simp only [Except.map]
      rw [arExp_cut]
      cases arExp 2 t d rest 0 1 s with
      | error e => rfl
      | ok s' =>
        simp only [Except.map]
        rw [foldl_acc_cut n (fun r => gaussTerm r t d),
          foldl_acc_cut n (fun r => naTerm r (anySmall pts) (anyTiny r pts) t d)]

/-- **C49, partial.** An element of an array result is what the element alone would give, if the data
have no non-analytic terms or no element of the array is within 1e-6 of the critical density or of a
zero of a distance function.  Missing: the other arrays, see `C49_array_defect`. -/
theorem C49_elementwise_partial (g : ARgroup) (n : Nat) (pts : List (ℝ × ℝ))
    (hs : g.coef2 ≠ [] → ∀ z ∈ pts, 1 / 1000000 ≤ |z.2 - 1|)
    (hd : ∀ z ∈ pts, ∀ r ∈ g.coef2, 1 / 1000000 ≤ deltaVal r z.1 z.2) :
    ∀ z ∈ pts, arAt g n pts z.1 z.2 = arAt g n [z] z.1 z.2 := by
  intro z hz
  have e : ∀ r ∈ g.coef2, anySmall pts = anySmall [z] ∧ anyTiny r pts = anyTiny r [z] := by
    intro r hr
    have hs' := hs (List.ne_nil_of_mem hr)
    have hsub : ∀ z' ∈ [z], z' ∈ pts := by simp [hz]
    have a : ∀ l : List (ℝ × ℝ), (∀ z' ∈ l, z' ∈ pts) → anySmall l = false := by
      intro l hl
      simp only [anySmall, List.any_eq_false, decide_eq_true_eq, not_lt]
      exact fun z' hz' => hs' z' (hl z' hz')
    have b : ∀ l : List (ℝ × ℝ), (∀ z' ∈ l, z' ∈ pts) → anyTiny r l = false := by
      intro l hl
      simp only [anyTiny, List.any_eq_false, decide_eq_true_eq, not_lt]
      intro z' hz'
      rw [naDelta_value]
      exact le_trans (hd z' (hl z' hz') r hr) (le_abs_self _)
    exact ⟨by rw [a pts (fun _ h => h), a [z] hsub], by rw [b pts (fun _ h => h), b [z] hsub]⟩
  have hf : ∀ (l : List Row2) (s : J6), (∀ r ∈ l, r ∈ g.coef2) →
      l.foldl (fun acc r => acc.acc n (naTerm r (anySmall pts) (anyTiny r pts) z.1 z.2)) s =
      l.foldl (fun acc r => acc.acc n (naTerm r (anySmall [z]) (anyTiny r [z]) z.1 z.2)) s := by
    intro l
    induction l with
    | nil => intros; rfl
    | cons r l ih =>
      intro s hl
      rw [List.foldl_cons, List.foldl_cons]
      have hr : naTerm r (anySmall pts) (anyTiny r pts) z.1 z.2 =
          naTerm r (anySmall [z]) (anyTiny r [z]) z.1 z.2 := by
        rw [(e r (hl r (by simp))).1, (e r (hl r (by simp))).2]
      rw [hr]
      exact ih _ (fun r' hr' => hl r' (by simp [hr']))
  unfold arAt
  cases g.coef0 with
  | nil => rfl
  | cons first rest =>
    simp only
    cases poly2 z.1 z.2 first n with
    | error e => rfl
    | ok s =>
      simp only
      cases arExp n z.1 z.2 rest 0 1 s with
      | error e => rfl
      | ok s' =>
        simp only
        rw [hf g.coef2 _ (fun _ h => h)]

/-! ## Disagreements -/

/-- A non-analytic term that is simple enough to evaluate by hand: `dd ((tt-1)² + (dd-1)²)`. -/
noncomputable def demoRow : Row2 := ⟨1, 1, 1, 0, 1, 0, 0, 1⟩

/-- The data: a zero polynomial and that term. -/
noncomputable def demoAr : ARgroup := ⟨[[⟨1, 1, 0, 0, [(0, 0, 0)]⟩]], [], [demoRow]⟩

theorem demoAr_data : ArData demoAr := by
  refine ⟨by simp [demoAr], ?_, ?_⟩
  · intro gs hgs q hq
    simp only [demoAr, List.mem_singleton] at hgs
    subst hgs
    simp only [List.mem_singleton] at hq
    subst hq
    exact ⟨by simp, by simp⟩
  · intro gs hgs q hq
    simp only [demoAr, List.mem_singleton] at hgs
    subst hgs
    simp only [List.mem_singleton] at hq
    subst hq
    exact fun _ => rfl

theorem demo_val (t d : ℝ) : arVal demoAr t d = d * ((t - 1) ^ 2 + (d - 1) ^ 2) := by
  have h : |d - 1| ^ (2 * (1 : ℝ)) = (d - 1) ^ 2 := by
    rw [← sq_rpow', Real.rpow_one]; ring
  simp only [arVal, demoAr, demoRow, naVal, deltaVal, List.headD_cons, List.tail_cons, expsVal,
    List.map_nil, List.sum_nil, List.map_cons, List.sum_cons, poly2At, Real.rpow_one, h]
  simp
  left
  ring

theorem demo_delta (s : Bool) (t d : ℝ) : (naDelta demoRow s t d).p = (t - 1) ^ 2 + (d - 1) ^ 2 := by
  rw [naDelta_value]
  have h : |d - 1| ^ (2 * (1 : ℝ)) = (d - 1) ^ 2 := by
    rw [← sq_rpow', Real.rpow_one]; ring
  simp only [deltaVal, demoRow, h]
  ring

theorem demo_first (pts : List (ℝ × ℝ)) (t d : ℝ) :
    arAt demoAr 2 pts t d = .ok (naTerm demoRow (anySmall pts) (anyTiny demoRow pts) t d) := by
  rw [arAt_eq demoAr demoAr_data.some demoAr_data.sorted]
  congr 1
  simp [arF1, demoAr, evalGs2, evalG2, expsF, J6.add, postY, postX, preFix2, preExp, outer, inner,
    fold2, fold1]

theorem demo_deriv_t (t d : ℝ) : HasDerivAt (fun u => arVal demoAr u d) (d * (2 * (t - 1))) t := by
  have e : (fun u => arVal demoAr u d) = fun u => d * ((u - 1) ^ 2 + (d - 1) ^ 2) :=
    funext fun u => demo_val u d
  rw [e]
  have := ((((hasDerivAt_id t).sub_const 1).pow 2).add_const ((d - 1) ^ 2)).const_mul d
  refine this.congr_deriv ?_
  simp [id]

theorem demo_deriv_d (t d : ℝ) : HasDerivAt (fun u => arVal demoAr t u)
    ((t - 1) ^ 2 + (d - 1) ^ 2 + d * (2 * (d - 1))) d := by
  have e : (fun u => arVal demoAr t u) = fun u => u * ((t - 1) ^ 2 + (u - 1) ^ 2) :=
    funext fun u => demo_val t u
  rw [e]
  have := (hasDerivAt_id d).mul ((((hasDerivAt_id d).sub_const 1).pow 2).const_add ((t - 1) ^ 2))
  refine this.congr_deriv ?_
  simp [id]

/-- **C49 disagreement.** The mixed derivative of a non-analytic term is wrong away from the critical
point as well: it uses the second temperature derivative of the distance where the mixed one is meant
(`mp1.py:1789`).  Carbon dioxide and water have such terms.  For `dd ((tt-1)² + (dd-1)²)` at (2, 2)
the routine returns 6 instead of 2. -/
theorem C49_mixed_defect :
    ∃ g, ArData g ∧ (∀ r ∈ g.coef2, 0 < r.B) ∧ ∃ j, ar g 2 [(2, 2)] = .ok [j] ∧
      HasDerivAt (fun s => deriv (fun u => arVal g u s) 2) 2 2 ∧ j.pxy = 6 := by
  refine ⟨demoAr, demoAr_data, by simp [demoAr, demoRow], ?_⟩
  have hs : anySmall [(2, 2)] = false := by
    simp only [anySmall, List.any_eq_false, decide_eq_true_eq, not_lt, List.mem_singleton]
    rintro z rfl
    norm_num
  have ht : anyTiny demoRow [(2, 2)] = false := by
    simp only [anyTiny, List.any_eq_false, decide_eq_true_eq, not_lt, List.mem_singleton]
    rintro z rfl
    rw [demo_delta]
    norm_num
  refine ⟨naTerm demoRow false false 2 2, ?_, ?_, ?_⟩
  · simp only [ar, List.mapM_cons, List.mapM_nil, demo_first, hs, ht]
    rfl
  · have e : (fun s => deriv (fun u => arVal demoAr u s) 2) = fun s => s * (2 * (2 - 1)) :=
      funext fun s => (demo_deriv_t 2 s).deriv
    rw [e]
    refine ((hasDerivAt_id (2 : ℝ)).mul_const (2 * (2 - 1))).congr_deriv ?_
    norm_num
  · have hd : naDelta demoRow false 2 2 = ⟨2, 2, 2, 2, 0, 2⟩ := by
      simp only [naDelta, naInner, naOuter, demoRow]
      norm_num
    simp only [naTerm, hd, naPow]
    simp only [demoRow]
    norm_num

/-- **C49 disagreement.** An element of an array result depends on the other elements, and is wrong:
if any element is within 1e-6 of the critical density, the derivatives of all elements are computed by
formulas that lose the sign of `dd - 1` (`mp1.py:1687-1701`, `1737-1746`).  For `dd ((tt-1)² + (dd-1)²)`
at (2, 1/2) the density derivative is 3/4, and the routine returns it when asked alone; together with
the state (2, 1) it returns 7/4. -/
theorem C49_array_defect :
    ∃ g, ArData g ∧ (∀ r ∈ g.coef2, 0 < r.B) ∧
      HasDerivAt (fun s => arVal g 2 s) (3 / 4) (1 / 2) ∧
      (∃ j, ar g 2 [(2, 1 / 2)] = .ok [j] ∧ j.py = 3 / 4) ∧
      ∃ j j', ar g 2 [(2, 1 / 2), (2, 1)] = .ok [j, j'] ∧ j.py = 7 / 4 := by
  refine ⟨demoAr, demoAr_data, by simp [demoAr, demoRow], ?_, ?_, ?_⟩
  · refine (demo_deriv_d 2 (1 / 2)).congr_deriv ?_
    norm_num
  · have hs : anySmall [(2, 1 / 2)] = false := by
      simp only [anySmall, List.any_eq_false, decide_eq_true_eq, not_lt, List.mem_singleton]
      rintro z rfl
      rw [show ((2 : ℝ), (1 / 2 : ℝ)).2 - 1 = -(1 / 2) by norm_num, abs_neg, abs_of_pos] <;> norm_num
    have ht : anyTiny demoRow [(2, 1 / 2)] = false := by
      simp only [anyTiny, List.any_eq_false, decide_eq_true_eq, not_lt, List.mem_singleton]
      rintro z rfl
      rw [demo_delta, abs_of_pos] <;> norm_num
    refine ⟨naTerm demoRow false false 2 (1 / 2), ?_, ?_⟩
    · simp only [ar, List.mapM_cons, List.mapM_nil, demo_first, hs, ht]
      rfl
    · have hd : (naDelta demoRow false 2 (1 / 2)).p = 5 / 4 := by rw [demo_delta]; norm_num
      have hy : (naDelta demoRow false 2 (1 / 2)).py = -1 := by
        simp only [naDelta, naInner, naOuter, demoRow]
        norm_num
      simp only [naTerm, naPow, Bool.false_eq_true, if_false, hd, hy]
      simp only [demoRow]
      norm_num
  · have hs : anySmall [(2, 1 / 2), (2, 1)] = true := by
      simp only [anySmall, List.any_cons, List.any_nil, Bool.or_false]
      norm_num
    have ht : anyTiny demoRow [(2, 1 / 2), (2, 1)] = false := by
      simp only [anyTiny, List.any_eq_false, decide_eq_true_eq, not_lt, List.mem_cons,
        List.not_mem_nil, or_false]
      rintro z (rfl | rfl) <;> rw [demo_delta, abs_of_pos] <;> norm_num
    refine ⟨naTerm demoRow true false 2 (1 / 2), naTerm demoRow true false 2 1, ?_, ?_⟩
    · simp only [ar, List.mapM_cons, List.mapM_nil, demo_first, hs, ht]
      rfl
    · have hd : (naDelta demoRow true 2 (1 / 2)).p = 5 / 4 := by rw [demo_delta]; norm_num
      have hq : ((1 / 2 - 1 : ℝ) * (1 / 2 - 1)) ^ (1 - 1 / 2 : ℝ) = 1 / 2 := by
        have := sq_rpow (1 / 2 - 1) 1
        rw [Real.rpow_one] at this
        rw [show (1 - 1 / 2 : ℝ) = 1 / 2 * 1 by norm_num, this,
          show (1 / 2 - 1 : ℝ) = -(1 / 2) by norm_num, abs_neg, abs_of_pos] <;> norm_num
      have hy : (naDelta demoRow true 2 (1 / 2)).py = 1 := by
        simp only [naDelta, naInner, naOuter, demoRow, if_true, hq]
        norm_num
      simp only [naTerm, naPow, Bool.false_eq_true, if_false, hd, hy]
      simp only [demoRow]
      norm_num

/-! ## Concrete cases -/

/-- The hypotheses of `C49_residual_partial` and of `C49_elementwise_partial` at (2, 2). -/
example : ArData demoAr ∧ (∀ r ∈ demoAr.coef2, 0 < r.B) ∧
    ∀ r ∈ demoAr.coef2, (1 : ℝ) / 1000000 ≤ deltaVal r 2 2 := by
  refine ⟨demoAr_data, by simp [demoAr, demoRow], ?_⟩
  intro r hr
  simp only [demoAr, List.mem_singleton] at hr
  subst hr
  rw [← naDelta_value demoRow false, demo_delta]
  norm_num

/-- Data of the shipped shape with polynomial, exponential and Gaussian terms. -/
example : ArData ⟨[[⟨1, 1, 0, 0, [(1, 1, 2)]⟩], [⟨1 / 8, 1, 0, 1, [(3, 1, -1), (0, 2, 4)]⟩]],
    [⟨1, 2, 3, 4, 5, 6, 7⟩], []⟩ := by
  refine ⟨by simp, ?_, ?_⟩
  · intro gs hgs q hq
    simp only [List.mem_cons, List.not_mem_nil, or_false] at hgs
    rcases hgs with rfl | rfl <;> simp only [List.mem_singleton] at hq <;> subst hq <;>
      exact ⟨by simp, by simp⟩
  · intro gs hgs q hq
    simp only [List.mem_cons, List.not_mem_nil, or_false] at hgs
    rcases hgs with rfl | rfl <;> simp only [List.mem_singleton] at hq <;> subst hq <;>
      intro _ <;> rfl

end PyroMat.Mp.Props
