import Verif.Float.PropsPoly2
import Verif.Float.Residual
import Verif.Float.SpecResidual
import Verif.Mp.PropsAr

/-!
# C113: residual Helmholtz energy and pressure in floating point
-/

set_option linter.unusedSimpArgs false

namespace PyroMat.Float.Props

open PyroMat PyroMat.Mp PyroMat.Float PyroMat.Float.Spec PyroMat.Mp.Spec

variable {ε : ℝ} {A : Arith}

/-! ## More single operations -/

theorem off_sub (h0 : 0 ≤ ε) (h1 : ε < 1) (hA : Accurate ε A) {k l : ℕ} {m n x y x' y' : ℝ} (h : Off ε k m x y)
    (h' : Off ε l n x' y') : Off ε (max k l + 1) (m + n) (x - x') (A.sub y y') := by
  refine err_within h0 h1 (y := y - y') ?_ (hA.sub _ _)
  rw [sub_eq_add_neg x, sub_eq_add_neg y]
  exact err_plus h0 h1 h (err_neg h')

theorem off_sq (h0 : 0 ≤ ε) (h1 : ε < 1) (hA : Accurate ε A) {k : ℕ} {m x y : ℝ} (h : Off ε k m x y) :
    Off ε (k + k + 1) (m ^ 2) (x ^ 2) (A.pow y 2) := by
  have e : Within ε (y ^ 2) (A.pow y 2) := by
    have := hA.pow y 2
    norm_cast at this
  refine err_within h0 h1 (y := y ^ 2) ?_ e
  rw [pow_two, pow_two, pow_two]
  exact err_times h0 h1 h h

/-- An error in the argument of an exponential is a relative error of the result. -/
theorem off_exp (h0 : 0 ≤ ε) (h1 : ε ≤ 1e-3) {ex : ℝ → ℝ} (hE : Exps ε ex) {c M : ℕ} {m u v : ℝ} (h : Off ε c m u v)
    (hM : m ≤ M) (hc : c * ε ≤ 1e-3) : Off ε (2 * c * M + 1) (Real.exp u) (Real.exp u) (ex v) := by
  have hε : ε < 1 := by linarith
  have hs : step ε ≤ 1.002 * ε := by
    refine (step_le hε).trans ?_
    rw [div_le_iff₀ (by linarith)]
    nlinarith
  have s0 := step_nonneg h0 hε
  have hcs0 : 0 ≤ c * step ε := mul_nonneg (Nat.cast_nonneg c) s0
  have hcs : c * step ε ≤ 1 := by
    have := mul_le_mul_of_nonneg_left hs (Nat.cast_nonneg (α := ℝ) c)
    nlinarith
  have hb : Real.exp (c * step ε) - 1 ≤ 2 * (c * step ε) := by
    have := Real.abs_exp_sub_one_le (x := c * step ε) (by rw [abs_of_nonneg hcs0]; exact hcs)
    rw [abs_of_nonneg hcs0] at this
    exact (le_abs_self _).trans this
  have hn : Near ε (2 * c * M) (Real.exp u) (Real.exp v) := by
    refine ⟨v - u, ?_, by rw [← Real.exp_add]; congr 1; ring⟩
    have m0 : 0 ≤ m := (abs_nonneg _).trans h.1
    calc |v - u| ≤ (Real.exp (c * step ε) - 1) * m := h.2
      _ ≤ 2 * (c * step ε) * M := mul_le_mul hb hM m0 (by linarith)
      _ = ((2 * c * M : ℕ) : ℝ) * step ε := by push_cast; ring
  have := err_of_near (near_trans hn (near_of_within h0 hε (hE v)))
  rwa [abs_of_pos (Real.exp_pos _)] at this

/-! ## Values with first derivatives -/

/-- Value and first derivatives after `k` roundings of terms of size `m`. -/
structure OffQ (ε : ℝ) (k : ℕ) (m : Q3) (s : J6) (t : Q3) : Prop where
  v : Off ε k m.v s.p t.v
  vT : Off ε k m.vT s.px t.vT
  vd : Off ε k m.vd s.py t.vd

theorem OffQ.mono (h0 : 0 ≤ ε) (h1 : ε < 1) {k l : ℕ} (hk : k ≤ l) {m : Q3} {s : J6} {t : Q3} (h : OffQ ε k m s t) :
    OffQ ε l m s t :=
  ⟨err_mono h0 h1 hk le_rfl h.v, err_mono h0 h1 hk le_rfl h.vT, err_mono h0 h1 hk le_rfl h.vd⟩

/-- The sum of sizes. -/
def Q3.plus (a b : Q3) : Q3 := ⟨a.v + b.v, a.vT + b.vT, a.vd + b.vd⟩

theorem OffQ.acc (h0 : 0 ≤ ε) (h1 : ε < 1) (hA : Accurate ε A) {k l : ℕ} (hl : l ≤ k) {m m' : Q3} {s s' : J6} {t t' : Q3}
    (h : OffQ ε k m s t) (h' : OffQ ε l m' s' t') :
    OffQ ε (k + 1) (Q3.plus m m') (s.add s') (accQ A t t') :=
  ⟨err_mono h0 h1 (by omega) le_rfl (off_add h0 h1 hA h.v h'.v),
    err_mono h0 h1 (by omega) le_rfl (off_add h0 h1 hA h.vT h'.vT),
    err_mono h0 h1 (by omega) le_rfl (off_add h0 h1 hA h.vd h'.vd)⟩

/-! ## Polynomials with exponential -/

/-- A polynomial at the rounded arguments. -/
theorem poly_first (h0 : 0 ≤ ε) (h1 : ε < 1) (hA : Accurate ε A) {pw : ℝ → ℝ → ℝ} (hP : Powers ε pw) {t t' d d' : ℝ}
    (ht : 0 < t) (hd : 0 < d) {a α : ℕ} (htn : Near ε a t t') (hdn : Near ε a d d') (ha : a + 1 ≤ α) (nx ny ng : ℕ)
    (gs : List Group2) (hlen : gs.length ≤ ng)
    (hg : ∀ g ∈ gs, Sorted2 g) (hok : ∀ g ∈ gs, Mp.Props.PreOk g) (he : ∀ g ∈ gs, Mild2 a α g)
    (hn : ∀ g ∈ gs, ∀ t ∈ g.terms, t.1 ≤ nx ∧ t.2.1 ≤ ny) :
    ∃ j, poly2 A pw t' d' gs 1 = .ok j ∧
      OffQ ε ((nx + ny + 2) * (α + 2) + ng + 4 * α + 5) ⟨sizeAt 0 0 gs t d, sizeAt 1 0 gs t d, sizeAt 0 1 gs t d⟩
        (Mp.Props.evalGs2 gs t d) ⟨j.p, j.px, j.py⟩ := by
  obtain ⟨j, hj, w⟩ := poly2_off h0 h1 hA hP ht hd htn hdn ha nx ny gs rfl hg hok he hn
  refine ⟨J6.cut 1 j, by rw [C112_order2 A pw 1, hj]; rfl, ?_⟩
  exact ⟨err_mono h0 h1 (by omega) le_rfl w.p, err_mono h0 h1 (by omega) le_rfl w.px,
    err_mono h0 h1 (by omega) le_rfl w.py⟩

/-- One polynomial with its exponential. -/
theorem expQ_off (h0 : 0 ≤ ε) (h1 : ε ≤ 1e-3) (hA : Accurate ε A) {ex : ℝ → ℝ} (hE : Exps ε ex) {d d' x : ℝ} (hd : 0 < d)
    {a α K k n M : ℕ} (hdn : Near ε a d d') (ha : a + 1 ≤ α) (hx : Near ε (k * α) (d ^ k) x) (hk : k ≤ n) (hM : d ^ k ≤ M)
    (hc : ((n * α : ℕ) : ℝ) * ε ≤ 1e-3) {m : Q3} {s : J6} {p : J6} (h : OffQ ε K m s ⟨p.p, p.px, p.py⟩) :
    OffQ ε (K + (n + 1) * α + 2 * n * α * M + 5)
      ⟨m.v * Real.exp (-d ^ k), m.vT * Real.exp (-d ^ k), Real.exp (-d ^ k) * (m.v * (k * d ^ k / d) + m.vd)⟩
      ((Mp.Props.expK k d).liftY.mul s) (expQ A ex k d' x p) := by
  have hε : ε < 1 := by linarith
  have hkα : k * α ≤ n * α := Nat.mul_le_mul_right _ hk
  have hdk : 0 < d ^ k := by positivity
  have hxo : Off ε (k * α) (d ^ k) (d ^ k) x := by
    have := err_of_near hx
    rwa [abs_of_pos hdk] at this
  have he := off_exp h0 h1 hE (err_neg hxo) hM
    ((mul_le_mul_of_nonneg_right (by exact_mod_cast hkα) h0).trans hc)
  have hed : Off ε (k * α + α + 1) (k * d ^ k / d) (-(k : ℝ) * d ^ k / d) (A.div (A.mul (-(k : ℝ)) x) d') := by
    have hko := off_exact h0 hε 0 (-(k : ℝ))
    rw [abs_neg, abs_of_nonneg (Nat.cast_nonneg k)] at hko
    exact err_mono h0 hε (by omega) le_rfl (off_div h0 hε hA (off_mul h0 hε hA hko hxo) hd hdn)
  have hkM : 2 * (k * α) * M ≤ 2 * n * α * M := by
    have := Nat.mul_le_mul_right M (Nat.mul_le_mul_left 2 hkα)
    rwa [← Nat.mul_assoc 2 n α] at this
  have hn1 : (n + 1) * α = n * α + α := by ring
  have hs : (Mp.Props.expK k d).liftY.mul s = (Mp.Props.expK k d).liftY.mul s := rfl
  refine ⟨?_, ?_, ?_⟩
  · have e : ((Mp.Props.expK k d).liftY.mul s).p = s.p * Real.exp (-d ^ k) := by
      simp [Mp.Props.expK, P3.liftY, J6.mul, mul_comm]
    rw [e]
    exact err_mono h0 hε (by omega) le_rfl (off_mul h0 hε hA h.v he)
  · have e : ((Mp.Props.expK k d).liftY.mul s).px = s.px * Real.exp (-d ^ k) := by
      simp [Mp.Props.expK, P3.liftY, J6.mul, mul_comm]
    rw [e]
    exact err_mono h0 hε (by omega) le_rfl (off_mul h0 hε hA h.vT he)
  · have e : ((Mp.Props.expK k d).liftY.mul s).py =
        Real.exp (-d ^ k) * (s.p * (-(k : ℝ) * d ^ k / d) + s.py) := by
      simp only [Mp.Props.expK, P3.liftY, J6.mul]
      ring
    rw [e]
    exact err_mono h0 hε (by omega) le_rfl
      (off_mul h0 hε hA he (off_add h0 hε hA (off_mul h0 hε hA h.v hed) h.vd))

/-- The loop. -/
theorem expsQ_off (h0 : 0 ≤ ε) (h1 : ε ≤ 1e-3) (hA : Accurate ε A) {pw : ℝ → ℝ → ℝ} (hP : Powers ε pw) {ex : ℝ → ℝ}
    (hE : Exps ε ex) {t t' d d' : ℝ} (ht : 0 < t) (hd : 0 < d) {a α : ℕ} (htn : Near ε a t t') (hdn : Near ε a d d')
    (ha : a + 1 ≤ α) (nx ny ng n M : ℕ) (hc : ((n * α : ℕ) : ℝ) * ε ≤ 1e-3) {B : ℕ}
    (hB : (nx + ny + 2) * (α + 2) + ng + 4 * α + 5 + (n + 1) * α + 2 * n * α * M + 5 ≤ B) (l : List (List Group2))
    (hlen : ∀ gs ∈ l, gs.length ≤ ng)
    (hg : ∀ gs ∈ l, ∀ g ∈ gs, Sorted2 g) (hok : ∀ gs ∈ l, ∀ g ∈ gs, Mp.Props.PreOk g)
    (he : ∀ gs ∈ l, ∀ g ∈ gs, Mild2 a α g) (hn : ∀ gs ∈ l, ∀ g ∈ gs, ∀ t ∈ g.terms, t.1 ≤ nx ∧ t.2.1 ≤ ny) :
    ∀ (k : ℕ) (x : ℝ) (i : ℕ) (m : Q3) (s : J6) (q : Q3), Near ε (k * α) (d ^ k) x → k + l.length ≤ n →
      (∀ j, j ≤ k + l.length → d ^ j ≤ M) → OffQ ε (B + i) m s q →
      ∃ z, expsQ A pw ex t' d' l k x q = .ok z ∧
        OffQ ε (B + (i + l.length))
          ⟨m.v + expsSize t d l (k + 1), m.vT + expsSizeT t d l (k + 1), m.vd + expsSizeD t d l (k + 1)⟩
          (s.add (Mp.Props.expsF l (k + 1) t d)) z := by
  have hε : ε < 1 := by linarith
  induction l with
  | nil =>
    intro k x i m s q _ _ _ h
    refine ⟨q, rfl, ?_⟩
    have e : s.add (Mp.Props.expsF [] (k + 1) t d) = s := by simp [Mp.Props.expsF, J6.add]
    rw [e]
    simpa [expsSize, expsSizeT, expsSizeD] using h
  | cons gs l ih =>
    intro k x i m s q hx hkn hM h
    simp only [List.length_cons] at hkn hM
    obtain ⟨j, hj, w⟩ := poly_first h0 hε hA hP ht hd htn hdn ha nx ny ng gs (hlen gs (by simp)) (hg gs (by simp))
      (hok gs (by simp)) (he gs (by simp)) (hn gs (by simp))
    have hx' : Near ε ((k + 1) * α) (d ^ (k + 1)) (A.mul x d') := by
      have := near_trans (near_mul hx hdn) (near_of_within h0 hε (hA.mul x d'))
      rw [← pow_succ] at this
      exact near_mono h0 hε (by rw [Nat.add_mul]; omega) this
    have w' := expQ_off h0 h1 hA hE hd hdn ha hx' (show k + 1 ≤ n by omega) (hM (k + 1) (by omega)) hc w
    obtain ⟨z, hz, r⟩ := ih (fun g h => hlen g (by simp [h])) (fun g h => hg g (by simp [h])) (fun g h => hok g (by simp [h]))
      (fun g h => he g (by simp [h])) (fun g h => hn g (by simp [h])) (k + 1) (A.mul x d') (i + 1) _ _ _ hx' (by omega)
      (fun j hj => hM j (by omega)) (h.acc h0 hε hA (le_trans hB (by omega)) w')
    refine ⟨z, ?_, ?_⟩
    · rw [expsQ, hj]
      exact hz
    · have e : s.add (Mp.Props.expsF (gs :: l) (k + 1) t d) =
          (s.add ((Mp.Props.expK (k + 1) d).liftY.mul (Mp.Props.evalGs2 gs t d))).add (Mp.Props.expsF l (k + 1 + 1) t d) := by
        simp only [Mp.Props.expsF, J6.add, add_assoc]
      rw [e, List.length_cons, show i + (l.length + 1) = i + 1 + l.length by omega]
      have r' := r
      simp only [Q3.plus, add_assoc] at r'
      simpa only [expsSize, expsSizeT, expsSizeD, add_assoc] using r'

/-! ## Gaussian terms -/

theorem gaussQ_off (h0 : 0 ≤ ε) (h1 : ε ≤ 1e-3) (hA : Accurate ε A) {pw : ℝ → ℝ → ℝ} (hP : Powers ε pw) {ex : ℝ → ℝ}
    (hE : Exps ε ex) {t t' d d' : ℝ} (ht : 0 < t) (hd : 0 < d) {a α : ℕ} (htn : Near ε a t t') (hdn : Near ε a d d')
    (ha : a + 1 ≤ α) (ha2 : 2 ≤ α) {M : ℕ} (hc : ((2 * α + 4 : ℕ) : ℝ) * ε ≤ 1e-3) (r : Row1) (hM : gaussArg r t d ≤ M)
    (het : a * |r.t| + 1 ≤ α) (hed : a * |r.d| + 1 ≤ α) :
    OffQ ε ((4 * α + 8) * M + 3 * α + 10)
      ⟨gaussSize r t d, gaussSize r t d * (|r.t| / t + 2 * |r.b| * (t + |r.gam|)),
        gaussSize r t d * (|r.d| / d + 2 * |r.a| * (d + |r.ep|))⟩
      (Mp.gaussTerm r t d) (gaussQ A pw ex t' d' r) := by
  have hε : ε < 1 := by linarith
  have hto : Off ε a t t t' := by have := err_of_near htn; rwa [abs_of_pos ht] at this
  have hdo : Off ε a d d d' := by have := err_of_near hdn; rwa [abs_of_pos hd] at this
  have hd1 : Off ε α (d + |r.ep|) (d - r.ep) (A.sub d' (A.lit r.ep)) :=
    err_mono h0 hε (by omega) le_rfl (off_sub h0 hε hA hdo (off_of_within h0 hε (hA.lit r.ep)))
  have ht1 : Off ε α (t + |r.gam|) (t - r.gam) (A.sub t' (A.lit r.gam)) :=
    err_mono h0 hε (by omega) le_rfl (off_sub h0 hε hA hto (off_of_within h0 hε (hA.lit r.gam)))
  have hao := off_of_within h0 hε (hA.lit r.a)
  have hbo := off_of_within h0 hε (hA.lit r.b)
  have hna := err_neg hao
  have harg : Off ε (2 * α + 4) (gaussArg r t d) (-r.a * (d - r.ep) ^ 2 - r.b * (t - r.gam) ^ 2)
      (A.sub (A.mul (-A.lit r.a) (A.pow (A.sub d' (A.lit r.ep)) 2)) (A.mul (A.lit r.b) (A.pow (A.sub t' (A.lit r.gam)) 2))) :=
    err_mono h0 hε (by omega) le_rfl (off_sub h0 hε hA (off_mul h0 hε hA hna (off_sq h0 hε hA hd1))
      (off_mul h0 hε hA hbo (off_sq h0 hε hA ht1)))
  have he := off_exp h0 h1 hE harg hM hc
  set e := Real.exp (-r.a * (d - r.ep) ^ 2 - r.b * (t - r.gam) ^ 2) with hed'
  have hM' : 2 * (2 * α + 4) * M = (4 * α + 8) * M := by ring
  rw [hM'] at he
  have hp := off_mul h0 hε hA (off_mul h0 hε hA (off_of_within h0 hε (hA.lit r.c)) (off_pow h0 hε hP hd hdn r.d hed))
    (off_pow h0 hε hP ht htn r.t het)
  have hpt := off_div h0 hε hA (off_mul h0 hε hA (off_exact h0 hε 0 r.t) hp) ht htn
  have hpd := off_div h0 hε hA (off_mul h0 hε hA (off_exact h0 hε 0 r.d) hp) hd hdn
  have hm2 := off_exact h0 hε 0 (-2 : ℝ)
  rw [abs_neg, abs_of_pos (by norm_num : (0 : ℝ) < 2)] at hm2
  have hett := off_mul h0 hε hA (off_mul h0 hε hA (off_mul h0 hε hA hm2 hbo) ht1) he
  have hedd := off_mul h0 hε hA (off_mul h0 hε hA (off_mul h0 hε hA hm2 hao) hd1) he
  have hg : gaussSize r t d = e * (|r.c| * d ^ r.d * t ^ r.t) := by rw [gaussSize, mul_comm]
  refine ⟨?_, ?_, ?_⟩
  · have := off_mul h0 hε hA he hp
    rw [← hg] at this
    exact err_mono h0 hε (by omega) le_rfl this
  · have := off_add h0 hε hA (off_mul h0 hε hA he hpt) (off_mul h0 hε hA hett hp)
    refine err_mono h0 hε (by omega) (le_of_eq ?_) this
    rw [hg]
    ring
  · have := off_add h0 hε hA (off_mul h0 hε hA he hpd) (off_mul h0 hε hA hedd hp)
    refine err_mono h0 hε (by omega) (le_of_eq ?_) this
    rw [hg]
    ring

theorem gauss_fold (h0 : 0 ≤ ε) (h1 : ε < 1) (hA : Accurate ε A) {B : ℕ} (f : Row1 → Q3) (g : Row1 → J6) (w : Row1 → Q3)
    (l : List Row1) (h : ∀ r ∈ l, OffQ ε B (w r) (g r) (f r)) :
    ∀ (i : ℕ) (m : Q3) (s : J6) (q : Q3), OffQ ε (B + i) m s q →
      OffQ ε (B + (i + l.length)) ⟨m.v + (l.map fun r => (w r).v).sum, m.vT + (l.map fun r => (w r).vT).sum,
        m.vd + (l.map fun r => (w r).vd).sum⟩
        (s.add ((l.map g).foldr J6.add ⟨0, 0, 0, 0, 0, 0⟩)) (l.foldl (fun acc r => accQ A acc (f r)) q) := by
  induction l with
  | nil =>
    intro i m s q hq
    have e : s.add (([].map g).foldr J6.add ⟨0, 0, 0, 0, 0, 0⟩) = s := by simp [J6.add]
    rw [e]
    simpa using hq
  | cons r l ih =>
    intro i m s q hq
    have := ih (fun r' h' => h r' (by simp [h'])) (i + 1) _ _ _ (hq.acc h0 h1 hA (by omega) (h r (by simp)))
    have e : s.add (((r :: l).map g).foldr J6.add ⟨0, 0, 0, 0, 0, 0⟩) =
        (s.add (g r)).add ((l.map g).foldr J6.add ⟨0, 0, 0, 0, 0, 0⟩) := by
      simp [J6.add, add_assoc]
    rw [e, List.length_cons, show i + (l.length + 1) = i + 1 + l.length by omega]
    simpa only [List.map_cons, List.sum_cons, List.foldl_cons, ← add_assoc, Q3.plus] using this

/-! ## The residual part -/

theorem residual_off (h0 : 0 ≤ ε) (h1 : ε ≤ 1e-3) (hA : Accurate ε A) {pw : ℝ → ℝ → ℝ} (hP : Powers ε pw) {ex : ℝ → ℝ}
    (hE : Exps ε ex) {t t' d d' : ℝ} (ht : 0 < t) (hd : 0 < d) (htn : Near ε 2 t t') (hdn : Near ε 2 d d')
    {coef0 : List (List Group2)} {coef1 : List Row1} {nx ny ng w M : ℕ} (hb : Bounded coef0 coef1 nx ny ng w)
    (hm : Moderate coef0 coef1 M t d)
    {N : ℕ} (hN : N + 8 = roundings nx ny ng w M coef0.length coef1.length) (hc : (N : ℝ) * ε ≤ 1e-3) :
    ∃ z, residual A pw ex coef0 coef1 t' d' = .ok z ∧
      OffQ ε N ⟨arSize coef0 coef1 t d, arSizeT coef0 coef1 t d, arSizeD coef0 coef1 t d⟩
        (Mp.Props.arF1 ⟨coef0, coef1, []⟩ t d) z := by
  have hε : ε < 1 := by linarith
  set α := 2 * w + 3 with hα
  have ha : 2 + 1 ≤ α := by omega
  have hexp : ∀ e : ℝ, |e| ≤ w → ((2 : ℕ) : ℝ) * |e| + 1 ≤ α := by
    intro e he
    rw [hα]
    push_cast
    linarith
  have hmild : ∀ gs ∈ coef0, ∀ g ∈ gs, Mild2 2 α g := fun gs hgs g hg =>
    ⟨⟨hexp _ (hb.outside gs hgs g hg).1.1, hexp _ (hb.outside gs hgs g hg).1.2⟩,
      hexp _ (hb.outside gs hgs g hg).2.1, hexp _ (hb.outside gs hgs g hg).2.2⟩
  match coef0, hb, hm, hN, hmild with
  | [], hb, _, _, _ => exact absurd rfl hb.some
  | first :: rest, hb, hm, hN, hmild =>
    set n := (first :: rest).length with hn
    have hlen : rest.length + 1 = n := by rw [hn, List.length_cons]
    simp only [roundings] at hN
    have hle : ∀ l : ℕ, l ≤ N → (l : ℝ) * ε ≤ 1e-3 := fun l hl =>
      (mul_le_mul_of_nonneg_right (by exact_mod_cast hl) h0).trans hc
    set B := (nx + ny + 2) * (α + 2) + ng + 4 * α + 5 + (n + 4) * α + (2 * n * α + 4 * α + 8) * M + 11 with hB
    have e1 : (n + 4) * α = n * α + 4 * α := by ring
    have e2 : (n + 8) * α = n * α + 8 * α := by ring
    have e3 : (2 * n * α + 4 * α + 8) * M = 2 * n * α * M + (4 * α + 8) * M := by ring
    have e4 : (n + 1) * α = n * α + α := by ring
    have hBN : B + (rest.length + coef1.length) + 1 ≤ N + 1 := by
      have : 2 * w + 5 = α + 2 := by omega
      rw [this, ← hα] at hN
      omega
    obtain ⟨j, hj, wj⟩ := poly_first h0 hε hA hP ht hd htn hdn ha nx ny ng first (hb.groups first (by simp))
      (hb.sorted first (by simp)) (hb.pre first (by simp)) (hmild first (by simp)) (hb.inside first (by simp))
    have hx1 : Near ε (0 * α) (d ^ 0) 1 := by
      rw [pow_zero]; exact near_refl h0 hε _ 1
    obtain ⟨z, hz, wz⟩ := expsQ_off h0 h1 hA hP hE ht hd htn hdn ha nx ny ng n M (hle _ (by omega)) (B := B) (by omega)
      rest (fun gs h => hb.groups gs (by simp [h])) (fun gs h => hb.sorted gs (by simp [h]))
      (fun gs h => hb.pre gs (by simp [h])) (fun gs h => hmild gs (by simp [h])) (fun gs h => hb.inside gs (by simp [h]))
      0 1 0 _ _ _ hx1 (by omega) (fun k hk => hm.powers k (by rw [← hn]; omega)) (wj.mono h0 hε (by omega))
    have wg := gauss_fold h0 hε hA (B := B) (gaussQ A pw ex t' d') (fun r => Mp.gaussTerm r t d)
      (fun r => ⟨gaussSize r t d, gaussSize r t d * (|r.t| / t + 2 * |r.b| * (t + |r.gam|)),
        gaussSize r t d * (|r.d| / d + 2 * |r.a| * (d + |r.ep|))⟩) coef1
      (fun r hr => (gaussQ_off h0 h1 hA hP hE ht hd htn hdn ha (by omega) (hle _ (by omega)) r (hm.rows r hr)
        (hexp _ (hb.rows r hr).1) (hexp _ (hb.rows r hr).2)).mono h0 hε (by omega)) _ _ _ _ wz
    refine ⟨coef1.foldl (fun acc r => accQ A acc (gaussQ A pw ex t' d' r)) z, ?_, ?_⟩
    · simp only [residual, hj, hz]
    · have hl : B + (0 + rest.length + coef1.length) ≤ N := by clear_value B; omega
      exact wg.mono h0 hε hl

/-- **C113.** Evaluated with rounded operations at arguments that have been rounded twice, the documented residual part without
non-analytic terms and its first derivatives are off by no more than a number of roundings of the terms they are made of; the number depends on
the sizes of the exponents and of the arguments of exponentials only. -/
theorem C113_residual (h0 : 0 ≤ ε) (hA : Accurate ε A) {pw : ℝ → ℝ → ℝ} (hP : Powers ε pw) {ex : ℝ → ℝ} (hE : Exps ε ex)
    (T d Tscale dscale : ℝ) (hT : 0 < T) (hd : 0 < d) (hTs : 0 < Tscale) (hds : 0 < dscale)
    (coef0 : List (List Group2)) (coef1 : List Row1) (nx ny ng w M N : ℕ) (hb : Bounded coef0 coef1 nx ny ng w)
    (hm : Moderate coef0 coef1 M (Tscale / T) (d / dscale))
    (hN : N = roundings nx ny ng w M coef0.length coef1.length) (hc : (N : ℝ) * ε ≤ 1e-3) :
    ∃ z, residual A pw ex coef0 coef1 (A.div (A.lit Tscale) T) (A.div d (A.lit dscale)) = .ok z ∧
      |z.v - arVal ⟨coef0, coef1, []⟩ (Tscale / T) (d / dscale)| ≤
        1.01 * N * ε * arSize coef0 coef1 (Tscale / T) (d / dscale) ∧
      |z.vT - deriv (fun t => arVal ⟨coef0, coef1, []⟩ t (d / dscale)) (Tscale / T)| ≤
        1.01 * N * ε * arSizeT coef0 coef1 (Tscale / T) (d / dscale) ∧
      |z.vd - deriv (fun s => arVal ⟨coef0, coef1, []⟩ (Tscale / T) s) (d / dscale)| ≤
        1.01 * N * ε * arSizeD coef0 coef1 (Tscale / T) (d / dscale) := by
  have h22 : 24 ≤ N := by rw [hN]; unfold roundings; omega
  have h1 : ε ≤ 1e-3 := by
    have h22' : (24 : ℝ) ≤ N := by exact_mod_cast h22
    nlinarith
  have hε : ε < 1 := by linarith
  have htn : Near ε 2 (Tscale / T) (A.div (A.lit Tscale) T) :=
    near_trans (near_div (near_of_within h0 hε (hA.lit Tscale)) (near_refl h0 hε 0 T)) (near_of_within h0 hε (hA.div _ _))
  have hdn : Near ε 2 (d / dscale) (A.div d (A.lit dscale)) := by
    have := near_trans (near_div (near_refl h0 hε 0 d) (near_of_within h0 hε (hA.lit dscale)))
      (near_of_within h0 hε (hA.div d (A.lit dscale)))
    exact this
  have ht : 0 < Tscale / T := div_pos hTs hT
  have hdd : 0 < d / dscale := div_pos hd hds
  obtain ⟨z, hz, wz⟩ := residual_off h0 h1 hA hP hE ht hdd htn hdn hb hm (N := N - 8) (by omega)
    ((mul_le_mul_of_nonneg_right (by exact_mod_cast (show N - 8 ≤ N by omega)) h0).trans hc)
  have wz := wz.mono h0 hε (l := N) (by omega)
  have hi : Is2 (arVal ⟨coef0, coef1, []⟩) (Tscale / T) (d / dscale) (Mp.Props.arF1 ⟨coef0, coef1, []⟩ (Tscale / T) (d / dscale)) := by
    have := Mp.Props.arF_is ⟨coef0, coef1, []⟩ ⟨hb.some, hb.sorted, hb.pre⟩ (by simp) ht hdd (by simp)
    simpa [Mp.Props.arF, J6.add] using this
  obtain ⟨a, b, c⟩ := wz
  rw [hi.val] at a
  rw [← hi.dx.deriv] at b
  rw [← hi.dy.deriv] at c
  exact ⟨z, hz, err_abs h0 hc h1 a, err_abs h0 hc h1 b, err_abs h0 hc h1 c⟩

/-- **C113.** The pressure at a temperature and density is computed, with rounded operations, up to a number of roundings of
`T d R (1 + dd S)`, where `S` is the size of the terms of the derivative of the residual part. -/
theorem C113_pressure (h0 : 0 ≤ ε) (hA : Accurate ε A) {pw : ℝ → ℝ → ℝ} (hP : Powers ε pw) {ex : ℝ → ℝ} (hE : Exps ε ex)
    (R T d Tscale dscale : ℝ) (hR : 0 < R) (hT : 0 < T) (hd : 0 < d) (hTs : 0 < Tscale) (hds : 0 < dscale)
    (coef0 : List (List Group2)) (coef1 : List Row1) (nx ny ng w M N : ℕ) (hb : Bounded coef0 coef1 nx ny ng w)
    (hm : Moderate coef0 coef1 M (Tscale / T) (d / dscale))
    (hN : N = roundings nx ny ng w M coef0.length coef1.length) (hc : (N : ℝ) * ε ≤ 1e-3) :
    ∃ p, pressure A pw ex R Tscale dscale coef0 coef1 T d = .ok p ∧
      |p - T * d * R * (1 + d / dscale * deriv (fun s => arVal ⟨coef0, coef1, []⟩ (Tscale / T) s) (d / dscale))| ≤
        1.01 * N * ε * (T * d * R * (1 + d / dscale * arSizeD coef0 coef1 (Tscale / T) (d / dscale))) := by
  have h22 : 24 ≤ N := by rw [hN]; unfold roundings; omega
  have h1 : ε ≤ 1e-3 := by
    have h22' : (24 : ℝ) ≤ N := by exact_mod_cast h22
    nlinarith
  have hε : ε < 1 := by linarith
  have htn : Near ε 2 (Tscale / T) (A.div (A.lit Tscale) T) :=
    near_trans (near_div (near_of_within h0 hε (hA.lit Tscale)) (near_refl h0 hε 0 T)) (near_of_within h0 hε (hA.div _ _))
  have hdn : Near ε 2 (d / dscale) (A.div d (A.lit dscale)) := by
    have := near_trans (near_div (near_refl h0 hε 0 d) (near_of_within h0 hε (hA.lit dscale)))
      (near_of_within h0 hε (hA.div d (A.lit dscale)))
    exact this
  have ht : 0 < Tscale / T := div_pos hTs hT
  have hdd : 0 < d / dscale := div_pos hd hds
  obtain ⟨z, hz, wz⟩ := residual_off h0 h1 hA hP hE ht hdd htn hdn hb hm (N := N - 8) (by omega)
    ((mul_le_mul_of_nonneg_right (by exact_mod_cast (show N - 8 ≤ N by omega)) h0).trans hc)
  have hi : Is2 (arVal ⟨coef0, coef1, []⟩) (Tscale / T) (d / dscale) (Mp.Props.arF1 ⟨coef0, coef1, []⟩ (Tscale / T) (d / dscale)) := by
    have := Mp.Props.arF_is ⟨coef0, coef1, []⟩ ⟨hb.some, hb.sorted, hb.pre⟩ (by simp) ht hdd (by simp)
    simpa [Mp.Props.arF, J6.add] using this
  have c := wz.vd
  rw [← hi.dy.deriv] at c
  have hdo : Off ε 2 (d / dscale) (d / dscale) (A.div d (A.lit dscale)) := by
    have := err_of_near hdn
    rwa [abs_of_pos hdd] at this
  have h1o := off_exact h0 hε 0 (1 : ℝ)
  rw [abs_one] at h1o
  have hTo := off_exact h0 hε 0 T
  rw [abs_of_pos hT] at hTo
  have hdo' := off_exact h0 hε 0 d
  rw [abs_of_pos hd] at hdo'
  have hRo := off_of_within h0 hε (hA.lit R)
  rw [abs_of_pos hR] at hRo
  have hp := off_mul h0 hε hA (off_mul h0 hε hA (off_mul h0 hε hA hTo hdo') hRo)
    (off_add h0 hε hA h1o (off_mul h0 hε hA hdo c))
  refine ⟨A.mul (A.mul (A.mul T d) (A.lit R)) (A.add 1 (A.mul (A.div d (A.lit dscale)) z.vd)), by simp only [pressure, hz], ?_⟩
  exact err_abs h0 hc h1 (err_mono h0 hε (by omega) le_rfl hp)

/-! ## Exact arithmetic -/

/-- The value and first derivatives of a six-component result. -/
def first (j : J6) : Q3 := ⟨j.p, j.px, j.py⟩

/-- **C113.** With exact operations the model is the model of C49 asked for first derivatives. -/
theorem C113_exact (coef0 : List (List Group2)) (coef1 : List Row1) (t d : ℝ) :
    residual exact (fun x y => x ^ y) Real.exp coef0 coef1 t d =
      (arAt ⟨coef0, coef1, []⟩ 1 [(t, d)] t d).map first := by
  have hacc : ∀ (a b : J6), accQ exact (first a) (first b) = first (a.acc 1 b) := fun a b => rfl
  have hexp : ∀ (k : ℕ) (x : ℝ) (p : J6), expQ exact Real.exp k d x p = first (expTerm k d x p) := fun _ _ _ => rfl
  have hl : ∀ (l : List (List Group2)) (k : ℕ) (x : ℝ) (s : J6),
      expsQ exact (fun x y => x ^ y) Real.exp t d l k x (first s) = (arExp 1 t d l k x s).map first := by
    intro l
    induction l with
    | nil => intro k x s; rfl
    | cons gs l ih =>
      intro k x s
      rw [expsQ, arExp, C112_exact2]
      cases Mp.poly2 t d gs 1 with
      | error e => rfl
      | ok p =>
        simp only [hexp, hacc]
        exact ih _ _ _
  have hg : ∀ r, gaussQ exact (fun x y => x ^ y) Real.exp t d r = first (Mp.gaussTerm r t d) := by
    intro r
    simp only [gaussQ, exact, Mp.gaussTerm, first]
    norm_cast
  have hgs : ∀ (l : List Row1) (s : J6),
      l.foldl (fun acc r => accQ exact acc (gaussQ exact (fun x y => x ^ y) Real.exp t d r)) (first s) =
        first (l.foldl (fun acc r => acc.acc 1 (Mp.gaussTerm r t d)) s) := by
    intro l
    induction l with
    | nil => intro s; rfl
    | cons r l ih =>
      intro s
      simp only [List.foldl_cons, hg, hacc]
      simpa only [hg] using ih _
  match coef0 with
  | [] => rfl
  | c :: rest =>
    simp only [residual, arAt, C112_exact2]
    cases Mp.poly2 t d c 1 with
    | error e => rfl
    | ok p =>
      simp only
      have := hl rest 0 1 p
      simp only [first] at this
      rw [this]
      cases arExp 1 t d rest 0 1 p with
      | error e => rfl
      | ok s =>
        show Except.ok _ = Except.ok _
        rw [hgs]
        rfl

end PyroMat.Float.Props
