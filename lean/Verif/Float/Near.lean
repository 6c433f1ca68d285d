import Verif.Float.Arith

/-!
# Accumulated relative errors

`Near ε k x y`: `y` differs from `x` by `k` roundings.
-/

namespace PyroMat.Float

/-- The largest change of the logarithm in one rounding. -/
noncomputable def step (ε : ℝ) : ℝ := -Real.log (1 - ε)

/-- `y` is `x` after at most `k` relative errors of `ε`. -/
def Near (ε : ℝ) (k : ℕ) (x y : ℝ) : Prop := ∃ θ, |θ| ≤ k * step ε ∧ y = x * Real.exp θ

theorem step_nonneg {ε : ℝ} (h0 : 0 ≤ ε) (h1 : ε < 1) : 0 ≤ step ε := by
  unfold step
  have := Real.log_nonpos (show 0 ≤ 1 - ε by linarith) (by linarith)
  linarith

theorem step_le {ε : ℝ} (h1 : ε < 1) : step ε ≤ ε / (1 - ε) := by
  unfold step
  have h : 0 < 1 - ε := by linarith
  have := Real.log_le_sub_one_of_pos (inv_pos.mpr h)
  rw [Real.log_inv] at this
  refine this.trans (le_of_eq ?_)
  field_simp
  ring

theorem near_refl {ε : ℝ} (h0 : 0 ≤ ε) (h1 : ε < 1) (k : ℕ) (x : ℝ) : Near ε k x x :=
  ⟨0, by simpa using mul_nonneg (Nat.cast_nonneg k) (step_nonneg h0 h1), by simp⟩

theorem near_of_within {ε x y : ℝ} (h0 : 0 ≤ ε) (h1 : ε < 1) (h : Within ε x y) : Near ε 1 x y := by
  unfold Within at h
  by_cases hx : x = 0
  · rw [hx] at h ⊢
    simp only [sub_zero, abs_zero, mul_zero] at h
    rw [abs_eq_zero.mp (le_antisymm h (abs_nonneg _))]
    exact near_refl h0 h1 1 0
  set r := y / x with hr
  have hy : y = x * r := by rw [hr]; field_simp
  have hb : |r - 1| ≤ ε := by
    have : y - x = x * (r - 1) := by rw [hy]; ring
    rw [this, abs_mul, mul_comm ε] at h
    exact le_of_mul_le_mul_left h (abs_pos.mpr hx)
  obtain ⟨b1, b2⟩ := abs_le.mp hb
  have r0 : 0 < r := by linarith
  refine ⟨Real.log r, ?_, by rw [Real.exp_log r0]; exact hy⟩
  have l1 : Real.log (1 - ε) ≤ Real.log r := Real.log_le_log (by linarith) (by linarith)
  have l2 : Real.log r ≤ -Real.log (1 - ε) := by
    rw [← Real.log_inv]
    refine Real.log_le_log r0 ?_
    rw [le_inv_comm₀ r0 (by linarith), ← one_div, le_div_iff₀ r0]
    nlinarith
  unfold step
  rw [Nat.cast_one, one_mul, abs_le]
  constructor <;> linarith

theorem near_mono {ε x y : ℝ} {k l : ℕ} (h0 : 0 ≤ ε) (h1 : ε < 1) (hkl : k ≤ l) (h : Near ε k x y) : Near ε l x y := by
  obtain ⟨θ, t, e⟩ := h
  refine ⟨θ, t.trans (mul_le_mul_of_nonneg_right (by exact_mod_cast hkl) (step_nonneg h0 h1)), e⟩

theorem near_trans {ε x y z : ℝ} {k l : ℕ} (h : Near ε k x y) (h' : Near ε l y z) : Near ε (k + l) x z := by
  obtain ⟨θ, t, e⟩ := h
  obtain ⟨η, u, f⟩ := h'
  refine ⟨θ + η, (abs_add_le _ _).trans ?_, by rw [f, e, Real.exp_add]; ring⟩
  push_cast; rw [add_mul]; linarith

theorem near_symm {ε x y : ℝ} {k : ℕ} (h : Near ε k x y) : Near ε k y x := by
  obtain ⟨θ, t, e⟩ := h
  refine ⟨-θ, by rwa [abs_neg], ?_⟩
  rw [e, mul_assoc, ← Real.exp_add]; simp

theorem near_mul {ε x y x' y' : ℝ} {k l : ℕ} (h : Near ε k x y) (h' : Near ε l x' y') :
    Near ε (k + l) (x * x') (y * y') := by
  obtain ⟨θ, t, e⟩ := h
  obtain ⟨η, u, f⟩ := h'
  refine ⟨θ + η, (abs_add_le _ _).trans ?_, by rw [f, e, Real.exp_add]; ring⟩
  push_cast; rw [add_mul]; linarith

theorem near_inv {ε x y : ℝ} {k : ℕ} (h : Near ε k x y) : Near ε k x⁻¹ y⁻¹ := by
  obtain ⟨θ, t, e⟩ := h
  exact ⟨-θ, by rwa [abs_neg], by rw [e, mul_inv, Real.exp_neg]⟩

theorem near_div {ε x y x' y' : ℝ} {k l : ℕ} (h : Near ε k x y) (h' : Near ε l x' y') :
    Near ε (k + l) (x / x') (y / y') := by
  rw [div_eq_mul_inv, div_eq_mul_inv]
  exact near_mul h (near_inv h')

theorem near_zpow {ε x y : ℝ} {k : ℕ} (h : Near ε k x y) (n : ℤ) : Near ε (n.natAbs * k) (x ^ n) (y ^ n) := by
  obtain ⟨θ, t, e⟩ := h
  refine ⟨n * θ, ?_, ?_⟩
  · rw [abs_mul, Nat.cast_mul, Nat.cast_natAbs, Int.cast_abs, mul_assoc]
    exact mul_le_mul_of_nonneg_left t (abs_nonneg _)
  · rw [e, mul_zpow]
    congr 1
    cases n with
    | ofNat n => simp [← Real.exp_nat_mul]
    | negSucc n =>
      rw [zpow_negSucc, ← Real.exp_nat_mul, ← Real.exp_neg]
      congr 1
      push_cast
      ring

theorem near_iff_zero {ε x y : ℝ} {k : ℕ} (h : Near ε k x y) : x = 0 ↔ y = 0 := by
  obtain ⟨θ, -, e⟩ := h
  rw [e, mul_eq_zero]
  simp [(Real.exp_pos θ).ne']

theorem near_pos {ε x y : ℝ} {k : ℕ} (h : Near ε k x y) (hx : 0 < x) : 0 < y := by
  obtain ⟨θ, -, e⟩ := h
  rw [e]; exact mul_pos hx (Real.exp_pos θ)

/-- `k` roundings are a relative error of about `k ε`. -/
theorem within_of_near {ε x y : ℝ} {k : ℕ} (h0 : 0 ≤ ε) (hk : k * ε ≤ 1e-3) (h1 : ε ≤ 1e-3) (h : Near ε k x y) :
    Within (1.01 * k * ε) x y := by
  obtain ⟨θ, t, e⟩ := h
  have hs : step ε ≤ 1.002 * ε := by
    refine (step_le (by linarith)).trans ?_
    rw [div_le_iff₀ (by linarith)]
    nlinarith
  have hθ : |θ| ≤ 1.002 * (k * ε) := by
    refine t.trans ((mul_le_mul_of_nonneg_left hs (Nat.cast_nonneg k)).trans (le_of_eq (by ring)))
  have hke : (0 : ℝ) ≤ k * ε := by positivity
  have hb : |Real.exp θ - 1| ≤ 1.01 * (k * ε) := by
    have h2 := Real.abs_exp_sub_one_sub_id_le (x := θ) (by linarith)
    have h3 : |Real.exp θ - 1| ≤ |Real.exp θ - 1 - θ| + |θ| := by
      have := abs_add_le (Real.exp θ - 1 - θ) θ
      simpa using this
    have h4 : θ ^ 2 = |θ| ^ 2 := (sq_abs θ).symm
    have h5 : |θ| ^ 2 ≤ 0.00101 * |θ| := by
      rw [pow_two]
      exact mul_le_mul_of_nonneg_right (by linarith) (abs_nonneg _)
    nlinarith
  unfold Within
  rw [e, show x * Real.exp θ - x = (Real.exp θ - 1) * x by ring, abs_mul]
  refine mul_le_mul_of_nonneg_right (hb.trans (le_of_eq (by ring))) (abs_nonneg _)

end PyroMat.Float
