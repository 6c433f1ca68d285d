import Verif.Float.PropsUnits
import Verif.Float.Abs

/-!
# Formulas with sums

Formulas with sums and differences (in which `Verif/Float/Gas.lean` writes the code), and how their rounding errors
add up.
-/

namespace PyroMat.Float

/-- A formula with sums; divisors and arguments of the logarithm are products. -/
inductive Sm where
  | ex (e : Ex)
  | add (a b : Sm)
  | sub (a b : Sm)
  | mul (a b : Sm)
  | quo (a : Sm) (e : Ex)
  | log (e : Ex)

/-- Its value, one operation of the arithmetic for each node. -/
noncomputable def Sm.eval (A : Arith) : Sm → ℝ
  | .ex e => e.eval A
  | .add a b => A.add (a.eval A) (b.eval A)
  | .sub a b => A.sub (a.eval A) (b.eval A)
  | .mul a b => A.mul (a.eval A) (b.eval A)
  | .quo a e => A.div (a.eval A) (e.eval A)
  | .log e => A.log (e.eval A)

/-- The roundings on the way to the value. -/
def Sm.cost : Sm → ℕ
  | .ex e => e.cost
  | .add a b => max a.cost b.cost + 1
  | .sub a b => max a.cost b.cost + 1
  | .mul a b => a.cost + b.cost + 1
  | .quo a e => a.cost + e.cost + 1
  | .log e => e.cost + 1

/-- The sum of the absolute values of the terms. -/
noncomputable def Sm.mag : Sm → ℝ
  | .ex e => |e.eval exact|
  | .add a b => a.mag + b.mag
  | .sub a b => a.mag + b.mag
  | .mul a b => a.mag * b.mag
  | .quo a e => a.mag / |e.eval exact|
  | .log e => |Real.log (e.eval exact)| + 1

/-- The arguments of the logarithms are positive. -/
def Sm.Logs : Sm → Prop
  | .ex _ => True
  | .add a b => a.Logs ∧ b.Logs
  | .sub a b => a.Logs ∧ b.Logs
  | .mul a b => a.Logs ∧ b.Logs
  | .quo a _ => a.Logs
  | .log e => 0 < e.eval exact

/-- `y` is `x` after `k` roundings of terms that add up to `m`. -/
def Off (ε : ℝ) (k : ℕ) (m x y : ℝ) : Prop := |x| ≤ m ∧ |y - x| ≤ (Real.exp (k * step ε) - 1) * m

variable {ε : ℝ} {A : Arith}

theorem grow_nonneg (h0 : 0 ≤ ε) (h1 : ε < 1) (k : ℕ) : 0 ≤ Real.exp (k * step ε) - 1 := by
  have := Real.add_one_le_exp (k * step ε)
  have := step_nonneg h0 h1
  have : 0 ≤ k * step ε := by positivity
  linarith

theorem grow_mono (h0 : 0 ≤ ε) (h1 : ε < 1) {k l : ℕ} (h : k ≤ l) :
    Real.exp (k * step ε) - 1 ≤ Real.exp (l * step ε) - 1 := by
  have := step_nonneg h0 h1
  have h : (k : ℝ) ≤ l := by exact_mod_cast h
  have := Real.exp_le_exp.mpr (mul_le_mul_of_nonneg_right h this)
  linarith

theorem grow_add (k l : ℕ) : Real.exp ((k + l : ℕ) * step ε) = Real.exp (k * step ε) * Real.exp (l * step ε) := by
  rw [← Real.exp_add]; push_cast; ring_nf

/-- One rounding fits in one step. -/
theorem one_add_le (h0 : 0 ≤ ε) (h1 : ε < 1) : 1 + ε ≤ Real.exp ((1 : ℕ) * step ε) := by
  have h2 : 0 < 1 - ε := by linarith
  rw [Nat.cast_one, one_mul, step, Real.exp_neg, Real.exp_log h2, le_inv_comm₀ (by linarith) h2]
  rw [inv_eq_one_div, le_div_iff₀ (by linarith)]
  nlinarith

theorem exp_dist {θ t : ℝ} (h : |θ| ≤ t) : |Real.exp θ - 1| ≤ Real.exp t - 1 := by
  obtain ⟨h1, h2⟩ := abs_le.mp h
  have a := Real.exp_le_exp.mpr h2
  have b := Real.exp_le_exp.mpr h1
  have c : 2 ≤ Real.exp t + Real.exp (-t) := by
    have p := Real.exp_pos t
    have e : Real.exp t * Real.exp (-t) = 1 := by rw [← Real.exp_add]; simp
    nlinarith [sq_nonneg (Real.exp t - 1), Real.exp_pos (-t)]
  rw [abs_le]
  constructor <;> linarith

theorem err_of_near {k : ℕ} {x y : ℝ} (h : Near ε k x y) : Off ε k |x| x y := by
  obtain ⟨θ, h1, rfl⟩ := h
  refine ⟨le_rfl, ?_⟩
  rw [show x * Real.exp θ - x = (Real.exp θ - 1) * x by ring, abs_mul]
  exact mul_le_mul_of_nonneg_right (exp_dist h1) (abs_nonneg _)

theorem err_mono (h0 : 0 ≤ ε) (h1 : ε < 1) {k l : ℕ} {m n x y : ℝ} (hk : k ≤ l) (hm : m ≤ n) (h : Off ε k m x y) :
    Off ε l n x y :=
  ⟨h.1.trans hm, h.2.trans (mul_le_mul (grow_mono h0 h1 hk) hm ((abs_nonneg _).trans h.1) (grow_nonneg h0 h1 l))⟩

/-- A rounding adds one. -/
theorem err_within (h0 : 0 ≤ ε) (h1 : ε < 1) {k : ℕ} {m x y z : ℝ} (h : Off ε k m x y) (hr : Within ε y z) :
    Off ε (k + 1) m x z := by
  refine ⟨h.1, ?_⟩
  have e := err_round h0 h.2 hr
  refine e.trans ?_
  have o := one_add_le h0 h1
  have g := grow_nonneg h0 h1 k
  have m0 : 0 ≤ m := (abs_nonneg _).trans h.1
  rw [grow_add]
  have q1 : ε * |x| ≤ ε * m := mul_le_mul_of_nonneg_left h.1 h0
  set E := Real.exp (k * step ε)
  set F := Real.exp ((1 : ℕ) * step ε)
  have q2 : (1 + ε) * E * m ≤ E * F * m := by
    refine mul_le_mul_of_nonneg_right ?_ m0
    rw [mul_comm E F]
    exact mul_le_mul_of_nonneg_right o (by linarith)
  nlinarith

theorem err_plus (h0 : 0 ≤ ε) (h1 : ε < 1) {k l : ℕ} {m n x y x' y' : ℝ} (h : Off ε k m x y) (h' : Off ε l n x' y') :
    Off ε (max k l) (m + n) (x + x') (y + y') := by
  have a := err_mono h0 h1 (le_max_left k l) le_rfl h
  have b := err_mono h0 h1 (le_max_right k l) le_rfl h'
  refine ⟨(abs_add_le _ _).trans (add_le_add a.1 b.1), ?_⟩
  rw [show y + y' - (x + x') = (y - x) + (y' - x') by ring, mul_add]
  exact (abs_add_le _ _).trans (add_le_add a.2 b.2)

theorem err_neg {k : ℕ} {m x y : ℝ} (h : Off ε k m x y) : Off ε k m (-x) (-y) := by
  refine ⟨by rw [abs_neg]; exact h.1, ?_⟩
  rw [show -y - -x = -(y - x) by ring, abs_neg]
  exact h.2

theorem err_times (h0 : 0 ≤ ε) (h1 : ε < 1) {k l : ℕ} {m n x y x' y' : ℝ} (h : Off ε k m x y) (h' : Off ε l n x' y') :
    Off ε (k + l) (m * n) (x * x') (y * y') := by
  have m0 : 0 ≤ m := (abs_nonneg _).trans h.1
  have n0 : 0 ≤ n := (abs_nonneg _).trans h'.1
  refine ⟨by rw [abs_mul]; exact mul_le_mul h.1 h'.1 (abs_nonneg _) m0, ?_⟩
  have g := grow_nonneg h0 h1 k
  have g' := grow_nonneg h0 h1 l
  rw [show y * y' - x * x' = (y - x) * x' + (x * (y' - x') + (y - x) * (y' - x')) by ring, grow_add]
  have a1 : |(y - x) * x'| ≤ (Real.exp (k * step ε) - 1) * m * n := by
    rw [abs_mul]; exact mul_le_mul h.2 h'.1 (abs_nonneg _) (by positivity)
  have a2 : |x * (y' - x')| ≤ m * ((Real.exp (l * step ε) - 1) * n) := by
    rw [abs_mul]; exact mul_le_mul h.1 h'.2 (abs_nonneg _) m0
  have a3 : |(y - x) * (y' - x')| ≤ (Real.exp (k * step ε) - 1) * m * ((Real.exp (l * step ε) - 1) * n) := by
    rw [abs_mul]; exact mul_le_mul h.2 h'.2 (abs_nonneg _) (by positivity)
  refine (abs_add_le _ _).trans ?_
  have := abs_add_le (x * (y' - x')) ((y - x) * (y' - x'))
  nlinarith

theorem err_log (h0 : 0 ≤ ε) (h1 : ε < 1) {k : ℕ} {x y z : ℝ} (hx : 0 < x) (h : Near ε k x y)
    (hr : Within ε (Real.log y) z) : Off ε (k + 1) (|Real.log x| + 1) (Real.log x) z := by
  refine err_within h0 h1 ?_ hr
  obtain ⟨θ, h2, rfl⟩ := h
  refine ⟨by linarith, ?_⟩
  rw [Real.log_mul hx.ne' (Real.exp_pos _).ne', Real.log_exp, add_sub_cancel_left]
  have a := Real.add_one_le_exp (k * step ε)
  have b := abs_nonneg (Real.log x)
  have c : 0 ≤ k * step ε := (abs_nonneg _).trans h2
  nlinarith

/-- The error of a formula. -/
theorem Sm.err (h0 : 0 ≤ ε) (h1 : ε < 1) (hA : Accurate ε A) (s : Sm) (hl : s.Logs) :
    Off ε s.cost s.mag (s.eval exact) (s.eval A) := by
  induction s with
  | ex e => exact err_of_near (eval_near h0 h1 hA e)
  | add a b ia ib => exact err_within h0 h1 (err_plus h0 h1 (ia hl.1) (ib hl.2)) (hA.add _ _)
  | sub a b ia ib =>
    refine err_within h0 h1 (y := a.eval A - b.eval A) ?_ (hA.sub _ _)
    have := err_plus h0 h1 (ia hl.1) (err_neg (ib hl.2))
    rw [← sub_eq_add_neg, ← sub_eq_add_neg] at this
    exact this
  | mul a b ia ib => exact err_within h0 h1 (err_times h0 h1 (ia hl.1) (ib hl.2)) (hA.mul _ _)
  | quo a e ia =>
    refine err_within h0 h1 (y := a.eval A / e.eval A) ?_ (hA.div _ _)
    have := err_times h0 h1 (ia hl) (err_of_near (near_inv (eval_near h0 h1 hA e)))
    rw [← div_eq_mul_inv, ← div_eq_mul_inv, abs_inv, ← div_eq_mul_inv] at this
    exact this
  | log e =>
    have n := eval_near h0 h1 hA e
    exact err_log h0 h1 hl n (hA.log _ (near_pos n hl))

theorem err_abs (h0 : 0 ≤ ε) {k : ℕ} (hk : k * ε ≤ 1e-3) (h1 : ε ≤ 1e-3) {m x y : ℝ} (h : Off ε k m x y) :
    |y - x| ≤ 1.01 * k * ε * m := by
  refine h.2.trans (mul_le_mul_of_nonneg_right ?_ ((abs_nonneg _).trans h.1))
  have hn : Near ε k 1 (Real.exp (k * step ε)) := ⟨k * step ε, by
    rw [abs_of_nonneg (mul_nonneg (Nat.cast_nonneg _) (step_nonneg h0 (by linarith)))], by simp⟩
  have := within_of_near h0 hk h1 hn
  unfold Within at this
  rw [abs_one, mul_one] at this
  exact (le_abs_self _).trans this

end PyroMat.Float
