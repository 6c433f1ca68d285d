import Mathlib.Analysis.SpecialFunctions.Log.Basic
import Mathlib.Algebra.Order.Round
import Mathlib.Data.Int.Log

/-!
# Floating-point arithmetic

The other parts of the model compute with real numbers.  Here a computation is carried out with rounded operations:
each returns the exact value of the operation with a relative error of at most `ε`.  For IEEE double precision
without overflow and underflow that holds with `ε = 2⁻⁵²` of `+ - * /`, of reading a decimal literal (all five
are correctly rounded, `2⁻⁵³`) and of `pow`, `log` in any library whose error is below one unit in the last place.
Nothing else about rounding is assumed.
-/

namespace PyroMat.Float

/-- `y` is `x` with a relative error of at most `ε`. -/
def Within (ε x y : ℝ) : Prop := |y - x| ≤ ε * |x|

/-- Rounded operations on real numbers. -/
structure Arith where
  /-- the number a decimal literal is read as -/
  lit : ℝ → ℝ
  add : ℝ → ℝ → ℝ
  sub : ℝ → ℝ → ℝ
  mul : ℝ → ℝ → ℝ
  div : ℝ → ℝ → ℝ
  pow : ℝ → ℤ → ℝ
  log : ℝ → ℝ

/-- Every operation is accurate to `ε`. -/
structure Accurate (ε : ℝ) (A : Arith) : Prop where
  lit : ∀ x, Within ε x (A.lit x)
  add : ∀ x y, Within ε (x + y) (A.add x y)
  sub : ∀ x y, Within ε (x - y) (A.sub x y)
  mul : ∀ x y, Within ε (x * y) (A.mul x y)
  div : ∀ x y, Within ε (x / y) (A.div x y)
  pow : ∀ x n, Within ε (x ^ n) (A.pow x n)
  log : ∀ x, 0 < x → Within ε (Real.log x) (A.log x)

/-- Arithmetic without rounding. -/
noncomputable def exact : Arith where
  lit x := x
  add x y := x + y
  sub x y := x - y
  mul x y := x * y
  div x y := x / y
  pow x n := x ^ n
  log x := Real.log x

theorem exact_accurate : Accurate 0 exact := by
  constructor <;> intros <;> simp [Within, exact]

/-- Rounding to 53 significant binary digits, exponents without bound. -/
noncomputable def round53 (x : ℝ) : ℝ :=
  (round (x * 2 ^ (52 - Int.log 2 |x|)) : ℝ) / 2 ^ (52 - Int.log 2 |x|)

theorem round53_within (x : ℝ) : Within (2 ^ (-53 : ℤ)) x (round53 x) := by
  unfold Within round53
  by_cases h0 : x = 0
  · simp [h0]
  have hx : 0 < |x| := abs_pos.mpr h0
  set k : ℤ := 52 - Int.log 2 |x| with hk
  have hp : (0 : ℝ) < 2 ^ k := by positivity
  have h1 : |(round (x * 2 ^ k) : ℝ) - x * 2 ^ k| ≤ 1 / 2 := by
    rw [abs_sub_comm]; exact abs_sub_round _
  have h2 : (2 : ℝ) ^ Int.log 2 |x| ≤ |x| := by
    have := Int.zpow_log_le_self (b := 2) (by norm_num) hx
    simpa using this
  have e : (round (x * 2 ^ k) : ℝ) / 2 ^ k - x = ((round (x * 2 ^ k) : ℝ) - x * 2 ^ k) / 2 ^ k := by
    field_simp
  rw [e, abs_div, abs_of_pos hp, div_le_iff₀ hp]
  refine h1.trans ?_
  have e2 : (2 : ℝ) ^ k = 2 ^ (52 : ℤ) / 2 ^ Int.log 2 |x| := by
    rw [hk, zpow_sub₀ (by norm_num)]
  have h3 : (0 : ℝ) < 2 ^ Int.log 2 |x| := by positivity
  rw [e2, mul_assoc, mul_div_assoc', mul_comm |x|, mul_div_assoc]
  have h4 : 1 ≤ |x| / 2 ^ Int.log 2 |x| := by rw [le_div_iff₀ h3]; linarith
  have : (2 : ℝ) ^ (-53 : ℤ) * (2 ^ (52 : ℤ) * 1) = 1 / 2 := by norm_num [zpow_neg]
  calc (1 : ℝ) / 2 = 2 ^ (-53 : ℤ) * (2 ^ (52 : ℤ) * 1) := this.symm
    _ ≤ _ := by gcongr

/-- Double precision without overflow and underflow: every result rounded to 53 binary digits. -/
noncomputable def double : Arith where
  lit x := round53 x
  add x y := round53 (x + y)
  sub x y := round53 (x - y)
  mul x y := round53 (x * y)
  div x y := round53 (x / y)
  pow x n := round53 (x ^ n)
  log x := round53 (Real.log x)

theorem double_accurate : Accurate (2 ^ (-53 : ℤ)) double := by
  constructor <;> intros <;> exact round53_within _

/-- It does round: one third is not a double. -/
example : double.div 1 3 ≠ 1 / 3 := by
  intro h
  simp only [double, round53] at h
  set k : ℤ := 52 - Int.log 2 |(1 : ℝ) / 3|
  have hk : k = 54 := by
    have : Int.log 2 |(1 : ℝ) / 3| = -2 := by
      rw [abs_of_pos (by norm_num)]
      apply le_antisymm
      · have := (Int.lt_zpow_iff_log_lt (b := 2) (by norm_num) (show (0:ℝ) < 1 / 3 by norm_num) (x := -1)).mp
          (by norm_num [zpow_neg])
        omega
      · exact (Int.zpow_le_iff_le_log (b := 2) (by norm_num) (by norm_num)).mp (by norm_num [zpow_neg])
    omega
  rw [hk] at h
  field_simp at h
  have h' : 3 * round (((2 ^ 54 : ℕ) : ℝ) / 3) = ((2 ^ 54 : ℕ) : ℤ) := by exact_mod_cast h
  norm_num at h'

end PyroMat.Float
