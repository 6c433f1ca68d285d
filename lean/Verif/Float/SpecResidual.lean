import Verif.Float.SpecPoly
import Verif.Mp.SpecHelm

/-!
# Specification vocabulary for rounding errors of the pressure

The sizes of the terms of the documented residual part (see `arVal`), and of its derivatives by reduced temperature and reduced density, with
all parts taken positive.
-/

namespace PyroMat.Float.Spec

open PyroMat.Mp

/-- The terms of a Gaussian row, except for the part in front of its derivative. -/
noncomputable def gaussSize (r : Row1) (t d : ℝ) : ℝ :=
  |r.c| * d ^ r.d * t ^ r.t * Real.exp (-r.a * (d - r.ep) ^ 2 - r.b * (t - r.gam) ^ 2)

/-- The size of what stands in the exponential of a Gaussian row. -/
noncomputable def gaussArg (r : Row1) (t d : ℝ) : ℝ := |r.a| * (d + |r.ep|) ^ 2 + |r.b| * (t + |r.gam|) ^ 2

/-- The sizes for the polynomials with exponential `exp(-d^k)`, counting from `k`. -/
noncomputable def expsSize (t d : ℝ) : List (List Group2) → Nat → ℝ
  | [], _ => 0
  | gs :: rest, k => sizeAt 0 0 gs t d * Real.exp (-d ^ k) + expsSize t d rest (k + 1)

/-- ... of the derivative by `t`, ... -/
noncomputable def expsSizeT (t d : ℝ) : List (List Group2) → Nat → ℝ
  | [], _ => 0
  | gs :: rest, k => sizeAt 1 0 gs t d * Real.exp (-d ^ k) + expsSizeT t d rest (k + 1)

/-- ... and by `d`. -/
noncomputable def expsSizeD (t d : ℝ) : List (List Group2) → Nat → ℝ
  | [], _ => 0
  | gs :: rest, k => Real.exp (-d ^ k) * (sizeAt 0 0 gs t d * (k * d ^ k / d) + sizeAt 0 1 gs t d) + expsSizeD t d rest (k + 1)

/-- The size of the residual part, ... -/
noncomputable def arSize (coef0 : List (List Group2)) (coef1 : List Row1) (t d : ℝ) : ℝ :=
  sizeAt 0 0 (coef0.headD []) t d + expsSize t d coef0.tail 1 + (coef1.map fun r => gaussSize r t d).sum

/-- ... of its derivative by reduced temperature, ... -/
noncomputable def arSizeT (coef0 : List (List Group2)) (coef1 : List Row1) (t d : ℝ) : ℝ :=
  sizeAt 1 0 (coef0.headD []) t d + expsSizeT t d coef0.tail 1 +
    (coef1.map fun r => gaussSize r t d * (|r.t| / t + 2 * |r.b| * (t + |r.gam|))).sum

/-- ... and by reduced density. -/
noncomputable def arSizeD (coef0 : List (List Group2)) (coef1 : List Row1) (t d : ℝ) : ℝ :=
  sizeAt 0 1 (coef0.headD []) t d + expsSizeD t d coef0.tail 1 +
    (coef1.map fun r => gaussSize r t d * (|r.d| / d + 2 * |r.a| * (d + |r.ep|))).sum

/-- Residual data of the documented form, with bounds: exponents inside the polynomials up to `nx` and `ny`, at most `ng`
groups in a polynomial, exponents outside up to `w`. -/
structure Bounded (coef0 : List (List Group2)) (coef1 : List Row1) (nx ny ng w : Nat) : Prop where
  some : coef0 ≠ []
  sorted : ∀ gs ∈ coef0, ∀ g ∈ gs, Mp.Spec.Sorted2 g
  pre : ∀ gs ∈ coef0, ∀ g ∈ gs, g.prex = 1 → g.prey = 1
  inside : ∀ gs ∈ coef0, ∀ g ∈ gs, ∀ t ∈ g.terms, t.1 ≤ nx ∧ t.2.1 ≤ ny
  groups : ∀ gs ∈ coef0, gs.length ≤ ng
  outside : ∀ gs ∈ coef0, ∀ g ∈ gs, (|g.prex| ≤ w ∧ |g.postx| ≤ w) ∧ |g.prey| ≤ w ∧ |g.posty| ≤ w
  rows : ∀ r ∈ coef1, |r.t| ≤ w ∧ |r.d| ≤ w

/-- A state in which no argument of an exponential is larger than `M`. -/
structure Moderate (coef0 : List (List Group2)) (coef1 : List Row1) (M : Nat) (t d : ℝ) : Prop where
  powers : ∀ k : Nat, k < coef0.length → d ^ k ≤ M
  rows : ∀ r ∈ coef1, gaussArg r t d ≤ M

/-- The number of roundings. -/
def roundings (nx ny ng w M n m : Nat) : Nat :=
  (nx + ny + 2) * (2 * w + 5) + ng + (n + 8) * (2 * w + 3) + (2 * n * (2 * w + 3) + 4 * (2 * w + 3) + 8) * M + n + m + 24

end PyroMat.Float.Spec
