import Verif.Mp.Spec

/-!
# Specification vocabulary for rounding errors of polynomials

The size of the terms of `x^post * sum of c * (x^pre)^i`, and of their first and second derivatives: what is added up in an
evaluation, with all terms taken positive.
-/

namespace PyroMat.Float.Spec

open PyroMat.Mp

/-- The sum of the sizes of the terms. -/
noncomputable def size0 (gs : List Group1) (x : ℝ) : ℝ :=
  (gs.map fun g => x ^ g.post * (g.terms.map fun t => |t.2| * (x ^ g.pre) ^ t.1).sum).sum

/-- ... of their first derivatives, ... -/
noncomputable def size1 (gs : List Group1) (x : ℝ) : ℝ :=
  (gs.map fun g => x ^ g.post / x *
    (g.terms.map fun t => (|g.pre| * t.1 + |g.post|) * (|t.2| * (x ^ g.pre) ^ t.1)).sum).sum

/-- ... and of their second derivatives. -/
noncomputable def size2 (gs : List Group1) (x : ℝ) : ℝ :=
  (gs.map fun g => x ^ g.post / x ^ 2 *
    (g.terms.map fun t => (g.pre ^ 2 * (t.1 * (t.1 - 1)) + |g.pre| * |g.pre - 1| * t.1 + 2 * |g.pre| * |g.post| * t.1
      + |g.post| * |g.post - 1|) * (|t.2| * (x ^ g.pre) ^ t.1)).sum).sum


/-! ## Two variables -/

/-- What the `a`-th derivative of `x^post * (x^pre)^i` by `x` brings down, all parts taken positive (`a` is 0, 1 or 2). -/
noncomputable def weight (pre post : ℝ) (i : Nat) : Nat → ℝ
  | 0 => 1
  | 1 => |pre| * i + |post|
  | _ => pre ^ 2 * (i * (i - 1)) + |pre| * |pre - 1| * i + 2 * |pre| * |post| * i + |post| * |post - 1|

/-- The sum of the sizes of the terms of the derivative of a polynomial, `a` times by `x` and `b` times by `y`. -/
noncomputable def sizeAt (a b : Nat) (gs : List Group2) (x y : ℝ) : ℝ :=
  (gs.map fun g => x ^ g.postx / x ^ a * (y ^ g.posty / y ^ b) * (g.terms.map fun t =>
    weight g.prex g.postx t.1 a * weight g.prey g.posty t.2.1 b * (|t.2.2| * (x ^ g.prex) ^ t.1 * (y ^ g.prey) ^ t.2.1)).sum).sum

end PyroMat.Float.Spec
