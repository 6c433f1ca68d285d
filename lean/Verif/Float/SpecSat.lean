import Verif.Mp.SpecHelm
import Verif.Float.SpecPoly

/-!
# Specification vocabulary for rounding errors of saturation curves
-/

namespace PyroMat.Float.Spec

open PyroMat.Mp PyroMat.Mp.Spec

/-- The size of the terms of a saturation fit at the reduced temperature `t`: for a polynomial the sum of the sizes of its
terms, for an exponential the value itself. -/
noncomputable def satSize : Nat → List Group1 → ℝ → ℝ
  | 0, gs, t => size0 gs t
  | 1, gs, t => size0 gs (1 - t)
  | n + 2, gs, t => satAt (n + 2) gs t

/-- The size of the terms in the argument of the exponential, if there is one. -/
noncomputable def argSize : Nat → List Group1 → ℝ → ℝ
  | 0, _, _ => 0
  | 1, _, _ => 0
  | 2, gs, t => size0 gs (1 - t)
  | _, gs, t => size0 gs (1 - t) / t

/-- The number of roundings: `n` and `w` bound the exponents inside and outside, `Q` the loss of digits in `1 - t`, `M` the
argument of the exponential; `k` groups. -/
def satRoundings (n w Q M k : Nat) : Nat :=
  2 * ((n + 1) * (6 * Q * w + 3) + 6 * Q * w + 6 + k) * (M + 1) + 3

end PyroMat.Float.Spec
