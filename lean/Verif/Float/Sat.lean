import Verif.Float.Poly
import Verif.Float.Residual
import Verif.Mp.Helm

/-!
# Saturation curves with rounded operations

`_satfit`, `_ps`, `_dsl` and `_dsv` with `diff=0` of `/repo/src/pyromat/registry/mp1.py` once more (see `Verif.Mp.Helm`), with
one operation of the arithmetic for each operation of the code.  `pw` is the operation `x**y` with a real exponent and `ex`
the exponential.  The scales and the coefficients are read from decimal literals of a data file; the exponents are the
numbers held by the program.
-/

namespace PyroMat.Float

open PyroMat PyroMat.Mp

/-- The value of `_satfit` (`mp1.py:1828-1875`).  Another `fn` leaves the result unassigned. -/
noncomputable def satFit (A : Arith) (pw : ℝ → ℝ → ℝ) (ex : ℝ → ℝ) (tt : ℝ) (fn : Nat) (gs : List Group1) : Except Err ℝ :=
  match fn with
  | 0 => (poly1 A pw tt gs 0).map (·.p)
  | 1 => (poly1 A pw (A.sub 1 tt) gs 0).map (·.p)
  | 2 => (poly1 A pw (A.sub 1 tt) gs 0).map fun s => ex s.p
  | 3 => (poly1 A pw (A.sub 1 tt) gs 0).map fun s => ex (A.mul s.p (A.div 1 tt))
  | _ => .error .unboundLocal

/-- The value of `_ps`, `_dsl` and `_dsv` (`mp1.py:1878-1920`, `2017-2040`), which are the same code on their own data. -/
noncomputable def satCurve (A : Arith) (pw : ℝ → ℝ → ℝ) (ex : ℝ → ℝ) (g : SatGroup) (T : ℝ) : Except Err ℝ :=
  (satFit A pw ex (A.div T (A.lit g.Tscale)) g.fn g.coef).map fun s => A.mul s (A.lit g.scale)

end PyroMat.Float
