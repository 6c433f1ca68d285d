import Verif.Gas.Spec
import Verif.Shipped.All

/-!
# What C107 speaks of
-/

namespace PyroMat.Shipped.Spec

open PyroMat PyroMat.Units PyroMat.Units.Spec PyroMat.Gas PyroMat.Gas.Spec PyroMat.Shipped

/-- The method `q` (`h()` or `e()`) of the gas returns `x` at the temperature `t0`, which is at least 50 K away from
every temperature limit of the file; and `x` is at least one joule per kilomole in size. -/
def Taken (E : Env) (S : Sys) (f : File) (q : Quantity) (x t0 : ℝ) : Prop :=
  (∃ p0, method q E f.gas [.scalar t0, .scalar p0] [] = .ok [some x]) ∧
    (∀ L ∈ f.Tlim, 50 ≤ |toKelvin S.T.name t0 - L.val|) ∧ inUnits E.a S f.gas.mw .energy 0.001 ≤ |x|

/-- The heat capacity the method `q` (`cp()` or `cv()`) returns is nowhere more than 5/3 of what it is elsewhere. -/
def Moderate (E : Env) (f : File) (q : Quantity) : Prop :=
  ∀ t t' p c c', method q E f.gas [.scalar t, .scalar p] [] = .ok [some c] →
    method q E f.gas [.scalar t', .scalar p] [] = .ok [some c'] → 3 * c ≤ 5 * c'

end PyroMat.Shipped.Spec
