import Verif.Float.Gas
import Verif.Gas.Spec
import Verif.Shipped.Basic

/-!
# Specification of C105
-/

namespace PyroMat.Float

open PyroMat PyroMat.Units PyroMat.Gas PyroMat.Gas.Spec PyroMat.Shipped

/-- The method of the exact model. -/
def Q.quantity : Q → Quantity
  | .cp => .cp | .cv => .cv | .h => .h | .e => .e | .s => .s | .g => .g | .f => .f

/-- The kind of quantity a method returns, by the units it is given in. -/
def Q.kind : Q → Kind
  | .cp | .cv | .s => .entropy
  | .h | .e | .g | .f => .energy

/-- The size of what is added up for a property at the temperature `T` (in K), `l` being the logarithm of the pressure over
the reference pressure, in kJ/kmol or kJ/kmol/K: a bound for all shipped gases. -/
noncomputable def weight : Q → ℝ → ℝ → ℝ
  | .cp, _, _ | .cv, _, _ => 20010
  | .h, T, _ | .e, T, _ => 5e6 + 20010 * T
  | .s, _, l => 28010 + 9 * |l|
  | .g, T, l | .f, T, l => 5e6 + (28020 + 9 * |l|) * T

/-- The formulas of the class of a data file. -/
noncomputable def fileForms (f : File) : Forms :=
  match f.cls with
  | .ig => igForms
  | .ig2 => ig2Forms f.data.pref

/-- The limit `L` of a gas is not mistaken for being on the other side of the temperature `T`: either no number is
rounded, or the temperature is not within the rounding of the limit and of its own conversion. -/
def Clear (ε : ℝ) (A : Arith) (S : Sys) (T L : ℝ) : Prop :=
  S.T = .K ∧ A.lit L = L ∨ ε * L + 4.1 * ε * (T + 300) < |T - L|

end PyroMat.Float
