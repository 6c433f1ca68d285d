import Verif.Float.Arith
import Verif.Units.Model
import Mathlib.Data.Real.Basic

/-!
# Specification of C104: what it means that a rounded call agrees with an exact one
-/

namespace PyroMat.Float

open PyroMat PyroMat.Units

/-- Two returned values agree: both scalars or both arrays of one length, each number `y` of the second standing
to the number `x` of the first in the relation `R`. -/
def ValRel (R : ℝ → ℝ → Prop) : Val ℝ → Val ℝ → Prop
  | .scalar x, .scalar y => R x y
  | .arr xs, .arr ys => List.Forall₂ R xs ys
  | _, _ => False

/-- Two calls agree: both raise the same exception, or both return, the values returned and what is left in the
caller's object agree, and both or neither return the caller's own object. -/
def Agrees (R : ℝ → ℝ → Prop) : Except Err (Res ℝ) → Except Err (Res ℝ) → Prop
  | .error e, .error e' => e = e'
  | .ok r, .ok r' => ValRel R r.ret r'.ret ∧ ValRel R r.caller r'.caller ∧ r.isAlias = r'.isAlias
  | _, _ => False

end PyroMat.Float
