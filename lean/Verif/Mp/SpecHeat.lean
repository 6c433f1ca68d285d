import Verif.Mp.SpecCv
import Verif.Mp.SpecUnits

/-!
# Vocabulary for heat capacity at constant pressure and speed of sound
-/

namespace PyroMat.Mp.Spec

open PyroMat PyroMat.Mp PyroMat.Gas PyroMat.Gas.Spec PyroMat.Units

/-- Along densities `y u` around the temperature `t`, the enthalpy the method `h` returns is a
differentiable function of temperature, and its derivative at `t` is what the method `cp` returns. -/
def CpIsSlope (E : Env) (B : Sub) (S : Sol) (t : ℝ) (y : ℝ → ℝ) : Prop :=
  ∃ (h : ℝ → ℝ) (c : ℝ),
    (∀ᶠ u in nhds t, MpGives E B S [] [("T", .scalar u), ("d", .scalar (y u))] .h 0 (h u)) ∧
    mpCp E B S [] [("T", .scalar t), ("d", .scalar (y t))] = .ok [.fin c] ∧ HasDerivAt h c t

/-- Along temperatures `t r` for densities around `r0` kg/m3, the pressure the method `p` returns is, in
Pa, a differentiable function of the density, and the speed the method `a` returns is, in m/s, the
square root of its derivative. -/
def SoundIsSlope (E : Env) (U : Sys) (l s : String) (B : Sub) (S : Sol) (t : ℝ → ℝ) (r0 : ℝ) : Prop :=
  let call := fun r => [("T", Val.scalar (t r)), ("d", Val.scalar (inUnitsKg E.a U B.mw .density r))]
  ∃ (p : ℝ → ℝ) (p' c : ℝ),
    (∀ᶠ r in nhds r0, MpGives E B S [] (call r) .p 0 (p r)) ∧ mpA E B S [] (call r0) = .ok [some c] ∧
    HasDerivAt (fun r => internalKg E.a U B.mw .pressure (p r)) p' r0 ∧ siSpeed l s c = Real.sqrt p'

end PyroMat.Mp.Spec
