import Verif.Mp.SpecUnits

/-!
# Vocabulary for the limit of vanishing density
-/

namespace PyroMat.Shipped.Spec

open PyroMat PyroMat.Units PyroMat.Gas PyroMat.Gas.Spec PyroMat.Mp PyroMat.Mp.Spec

/-- Within `ε`. -/
def Near (ε x y : ℝ) : Prop := |x - y| ≤ ε

/-- At the temperature `t` and the density `y`, both as the caller writes them, the methods answer as an ideal
gas does, to within `ε`: with `T` and `d` the temperature in K and the density in kg/m³ and everything in SI units
per kg, the pressure is `d R T` (relative error `ε`), energy `e`, enthalpy `e + R T`, entropy `s − R log d`, heat
capacities `c` and `c + R`, and the speed of sound the square root of `R T (c + R) / c`.  The numbers `e`, `s` and
`c` are those of the temperature alone. -/
def IdealGasWithin (E : Env) (U : Sys) (l sec : String) (B : Sub) (S : Sol) (R ε e s c t y : ℝ) : Prop :=
  let T := toKelvin U.T.name t
  let call := [("T", Val.scalar t), ("d", Val.scalar y)]
  let si := internalKg E.a U B.mw
  let d := si .density y
  ∃ p' e' h' s' cv' cp' a',
    MpGives E B S [] call .p 0 p' ∧ Near ε (si .pressure p' / (d * R * T)) 1 ∧
    MpGives E B S [] call .e 0 e' ∧ Near ε (si .energy e') e ∧
    MpGives E B S [] call .h 0 h' ∧ Near ε (si .energy h') (e + R * T) ∧
    MpGives E B S [] call .s 0 s' ∧ Near ε (si .entropy s') (s - R * Real.log d) ∧
    MpGives E B S [] call .cv 0 cv' ∧ Near ε (si .entropy cv') c ∧
    mpCp E B S [] call = .ok [.fin cp'] ∧ Near ε (si .entropy cp') (c + R) ∧
    mpA E B S [] call = .ok [some a'] ∧ Near ε (siSpeed l sec a') (Real.sqrt (R * T * ((c + R) / c)))

end PyroMat.Shipped.Spec
