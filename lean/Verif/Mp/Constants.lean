import Verif.Mp.Methods

/-!
# Constants and limits of a multi-phase substance

Model of the user routines of `/repo/src/pyromat/registry/mp1.py` that return numbers of the data file
in the working units.
-/

namespace PyroMat.Mp

open PyroMat PyroMat.Units PyroMat.Gas

/-- A chain of unit conversions of one number. -/
noncomputable def convOne (fs : List (Val ℝ → Except Err (Res ℝ))) (x : ℝ) : Except Err ℝ :=
  fs.foldlM (fun x f => scalarOf (f (.scalar x))) x

section
variable (E : Env) (B : Sub)

/-- `Tlim(p)` (`mp1.py:3271-3283`): the argument is ignored; an array of two. -/
noncomputable def mpTlim : Except Err (List Nan) := convOut (outTemperature E) [some B.Tlo, some B.Thi]

/-- `plim(T)` (`mp1.py:3285-3297`): the argument is ignored; an array of two. -/
noncomputable def mpPlim : Except Err (List Nan) := convOut (outPressure E) [some B.plo, some B.phi]

/-- `mw()` (`mp1.py:3302-3312`). -/
noncomputable def mpMw : Except Err ℝ :=
  convOne [fun v => (mass E.a).call E.c.str v (some "kg") none none false,
    fun v => (molar E.a).call E.c.str v (some "kmol") none (some (-1)) false] B.mw

/-- `R()` (`mp1.py:3314-3335`): the constant stored in the data, in J/kg/K. -/
noncomputable def mpR : Except Err ℝ := convOne (outEntropy E B.mw false) B.F.R

/-- `critical(density=True)` (`mp1.py:3341-3367`) of a substance with critical density `dc` (kg/m3);
without `density` the first two. -/
noncomputable def mpCritical (dc : ℝ) : Except Err (ℝ × ℝ × ℝ) := do
  let T ← convOne (outTemperature E) B.Tc
  let p ← convOne (outPressure E) B.pc
  let d ← convOne (outDensity E B.mw false) dc
  .ok (T, p, d)

/-- `triple()` (`mp1.py:3370-3380`). -/
noncomputable def mpTriple : Except Err (ℝ × ℝ) := do
  let T ← convOne (outTemperature E) B.Tt
  let p ← convOne (outPressure E) B.pt
  .ok (T, p)

end

end PyroMat.Mp
