import Verif.Float.Law

/-!
# Model of the property methods of ideal gases with rounded arithmetic, for arrays

The methods of `Verif/Float/Gas.lean` called with arrays of temperatures and of pressures, densities or specific volumes.
Simplification: the conversions, which the code applies to whole arrays, are applied to one element after the other;
arrays have one dimension.
-/

namespace PyroMat.Float

open PyroMat PyroMat.Units PyroMat.Gas

/-- What is given beside the temperature. -/
inductive Given
  | p | d | v

/-- The density in kmol/m3 from a specific volume (`ig.py:191-192`). -/
noncomputable def volumeF (A : Arith) (E : Env) (mw v : ℝ) : Except Err ℝ := do
  let x ← scalarOf (callF A (volumeT.build A) E.c.str (.scalar v) none (some "m3") none false)
  let x ← scalarOf (matterF A E.a E.c.str (.scalar x) mw none (some "kmol") (some (-1)) false)
  .ok (A.div 1 x)

/-- The pressure in Pa as a function of the temperature in K: the one that is given (`ig.py:185`), or
`d * (1000*const_Ru * T)` (`ig.py:187-192`, `1707-1708`, `1743-1744`, `1777-1778`; `ig2.py:1180-1181`, `1246-1247`,
`1279-1280`). -/
noncomputable def pressF (A : Arith) (E : Env) (mw : ℝ) (g : Given) (x : ℝ) : Except Err (ℝ → ℝ) :=
  match g with
  | .p => do
    let P ← pascalF A E x
    .ok fun _ => P
  | .d => do
    let d ← densityF A E mw x
    .ok fun T => A.mul d (A.mul (RF A) T)
  | .v => do
    let d ← volumeF A E mw x
    .ok fun T => A.mul d (A.mul (RF A) T)

open Classical in
/-- A method called with arrays of temperatures and of pressures, densities or volumes (`ig.py:75-298`: conversions,
`broadcast_arrays`, the test against the limits, which sets `T` to `def_oob`, a NaN, where it fails; `_crange`,
`ig.py:300-316`; then the lines of `inner` and `scaleF`). -/
noncomputable def methodsF (A : Arith) (E : Env) (D : Data) (F : Forms) (q : Q) (g : Given) (ts xs : List ℝ) :
    Except Err (List Nan) := do
  let Ts ← ts.mapM (kelvinF A E)
  let Ps ← xs.mapM (pressF A E (A.lit D.mw) g)
  let (Ts, Ps) ← broadcast Ts Ps
  let Tlim := D.Tlim.map A.lit
  let out := fun T => decide (T < Tlim.headD 0 ∨ Tlim.getLastD 0 < T)
  if Ts.all out then .error .param
  else
    let c ← scaleF A E (A.lit D.mw) q
    .ok (List.zipWith (fun T P => if out T then none
      else (piecewise Tlim D.C (fun C T => inner A F q C T (P T)) T).map fun y => A.mul y c) Ts Ps)

end PyroMat.Float
