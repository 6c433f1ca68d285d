import Verif.Float.Gas

/-!
# Model of density, volume, pressure and temperature of ideal gases with rounded arithmetic

`d`, `v`, `p` and `T` of `/repo/src/pyromat/registry/ig.py` and `ig2.py` for calls with single numbers, each arithmetic
operation of the code being one operation of an `Arith`, in the order of the code.  `mw`, `lo` and `hi` are the
molecular weight and the limits of the data file: decimals read as doubles.
-/

namespace PyroMat.Float

open PyroMat PyroMat.Units PyroMat.Gas

/-- `R = 1000 * const_Ru` (`ig.py:222`). -/
noncomputable def RF (A : Arith) : ℝ := A.mul 1000 (RuE.eval A)

/-- The temperature in K (`ig.py:183`). -/
noncomputable def kelvinF (A : Arith) (E : Env) (t : ℝ) : Except Err ℝ :=
  scalarOf (temperatureScaleF A E.c.str (.scalar t) none (some "K") false)

/-- The pressure in Pa (`ig.py:185`). -/
noncomputable def pascalF (A : Arith) (E : Env) (p : ℝ) : Except Err ℝ :=
  scalarOf (callF A ((pressureT E.a).build A) E.c.str (.scalar p) none (some "Pa") none false)

/-- The density in kmol/m3 (`ig.py:187-188`). -/
noncomputable def densityF (A : Arith) (E : Env) (mw d : ℝ) : Except Err ℝ := do
  let x ← scalarOf (callF A (volumeT.build A) E.c.str (.scalar d) none (some "m3") (some (-1)) false)
  scalarOf (matterF A E.a E.c.str (.scalar x) mw none (some "kmol") none false)

open Classical in
/-- The test for out-of-bounds temperatures (`ig.py:289-296`). -/
noncomputable def boundsF (A : Arith) (lo hi T : ℝ) : Except Err Unit :=
  if T < A.lit lo ∨ A.lit hi < T then .error .param else .ok ()

/-- `d(T, p)` (`ig.py:1450-1456`). -/
noncomputable def lawD (A : Arith) (E : Env) (mw lo hi t p : ℝ) : Except Err ℝ := do
  let T ← kelvinF A E t
  let P ← pascalF A E p
  boundsF A lo hi T
  let d := A.div P (A.mul (RF A) T)
  let s ← scalarOf (matterF A E.a E.c.str (.scalar 1) (A.lit mw) (some "kmol") none none false)
  let s ← scalarOf (callF A (volumeT.build A) E.c.str (.scalar s) (some "m3") none (some (-1)) false)
  .ok (A.mul d s)

/-- `v(T, p)` (`ig.py:1479`). -/
noncomputable def lawV (A : Arith) (E : Env) (mw lo hi t p : ℝ) : Except Err ℝ := do
  let d ← lawD A E mw lo hi t p
  .ok (A.div 1 d)

/-- `p(T=, d=)` (`ig.py:1533-1537`). -/
noncomputable def lawP (A : Arith) (E : Env) (mw lo hi t d : ℝ) : Except Err ℝ := do
  let T ← kelvinF A E t
  let d ← densityF A E (A.lit mw) d
  boundsF A lo hi T
  let P := A.mul (A.mul (A.mul d 1000) (RuE.eval A)) T
  scalarOf (callF A ((pressureT E.a).build A) E.c.str (.scalar P) (some "Pa") none none true)

/-- `T(p=, d=)` (`ig.py:270-275`, `1508-1510`). -/
noncomputable def lawT (A : Arith) (E : Env) (mw lo hi p d : ℝ) : Except Err ℝ := do
  let P ← pascalF A E p
  let d ← densityF A E (A.lit mw) d
  let T := A.div P (A.mul (RF A) d)
  boundsF A lo hi T
  scalarOf (temperatureScaleF A E.c.str (.scalar T) (some "K") none true)

end PyroMat.Float
