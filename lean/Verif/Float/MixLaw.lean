import Verif.Float.Law
import Verif.Float.Mix

/-!
# Model of density, volume and pressure of ideal-gas mixtures with rounded arithmetic

`d` and `v` of `/repo/src/pyromat/registry/igmix.py`, called with one temperature and one pressure, and `p`, called with
one temperature and one density.
-/

namespace PyroMat.Float

open PyroMat PyroMat.Units PyroMat.Gas

/-- The conversion of a density to the units of the user, in place (`igmix.py:713-714`). -/
noncomputable def densityOutF (A : Arith) (E : Env) (mw d : ℝ) : Except Err ℝ := do
  let d ← scalarOf (matterF A E.a E.c.str (.scalar d) mw (some "kmol") none none true)
  scalarOf (callF A (volumeT.build A) E.c.str (.scalar d) (some "m3") none (some (-1)) true)

open Classical in
/-- `d(T, p)` of a mixture (`igmix.py:707-715`): `d = p / (1000 * Ru * T)`.  The test against the limits of the mixture is
a test against those of each constituent, as in `mixMethodF`. -/
noncomputable def mixD (A : Arith) (E : Env) (bymass : Bool) (ps : List Part) (t p : ℝ) : Except Err ℝ := do
  let T ← kelvinF A E t
  let P ← pascalF A E p
  if ∃ c ∈ ps, T < A.lit (c.data.Tlim.headD 0) ∨ A.lit (c.data.Tlim.getLastD 0) < T then .error .param
  else densityOutF A E (mwF A bymass ps) (A.div P (A.mul (RF A) T))

/-- `v(T, p)` of a mixture: `1. / self.d(...)` (`igmix.py:738`). -/
noncomputable def mixV (A : Arith) (E : Env) (bymass : Bool) (ps : List Part) (t p : ℝ) : Except Err ℝ := do
  let d ← mixD A E bymass ps t p
  .ok (A.div 1 d)

open Classical in
/-- `p(T=, d=)` of a mixture (`igmix.py:287-292` for the arguments, `igmix.py:762-768`): `p = 1000 * d * Ru * T`. -/
noncomputable def mixP (A : Arith) (E : Env) (bymass : Bool) (ps : List Part) (t d : ℝ) : Except Err ℝ := do
  let T ← kelvinF A E t
  let d ← densityF A E (mwF A bymass ps) d
  if ∃ c ∈ ps, T < A.lit (c.data.Tlim.headD 0) ∨ A.lit (c.data.Tlim.getLastD 0) < T then .error .param
  else
    scalarOf (callF A ((pressureT E.a).build A) E.c.str
      (.scalar (A.mul (A.mul (A.mul 1000 d) (RuE.eval A)) T)) (some "Pa") none none true)

end PyroMat.Float
