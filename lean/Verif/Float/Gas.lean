import Verif.Float.Sum
import Verif.Gas.Model

/-!
# Model of the ideal-gas property methods with rounded arithmetic

The routines of `/repo/src/pyromat/registry/ig.py` and `ig2.py` as in `Verif/Gas`, each arithmetic operation of the
code being one operation of an `Arith`, in the order of the code; for calls with one temperature and one pressure.
`exact_*` (`Verif/Float/GasExact.lean`) show that with exact arithmetic the two models are the same.
-/

namespace PyroMat.Float

open PyroMat PyroMat.Units PyroMat.Gas

/-- A coefficient of a data file: a decimal read as a double. -/
noncomputable def cf (x : ℝ) : Sm := .ex (.lit x)

/-- A number that is already a double. -/
noncomputable def nm (x : ℝ) : Sm := .ex (.num x)

namespace Sho

/-- `t = T[I] / 1000.` (`ig.py:438`, `461`, `504`, `534`). -/
noncomputable def t (T : ℝ) : Ex := .div (.num T) (.num 1000)

/-- `_cp` (`ig.py:438-439`). -/
noncomputable def cp (C : Coef) (T : ℝ) : Sm :=
  .add (.add (cf C.c0) (.mul (.ex (t T)) (.add (cf C.c1) (.mul (.ex (t T)) (.add (cf C.c2) (.mul (.ex (t T)) (cf C.c3)))))))
    (.quo (cf C.c4) (.mul (t T) (t T)))

/-- `_h` (`ig.py:461-462`, `466`). -/
noncomputable def h (C : Coef) (T : ℝ) : Sm :=
  .mul (.sub (.add (cf C.c5) (.mul (.ex (t T)) (.add (cf C.c0) (.mul (.ex (t T)) (.add (.quo (cf C.c1) (.num 2))
    (.mul (.ex (t T)) (.add (.quo (cf C.c2) (.num 3)) (.quo (.mul (.ex (t T)) (cf C.c3)) (.num 4)))))))))
    (.quo (cf C.c4) (t T))) (nm 1000)

/-- `_s` (`ig.py:504-505`). -/
noncomputable def s (C : Coef) (T : ℝ) : Sm :=
  .sub (.add (.add (cf C.c6) (.mul (cf C.c0) (.log (t T)))) (.mul (.ex (t T)) (.add (cf C.c1) (.mul (.ex (t T))
    (.add (.quo (cf C.c2) (.num 2)) (.quo (.mul (.ex (t T)) (cf C.c3)) (.num 3)))))))
    (.quo (cf C.c4) (.mul (.mul (.num 2) (t T)) (t T)))

/-- `_g` (`ig.py:534-536`, `539`). -/
noncomputable def g (C : Coef) (T : ℝ) : Sm :=
  .mul (.sub (.add (.sub (cf C.c5) (.mul (.mul (cf C.c0) (.ex (t T))) (.log (t T))))
    (.mul (.ex (t T)) (.add (.sub (cf C.c0) (cf C.c6)) (.mul (.ex (t T)) (.add (.mul (nm (-0.5)) (cf C.c1))
      (.mul (.ex (t T)) (.add (.mul (.ex (.div (.num (-1)) (.num 6))) (cf C.c2))
        (.mul (.ex (t T)) (.mul (.ex (.div (.num (-1)) (.num 12))) (cf C.c3))))))))))
    (.quo (.mul (nm 0.5) (cf C.c4)) (t T))) (nm 1000)

end Sho

namespace Nasa

/-- `_cp` (`ig2.py:745-748`). -/
noncomputable def cp (C : Coef) (T : ℝ) : Sm :=
  .mul (.ex RuE) ([4, 3, 2, 1, 0].foldl (fun out k => .add (cf (C.at k)) (.mul out (nm T))) (nm 0))

/-- `_h` (`ig2.py:769-783`); `term` runs over the whole numbers from 5 to 1, which doubles hold exactly. -/
noncomputable def h (C : Coef) (T : ℝ) : Sm :=
  .mul (.ex RuE) (.add ([4, 3, 2, 1, 0].foldl
    (fun out k => .mul (nm T) (.add (.quo (cf (C.at k)) (.num (k + 1 : ℕ))) out)) (nm 0)) (cf C.c5))

/-- `_s` (`ig2.py:867-885`); `term` runs over the whole numbers from 4 to 1. -/
noncomputable def s (C : Coef) (T : ℝ) : Sm :=
  .mul (.add (.add (.mul (nm T) ([4, 3, 2, 1].foldl
    (fun out k => .add (.quo (cf (C.at k)) (.num (k : ℕ))) (.mul (nm T) out)) (nm 0))) (cf C.c6))
    (.mul (cf C.c0) (.log (.num T)))) (.ex RuE)

/-- `_g` (`ig2.py:803-806`).  Simplification: the sign of `-C[0]` is a product with -1. -/
noncomputable def g (C : Coef) (T : ℝ) : Sm :=
  .mul (.ex RuE) (.add (.add (.mul (.mul (.mul (nm (-1)) (cf C.c0)) (nm T)) (.log (.num T))) (cf C.c5))
    (.mul (nm T) (.add (.sub (cf C.c0) (cf C.c6)) (.mul (nm T) (.add (.mul (nm (-0.5)) (cf C.c1))
      (.mul (nm T) (.add (.mul (.ex (.div (.num (-1)) (.num 6))) (cf C.c2))
        (.mul (nm T) (.add (.mul (.ex (.div (.num (-1)) (.num 12))) (cf C.c3))
          (.mul (nm T) (.mul (cf (-0.05)) (cf C.c4))))))))))))

end Nasa

/-- The formulas of a class and its reference pressure. -/
structure Forms where
  cp : Coef → ℝ → Sm
  h : Coef → ℝ → Sm
  s : Coef → ℝ → Sm
  g : Coef → ℝ → Sm
  pref : Ex

/-- `ig` (`ig.py:60-68`). -/
noncomputable def igForms : Forms := ⟨Sho.cp, Sho.h, Sho.s, Sho.g, .num 1e5⟩

/-- `ig2`: the reference pressure is read from the file (`ig2.py:729`). -/
noncomputable def ig2Forms (pref : ℝ) : Forms := ⟨Nasa.cp, Nasa.h, Nasa.s, Nasa.g, .lit pref⟩

/-- The methods treated here. -/
inductive Q
  | cp | cv | h | e | s | g | f

/-- What a method computes before scaling, from one row of coefficients, the temperature in K and the pressure in
Pa (`ig.py:1611`, `1643`, `1675`, `1812`, `1780`, `1710`, `1746`; `ig2.py` the same). -/
noncomputable def inner (A : Arith) (F : Forms) (q : Q) (C : Coef) (T p : ℝ) : ℝ :=
  let Ru := RuE.eval A
  let L := A.log (A.div p (F.pref.eval A))
  match q with
  | .cp => (F.cp C T).eval A
  | .cv => A.sub ((F.cp C T).eval A) Ru
  | .h => (F.h C T).eval A
  | .e => A.sub ((F.h C T).eval A) (A.mul Ru T)
  | .s => A.sub ((F.s C T).eval A) (A.mul Ru L)
  | .g => A.add ((F.g C T).eval A) (A.mul (A.mul T Ru) L)
  | .f => A.add (A.sub ((F.g C T).eval A) (A.mul Ru T)) (A.mul (A.mul T Ru) L)

/-- The factor to the units of the user: `energy`, `temperature` (exponent -1) for entropies, `matter` (exponent -1)
(`ig.py:1613-1615`, `1645-1647`, `1677-1678`, `1712-1713`, `1748-1749`, `1782-1784`, `1814-1815`). -/
noncomputable def scaleF (A : Arith) (E : Env) (mw : ℝ) (q : Q) : Except Err ℝ := do
  let en := energyT.build A
  let te := temperatureT.build A
  match q with
  | .cp | .cv | .s =>
    let s ← scalarOf (callF A en E.c.str (.scalar 1) (some "kJ") none none false)
    let s ← scalarOf (callF A te E.c.str (.scalar s) (some "K") none (some (-1)) false)
    scalarOf (matterF A E.a E.c.str (.scalar s) mw (some "kmol") none (some (-1)) false)
  | .h | .g | .f =>
    let s ← scalarOf (callF A en E.c.str (.scalar 1) (some "kJ") none none false)
    scalarOf (matterF A E.a E.c.str (.scalar s) mw (some "kmol") none (some (-1)) false)
  | .e =>
    let s ← scalarOf (callF A en E.c.str (.scalar 1) (some "J") none none false)
    scalarOf (matterF A E.a E.c.str (.scalar s) mw (some "mol") none (some (-1)) false)

open Classical in
/-- A method called with one temperature and one pressure (`ig.py:75-298` for the arguments: `temperature_scale` to K,
`pressure` to Pa, the test against the limits; `_crange`, `ig.py:300-316`; then the lines of `inner` and `scaleF`).
The limits, coefficients and molecular weight of the data file are decimals read as doubles. -/
noncomputable def methodF (A : Arith) (E : Env) (D : Data) (F : Forms) (q : Q) (t p : ℝ) : Except Err Nan := do
  let T ← scalarOf (temperatureScaleF A E.c.str (.scalar t) none (some "K") false)
  let p ← scalarOf (callF A ((pressureT E.a).build A) E.c.str (.scalar p) none (some "Pa") none false)
  let Tlim := D.Tlim.map A.lit
  if T < Tlim.headD 0 ∨ Tlim.getLastD 0 < T then .error .param
  else
    let c ← scaleF A E (A.lit D.mw) q
    .ok ((piecewise Tlim D.C (fun C T => inner A F q C T p) T).map fun y => A.mul y c)

end PyroMat.Float
