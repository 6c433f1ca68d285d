import Mathlib.Analysis.SpecialFunctions.Log.Basic
import Verif.Units.Model

/-!
# Ideal-gas inner routines (`/repo/src/pyromat/registry/ig.py`, `ig2.py`)

Scalar element, exact real arithmetic.  `none` is the out-of-bounds marker
`pm.config['def_oob']` with its shipped value NaN: it is absorbing in arithmetic and every
comparison with it is false.  (Simplification: a user who configures a finite `def_oob` gets that
number run through the scale factors; this is not modelled.)
-/

namespace PyroMat.Gas

open PyroMat PyroMat.Units

/-- A float that may be NaN. -/
abbrev Nan := Option ℝ

/-- `pm.units.const_Ru` (`units.py:258`), kJ/kmol/K. -/
noncomputable def Ru : ℝ := const_Ru

/-- One row of `data['C']`: seven numbers used by both classes (`ig.py:439`, `462`, `505`, `536`;
`ig2.py:747`, `779`, `805`, `879`). -/
structure Coef where
  c0 : ℝ
  c1 : ℝ
  c2 : ℝ
  c3 : ℝ
  c4 : ℝ
  c5 : ℝ
  c6 : ℝ

/-- `data['C'][ii][k]` for the loops of `ig2.py:747`, `773`, `871` (index 0..6). -/
def Coef.at (C : Coef) : Nat → ℝ
  | 0 => C.c0 | 1 => C.c1 | 2 => C.c2 | 3 => C.c3 | 4 => C.c4 | 5 => C.c5 | _ => C.c6

/-! ## Piecewise ranges -/

/-- `Tlim[i]`, 0 past the end (the callers only use indices below `len(Tlim)`). -/
def lim (Tlim : List ℝ) (i : Nat) : ℝ := Tlim.getD i 0

/-- `_crange(T, index)` for one temperature (`ig.py:300-316`, `ig2.py:286-302`). -/
def crange (Tlim : List ℝ) (T : ℝ) (index : Nat) : Prop :=
  if index + 2 = Tlim.length then lim Tlim index ≤ T ∧ T ≤ lim Tlim (index + 1)
  else lim Tlim index ≤ T ∧ T < lim Tlim (index + 1)

open Classical in
/-- The loop `for ii in range(len(Tlim)-1): ... out[I] = f(C[ii], T[I])` over a result filled with
the out-of-bounds marker (`ig.py:432-440`, `452-465`, `496-509`; `ig2.py:740-748`).
Simplification: a missing row of `C` (an `IndexError` in Python) is read as the marker. -/
noncomputable def piecewise {α : Type} (Tlim : List ℝ) (C : List Coef) (f : Coef → ℝ → α) (T : ℝ) :
    Option α :=
  (List.range (Tlim.length - 1)).foldl
    (fun out i => if crange Tlim T i then (C[i]?).map (fun c => f c T) else out) none

/-! ## Shomate formulas (`ig`) -/

namespace Sho

/-- `_cp` (`ig.py:438-439`), kJ/kmol/K. -/
noncomputable def cp (C : Coef) (T : ℝ) : ℝ :=
  let t := T / 1000
  C.c0 + t * (C.c1 + t * (C.c2 + t * C.c3)) + C.c4 / (t * t)

/-- `_h`, the value (`ig.py:461-462`, `466`), kJ/kmol. -/
noncomputable def h (C : Coef) (T : ℝ) : ℝ :=
  let t := T / 1000
  (C.c5 + t * (C.c0 + t * (C.c1 / 2 + t * (C.c2 / 3 + t * C.c3 / 4))) - C.c4 / t) * 1000

/-- `_h`, the derivative (`ig.py:464`). -/
noncomputable def hT (C : Coef) (T : ℝ) : ℝ :=
  let t := T / 1000
  C.c0 + t * (C.c1 + t * (C.c2 + t * C.c3)) + C.c4 / (t * t)

/-- `_s`, the value (`ig.py:504-505`). -/
noncomputable def s (C : Coef) (T : ℝ) : ℝ :=
  let t := T / 1000
  C.c6 + C.c0 * Real.log t + t * (C.c1 + t * (C.c2 / 2 + t * C.c3 / 3)) - C.c4 / (2 * t * t)

/-- `_s`, the derivative (`ig.py:507-509`). -/
noncomputable def sT (C : Coef) (T : ℝ) : ℝ :=
  let t := T / 1000
  (C.c0 / t + C.c1 + t * (C.c2 + t * C.c3) + C.c4 / (t * t * t)) / 1000

/-- `_g`, the value (`ig.py:515-536`, `539-540`). -/
noncomputable def g (C : Coef) (T : ℝ) : ℝ :=
  let t := T / 1000
  let logt := Real.log t
  (C.c5 - C.c0 * t * logt + t * (C.c0 - C.c6 + t * (-0.5 * C.c1 + t * (-1 / 6 * C.c2
    + t * (-1 / 12 * C.c3)))) - 0.5 * C.c4 / t) * 1000

/-- `_g`, the derivative (`ig.py:538`). -/
noncomputable def gT (C : Coef) (T : ℝ) : ℝ :=
  let t := T / 1000
  let logt := Real.log t
  (-C.c0) * (logt + 1) + C.c0 - C.c6 + t * (-C.c1 + t * (-0.5 * C.c2 + t * (-1 / 3 * C.c3)))
    + 0.5 * C.c4 / t / t

end Sho

/-! ## NASA polynomials (`ig2`) -/

namespace Nasa

/-- The loop of `_cp` (`ig2.py:745-748`): `out = 0; for c in C[4::-1]: out = c + out*T`. -/
noncomputable def cp (C : Coef) (T : ℝ) : ℝ :=
  Ru * [4, 3, 2, 1, 0].foldl (fun out k => C.at k + out * T) 0

/-- One pass of the loop of `_h` (`ig2.py:774-779`); state `(out, dh, term)`. -/
noncomputable def hStep (C : Coef) (T : ℝ) (st : ℝ × ℝ × ℝ) (k : Nat) : ℝ × ℝ × ℝ :=
  let temp := C.at k / st.2.2 + st.1
  (T * temp, temp + T * st.2.1, st.2.2 - 1)

/-- The loop of `_h` (`ig2.py:769-780`). -/
noncomputable def hLoop (C : Coef) (T : ℝ) : ℝ × ℝ × ℝ :=
  [4, 3, 2, 1, 0].foldl (hStep C T) (0, 0, 5)

/-- `_h`, the value (`ig2.py:780-783`). -/
noncomputable def h (C : Coef) (T : ℝ) : ℝ := Ru * ((hLoop C T).1 + C.c5)

/-- `_h`, the derivative (`ig2.py:781-783`). -/
noncomputable def hT (C : Coef) (T : ℝ) : ℝ := (hLoop C T).2.1 * Ru

/-- `_g`, the value (`ig2.py:785-806`, `811`). -/
noncomputable def g (C : Coef) (T : ℝ) : ℝ :=
  let logt := Real.log T
  Ru * (-C.c0 * T * logt + C.c5 + T * (C.c0 - C.c6 + T * (-0.5 * C.c1 + T * (-1 / 6 * C.c2
    + T * (-1 / 12 * C.c3 + T * (-0.05 * C.c4))))))

/-- `_g`, the derivative (`ig2.py:808-810`). -/
noncomputable def gT (C : Coef) (T : ℝ) : ℝ :=
  let logt := Real.log T
  (-C.c0 * (1 + logt) + C.c0 - C.c6 + T * (-C.c1 + T * (-0.5 * C.c2 + T * (-1 / 3 * C.c3
    + T * (-0.25 * C.c4))))) * Ru

/-- One pass of the loop of `_s` (`ig2.py:872-876`); state `(out, sT, term)`. -/
noncomputable def sStep (C : Coef) (T : ℝ) (st : ℝ × ℝ × ℝ) (k : Nat) : ℝ × ℝ × ℝ :=
  (C.at k / st.2.2 + T * st.1, st.1 + T * st.2.1, st.2.2 - 1)

/-- The loop of `_s` (`ig2.py:867-876`): `for c in C[4:0:-1]`. -/
noncomputable def sLoop (C : Coef) (T : ℝ) : ℝ × ℝ × ℝ :=
  [4, 3, 2, 1].foldl (sStep C T) (0, 0, 4)

/-- `_s`, the value (`ig2.py:880-885`). -/
noncomputable def s (C : Coef) (T : ℝ) : ℝ :=
  (T * (sLoop C T).1 + C.c6 + C.c0 * Real.log T) * Ru

/-- `_s`, the derivative (`ig2.py:877-879`, `886`). -/
noncomputable def sT (C : Coef) (T : ℝ) : ℝ :=
  ((sLoop C T).1 + T * (sLoop C T).2.1 + C.c0 / T) * Ru

end Nasa

/-! ## A gas as its inner routines -/

/-- What the shared code of `ig`, `ig2` and `igmix` reads from a substance: temperature limits,
molecular weight, reference pressure and the inner routines.  Routines called with `diff=True`
give the pair (value, derivative). -/
structure Gas where
  Tlo : ℝ
  Thi : ℝ
  mw : ℝ
  pref : ℝ
  cp : ℝ → Nan
  h : ℝ → Option (ℝ × ℝ)
  s : ℝ → Option (ℝ × ℝ)
  g : ℝ → Option (ℝ × ℝ)

/-- The `data` dictionary of an `ig`/`ig2` entry. -/
structure Data where
  Tlim : List ℝ
  C : List Coef
  mw : ℝ
  pref : ℝ

/-- An `ig` object (`ig.py:60-68`: `_pref_pa` is `1e5`). -/
noncomputable def ig (D : Data) : Gas where
  Tlo := D.Tlim.headD 0
  Thi := D.Tlim.getLastD 0
  mw := D.mw
  pref := 1e5
  cp := piecewise D.Tlim D.C Sho.cp
  h := piecewise D.Tlim D.C (fun c T => (Sho.h c T, Sho.hT c T))
  s := piecewise D.Tlim D.C (fun c T => (Sho.s c T, Sho.sT c T))
  g := piecewise D.Tlim D.C (fun c T => (Sho.g c T, Sho.gT c T))

/-- An `ig2` object (reference pressure `data['pref']`, `ig2.py:729`). -/
noncomputable def ig2 (D : Data) : Gas where
  Tlo := D.Tlim.headD 0
  Thi := D.Tlim.getLastD 0
  mw := D.mw
  pref := D.pref
  cp := piecewise D.Tlim D.C Nasa.cp
  h := piecewise D.Tlim D.C (fun c T => (Nasa.h c T, Nasa.hT c T))
  s := piecewise D.Tlim D.C (fun c T => (Nasa.s c T, Nasa.sT c T))
  g := piecewise D.Tlim D.C (fun c T => (Nasa.g c T, Nasa.gT c T))

/-- `_e` (`ig.py:472-485`, `ig2.py:814-828`, `igmix.py:629-642`). -/
noncomputable def Gas.e (G : Gas) (T : ℝ) : Option (ℝ × ℝ) :=
  (G.h T).map (fun r => (r.1 - Ru * T, r.2 - Ru))

/-- `_f` (`ig.py:542-555`, `ig2.py:830-844`). -/
noncomputable def Gas.f (G : Gas) (T : ℝ) : Option (ℝ × ℝ) :=
  (G.g T).map (fun r => (r.1 - Ru * T, r.2 - Ru))

/-- `_sditer` (`ig.py:415-423`, `ig2.py:724-732`, `igmix.py:491-499`). -/
noncomputable def Gas.sditer (G : Gas) (d : ℝ) (T : ℝ) : Option (ℝ × ℝ) :=
  (G.s T).map (fun r => (r.1 - Ru * Real.log (d * (1000 * Ru) * T / G.pref), r.2 - Ru / T))

end PyroMat.Gas
