import Verif.Shipped.Basic
import Verif.Mp.State

/-!
# The multi-phase data files that come with the package

`/repo/src/pyromat/data/mp/*.hpd` (class `mp1`, 7 files).  As for the ideal gases, the numbers are kept
exactly as they are written in the files.  The files themselves are in `MpData.lean`, written by
`tools/shipped_mp.py`.
-/

namespace PyroMat.Shipped

open PyroMat.Gas PyroMat.Mp

/-- A group of a one-variable polynomial as written: `[pre, post, [i, c], ...]` (`mp1.py:818-860`). -/
structure G1 where
  pre : Dec
  post : Dec
  terms : List (Nat × Dec)

/-- A group of a two-variable polynomial as written: `[[prex, prey], [postx, posty], [i, j, c], ...]`
(`mp1.py:576-630`). -/
structure G2 where
  prex : Dec
  prey : Dec
  postx : Dec
  posty : Dec
  terms : List (Nat × Nat × Dec)

/-- The entry `PSgroup`, `DSLgroup` or `DSVgroup`. -/
structure SatFile where
  Tscale : Dec
  scale : Dec
  fn : Nat
  coef : List G1

/-- The entry `AOgroup`. -/
structure AoFile where
  Tscale : Dec
  dscale : Dec
  logt : Option Dec
  tlogt : Option Dec
  coef0 : Option (List G1)
  coef1 : List (Dec × Dec)

/-- The entry `ARgroup`; the rows of `coef1` and `coef2` as lists. -/
structure ArFile where
  Tscale : Dec
  dscale : Dec
  coef0 : List (List G2)
  coef1 : List (List Dec)
  coef2 : List (List Dec)

/-- What the modelled code reads from a file of class `mp1`. -/
structure MpFile where
  id : String
  mw : Dec
  R : Dec
  Tlim : Dec × Dec
  plim : Dec × Dec
  dlim : Dec × Dec
  Tt : Dec
  Tc : Dec
  pt : Dec
  pc : Dec
  dc : Dec
  ps : SatFile
  dsl : SatFile
  dsv : SatFile
  ao : AoFile
  ar : ArFile
  atoms : List (String × Int)

/-- The group in the form the evaluation takes. -/
noncomputable def G1.group (g : G1) : Group1 :=
  ⟨g.pre.val, g.post.val, g.terms.map fun t => (t.1, t.2.val)⟩

/-- The group in the form the evaluation takes. -/
noncomputable def G2.group (g : G2) : Group2 :=
  ⟨g.prex.val, g.prey.val, g.postx.val, g.posty.val, g.terms.map fun t => (t.1, t.2.1, t.2.2.val)⟩

/-- The dictionary in the form the saturation routines take. -/
noncomputable def SatFile.group (s : SatFile) : SatGroup :=
  ⟨s.Tscale.val, s.scale.val, s.fn, s.coef.map G1.group⟩

/-- The dictionary in the form `_ao` takes. -/
noncomputable def AoFile.group (a : AoFile) : AOgroup :=
  ⟨a.logt.map Dec.val, a.tlogt.map Dec.val, a.coef0.map (·.map G1.group),
    a.coef1.map fun r => (r.1.val, r.2.val)⟩

/-- A Gaussian row (`mp1.py:1638`). -/
noncomputable def row1 (r : List Dec) : Row1 :=
  ⟨(cof r 0).val, (cof r 1).val, (cof r 2).val, (cof r 3).val, (cof r 4).val, (cof r 5).val, (cof r 6).val⟩

/-- A non-analytic row (`mp1.py:1665`). -/
noncomputable def row2 (r : List Dec) : Row2 :=
  ⟨(cof r 0).val, (cof r 1).val, (cof r 2).val, (cof r 3).val, (cof r 4).val, (cof r 5).val, (cof r 6).val,
    (cof r 7).val⟩

/-- The dictionary in the form `_ar` takes. -/
noncomputable def ArFile.group (a : ArFile) : ARgroup :=
  ⟨a.coef0.map (·.map G2.group), a.coef1.map row1, a.coef2.map row2⟩

/-- The value and first derivative of a saturation routine asked for first derivatives, 0 if it raises. -/
noncomputable def satVal (s : SatFile) (T : ℝ) : ℝ × ℝ :=
  match satprop s.group 1 T with
  | .ok j => (j.p, j.px)
  | .error _ => (0, 0)

/-- The substance made from the file: limits and constants of the file and the code's own inner
routines on its coefficients (`mp1.py:1878-1920`, `2017-2040`, `2066-2090`). -/
noncomputable def MpFile.sub (f : MpFile) : Sub where
  mw := f.mw.val
  Tlo := f.Tlim.1.val
  Thi := f.Tlim.2.val
  plo := f.plim.1.val
  phi := f.plim.2.val
  dlo := f.dlim.1.val
  dhi := f.dlim.2.val
  Tt := f.Tt.val
  Tc := f.Tc.val
  pt := f.pt.val
  pc := f.pc.val
  F := codeFluid f.R.val f.ao.Tscale.val f.ao.dscale.val f.ar.Tscale.val f.ar.dscale.val f.ao.group f.ar.group
  ps := fun T => (satVal f.ps T).1
  dsl := fun T => (satVal f.dsl T).1
  dsv := fun T => (satVal f.dsv T).1
  psT := fun T => (satVal f.ps T).2
  dslT := fun T => (satVal f.dsl T).2
  dsvT := fun T => (satVal f.dsv T).2

end PyroMat.Shipped
