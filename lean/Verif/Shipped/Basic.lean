import Verif.Gas.Inner

/-!
# The ideal-gas data files that come with the package

`/repo/src/pyromat/data/ig/*.hpd` (class `ig`, 265 files) and `/repo/src/pyromat/data/ig2/*.hpd`
(class `ig2`, 717 files).  Each file is a JSON object; the numbers are kept exactly as they are
written there (simplification: Python reads each into the nearest double, a relative change of at
most 2^-53).  The lists themselves are in `Data1.lean` .. `Data8.lean`, written by `tools/shipped.py`.
-/

namespace PyroMat.Shipped

open PyroMat.Gas

/-- A decimal number as written in a file: `m / 10 ^ e`. -/
structure Dec where
  m : Int
  e : Nat

namespace Dec

/-- A number without a minus sign. -/
def p (m e : Nat) : Dec := ⟨Int.ofNat m, e⟩

/-- A number with a minus sign. -/
def n (m e : Nat) : Dec := ⟨Int.neg (Int.ofNat m), e⟩

/-- Its value. -/
noncomputable def val (d : Dec) : ℝ := d.m / 10 ^ d.e

end Dec

/-- The entry `class` of a file. -/
inductive Cls
  | ig | ig2

/-- What the modelled code reads from a file: the entries `id`, `class`, `Tlim`, `C`, `mw`, `pref`
and `atoms` (`ig.py:60-68`, `432-440`; `ig2.py:729`, `740-748`). -/
structure File where
  id : String
  cls : Cls
  Tlim : List Dec
  C : List (List Dec)
  mw : Dec
  pref : Option Dec
  atoms : List (String × Int)

/-- Coefficient `k` of a row. -/
def cof (r : List Dec) (k : Nat) : Dec := r.getD k ⟨0, 0⟩

/-- The seven coefficients of a row that the formulas use (`ig.py:439`, `462`, `505`, `536`;
`ig2.py:747`, `779`, `805`, `879`). -/
noncomputable def coef (r : List Dec) : Coef :=
  ⟨(cof r 0).val, (cof r 1).val, (cof r 2).val, (cof r 3).val, (cof r 4).val, (cof r 5).val,
    (cof r 6).val⟩

/-- The `data` dictionary of the loaded file; the `ig` files have no `pref` and the class uses 1 bar
(`ig.py:60-68`). -/
noncomputable def File.data (f : File) : Data where
  Tlim := f.Tlim.map Dec.val
  C := f.C.map coef
  mw := f.mw.val
  pref := (f.pref.map Dec.val).getD 1e5

/-- The object made from the file by its class. -/
noncomputable def File.gas (f : File) : Gas :=
  match f.cls with
  | .ig => ig f.data
  | .ig2 => ig2 f.data

end PyroMat.Shipped
