import Verif.Igt.Model

/-!
# Model of the listings of a dynamic mixture (`igtools.py`)

`hill` is what `hill()` returns for a substance (`reg.py:216-276`, modelled in
`Verif/Registry/Model.lean`).
-/

namespace PyroMat.Igt

variable {σ : Type} [DecidableEq σ]

/-- An entry of `tolist`: a string or a substance object. -/
inductive Listed (σ : Type)
  | text (s : String)
  | obj (s : σ)

/-- `tolist(mode)` (`igtools.py:1186-1214`). -/
def tolist (L : Lib σ) (hill : σ → String) (m : Mix σ) (mode : String) : Except Err (List (Listed σ)) :=
  if mode = "sid" then .ok (m.c.map fun s => .text (L.sid s))
  else if mode = "hill" then .ok (m.c.map fun s => .text (hill s))
  else if mode = "instance" then .ok (m.c.map .obj)
  else .error .param

/-- `iter(m)` (`igtools.py:400-401`): what a loop over the mixture visits. -/
def iter (m : Mix σ) : List σ := m.c

/-- `items()` (`igtools.py:1327-1340`): what a loop over it visits.  `zip` stops at the shorter of the
list of substances and the first axis of the array. -/
def items (m : Mix σ) : List (σ × Arr) :=
  m.c.zip ((List.range (m.q.shape.headD 0)).map m.q.row)

end PyroMat.Igt
