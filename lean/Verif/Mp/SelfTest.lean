import Verif.Gas.Model

/-!
# The self-test of the multi-phase class: `mp1._test`, `utility.proptest`

Modelled: the verdict.  Not modelled: the text of the report.
-/

namespace PyroMat.Mp

open PyroMat PyroMat.Gas

/-- A value read from a data file: an integer (JSON `true` and `false` count as integers in Python), another number, a
list, or anything else (text, `null`, an object). -/
inductive Doc
  | int (n : Int)
  | num (x : ℝ)
  | list (l : List Doc)
  | other

/-- `isinstance(x, (int, float))`. -/
def Doc.scalar : Doc → Bool
  | .int _ => true
  | .num _ => true
  | _ => false

/-- `isinstance(x, int) and x >= 0` (`mp1.py:357`, `384`). -/
def Doc.power : Doc → Bool
  | .int n => decide (0 ≤ n)
  | _ => false

/-- `for x in doc`: the elements of a list; a number is not iterable (simplification: neither is anything else). -/
def Doc.items : Doc → Except Err (List Doc)
  | .list l => .ok l
  | _ => .error .type

/-- A term of a group is wrong: not a list, not of length `n`, or its first element is not a power
(`mp1.py:352-358`, `379-385`). -/
def badTerm (n : Nat) : Doc → Bool
  | .list (a :: l) => (a :: l).length != n || !a.power
  | .list [] => true
  | _ => true

/-- One pass of the loop of `_check_poly1` (`mp1.py:342-358`): whether it returns an error. -/
def badGroup1 : Doc → Except Err Bool
  | .list (pre :: post :: terms) => .ok (!pre.scalar || !post.scalar || terms.any (badTerm 2))
  | .list _ => .error .index
  | _ => .ok true

/-- `isinstance(x, list) and len(x) == 2`, and both are scalars (`mp1.py:370-377`). -/
def pairOk : Doc → Bool
  | .list [a, b] => a.scalar && b.scalar
  | _ => false

/-- One pass of the loop of `_check_poly2` (`mp1.py:364-385`). -/
def badGroup2 : Doc → Except Err Bool
  | .list (pre :: post :: terms) => .ok (!pairOk pre || !pairOk post || terms.any (badTerm 3))
  | .list _ => .error .index
  | _ => .ok true

/-- A loop that returns at the first element in error (`mp1.py:342-360`, `364-387`, `468-472`). -/
def anyBad (f : Doc → Except Err Bool) : List Doc → Except Err Bool
  | [] => .ok false
  | x :: xs => do
    if ← f x then .ok true else anyBad f xs

/-- `_check_poly1` (`mp1.py:340-360`). -/
def checkPoly1 (d : Doc) : Except Err Bool := do anyBad badGroup1 (← d.items)

/-- `_check_poly2` (`mp1.py:362-387`). -/
def checkPoly2 (d : Doc) : Except Err Bool := do anyBad badGroup2 (← d.items)

/-- A JSON object. -/
abbrev Obj := List (String × Doc)

/-- Criteria 0.1 and 0.5 (`mp1.py:389-404`, `443-458`): a stored name is accepted, and for a name that is not stored the
comparison `data[test] > 0` raises. -/
def scales (g : Obj) : Except Err Bool :=
  if (g.lookup "Tscale").isSome && (g.lookup "dscale").isSome then .ok true else .error .key

/-- Criterion 0.2 (`mp1.py:406-412`). -/
def logtOk (g : Obj) : Bool :=
  match g.lookup "logt" with
  | none => true
  | some x => x.scalar

/-- Criterion 0.3 (`mp1.py:414-423`). -/
def aoCoef0 (g : Obj) : Except Err Bool :=
  match g.lookup "coef0" with
  | none => .ok true
  | some d => do .ok (!(← checkPoly1 d))

/-- `isinstance(row, (list, tuple)) and len(row) == n`. -/
def rowOk (n : Nat) : Doc → Bool
  | .list l => l.length == n
  | _ => false

/-- Criterion 0.4 (`mp1.py:425-441`). -/
def aoCoef1 (g : Obj) : Bool :=
  match g.lookup "coef1" with
  | none => true
  | some (.list rows) => rows.all (rowOk 2)
  | some _ => false

/-- Criterion 0.6 (`mp1.py:460-478`). -/
def arCoef0 (g : Obj) : Except Err Bool :=
  match g.lookup "coef0" with
  | none => .ok true
  | some (.list gs) => do .ok (!(← anyBad checkPoly2 gs))
  | some _ => .ok false

/-- `len(row) != n`; a number has no length (simplification: nor has anything but a list). -/
def badLen (n : Nat) : Doc → Except Err Bool
  | .list l => .ok (l.length != n)
  | _ => .error .type

/-- Criteria 0.7 and 0.8 (`mp1.py:480-497`, `499-516`): a table with `n` columns. -/
def arTable (g : Obj) (key : String) (n : Nat) : Except Err Bool :=
  match g.lookup key with
  | none => .ok true
  | some (.list rows) => do .ok (!(← rows.mapM (badLen n)).any id)
  | some _ => .ok false

/-- Criterion 0 (`mp1.py:338-523`) on the entries `AOgroup` and `ARgroup`.  Criteria 0.9 to 0.14 are only
comments in the code. -/
def integrity0 (ao ar : Obj) : Except Err Bool := do
  let r1 ← scales ao
  let r3 ← aoCoef0 ao
  let r5 ← scales ar
  let r6 ← arCoef0 ar
  let r7 ← arTable ar "coef1" 7
  let r8 ← arTable ar "coef2" 8
  .ok (r1 && logtOk ao && r3 && aoCoef1 ao && r5 && r6 && r7 && r8)

open Classical in
/-- `np.abs(error) > ep` for one element of `proptest` (`utility.py:813-817`); a zero truth value gives `inf`, or NaN
when the value is zero too. -/
noncomputable def off (percent : Bool) (ep : ℝ) (test truth : Nan) : Bool :=
  match test, truth with
  | some x, some y =>
    if percent then (if y = 0 then decide (x ≠ 0) else decide (|(x - y) / y| > ep)) else decide (|x - y| > ep)
  | _, _ => false

/-- `utility.proptest` (`utility.py:773-841`): `test` is the outcome of `fn(**kwarg)`, or of its element `findex`, broadcast with
the truth values. -/
noncomputable def proptest (percent : Bool) (ep : ℝ) (test : Except Err (List Nan)) (truth : List Nan) : Except Err Bool := do
  .ok (!((← test).zip truth).any fun q => off percent ep q.1 q.2)

/-- What the four saturation tests compare (`mp1.py:529-554`): the outcomes of `ps`, `ds[0]`, `ds[1]` and `Ts[1]`, each with
its truth values. -/
structure Trial where
  test : Except Err (List Nan)
  truth : List Nan

/-- One statement `result = proptest(...) or result` (`mp1.py:540-554`). -/
noncomputable def trial (r : Bool) (t : Trial) : Except Err Bool := do
  let q ← proptest true 0.0001 t.test t.truth
  .ok (q || r)

/-- `mp1._test(tab, sattab, basic=...)` (`mp1.py:257-573`).  `sat` and `rest` stand for the unit conversions of the two tables
(`mp1.py:529-535`, `557-568`), which can raise and otherwise do not touch the verdict. -/
noncomputable def mpTest (ao ar : Obj) (basic : Bool) (sat : Except Err Unit) (trials : List Trial) (rest : Except Err Unit) :
    Except Err Bool := do
  let r ← integrity0 ao ar
  if basic then .ok r
  else do
    let _ ← sat
    let r ← trials.foldlM trial r
    let _ ← rest
    .ok r

end PyroMat.Mp
