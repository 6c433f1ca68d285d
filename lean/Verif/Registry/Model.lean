import Verif.Basic

/-!
# Model of `search` (`__init__.py:86-232`) and of `reg.py` (`hill`, `collection`, `regload`)
-/

namespace PyroMat.Registry

open PyroMat

/-! ## Substances -/

/-- What `search` and the naming methods read of a substance object: entries of its `data`
dictionary (`none` = key absent) and the result of its `atoms()` method.  `oid` is the identity
of the Python object (sets of substances compare by identity). -/
structure Subst where
  oid : Nat
  id : List Char
  cls : String
  cas : Option String
  inchi : Option String
  names : Option (List (List Char))
  atoms : List (String × Int)
deriving DecidableEq

/-- Python's `sub in s` for strings. -/
def pyIn (sub : List Char) : List Char → Bool
  | [] => sub.isEmpty
  | c :: s => sub.isPrefixOf (c :: s) || pyIn sub s

/-- The `contains` argument (`__init__.py:198-209`). -/
inductive Contains where
  | absent
  | atom (a : String)
  | table (t : List (String × Option Int))
  | list (l : List String)
  | other

/-- Conditioning of the `contains` argument into a dictionary (`__init__.py:198-209`); anything
that is neither a string, a dictionary nor iterable is treated like no argument. -/
def Contains.dict : Contains → Option (List (String × Option Int))
  | .absent => none
  | .atom a => some [(a, none)]
  | .table t => some t
  | .list l => some (l.map fun a => (a, none))
  | .other => none

/-- The criteria of a search. -/
structure Query where
  name : Option (List Char) := none
  contains : Contains := .absent
  collection : Option (List Char) := none
  pmclass : Option String := none
  cas : Option String := none
  inchi : Option String := none

/-- The loop over the requested atoms (`__init__.py:217-221`). -/
def atomsMatch (catoms : List (String × Int)) : List (String × Option Int) → Bool
  | [] => true
  | (a, q) :: rest =>
    match catoms.lookup a with
    | none => false
    | some cq =>
      match q with
      | none => atomsMatch catoms rest
      | some q => if cq ≠ q then false else atomsMatch catoms rest

/-- The class criterion (`__init__.py:167-168`): the running value of `match` is threaded through. -/
def critClass (q : Query) (c : Subst) (m : Bool) : Bool :=
  match q.pmclass with
  | some p => if m && p != c.cls then false else m
  | none => m

/-- The collection criterion (`__init__.py:171-172`). -/
def critCollection (q : Query) (c : Subst) (m : Bool) : Bool :=
  match q.collection with
  | some k => if m && !(k.isPrefixOf c.id) then false else m
  | none => m

/-- The CAS criterion (`__init__.py:175-176`). -/
def critCas (q : Query) (c : Subst) (m : Bool) : Bool :=
  match q.cas with
  | some k => if m && (c.cas.isNone || c.cas != some k) then false else m
  | none => m

/-- The InChI criterion (`__init__.py:178-179`). -/
def critInchi (q : Query) (c : Subst) (m : Bool) : Bool :=
  match q.inchi with
  | some k => if m && (c.inchi.isNone || c.inchi != some k) then false else m
  | none => m

/-- The name criterion (`__init__.py:183-196`); `lower` is `str.lower`. -/
def critName (lower : List Char → List Char) (q : Query) (c : Subst) (m : Bool) : Bool :=
  match q.name with
  | some n =>
    if m then
      if pyIn n c.id then m
      else match c.names with
        | some ns => ns.any fun cn => pyIn (lower n) (lower cn)
        | none => false
    else m
  | none => m

/-- The atoms criterion (`__init__.py:212-226`).  The base class defines `atoms`, so the
`hasattr` test (`213`) always holds. -/
def critAtoms (q : Query) (c : Subst) (m : Bool) : Bool :=
  match q.contains.dict with
  | some atoms => if m then atomsMatch c.atoms atoms else m
  | none => m

/-- The body of the candidate loop up to `newmembers.add` (`__init__.py:163-228`). -/
def candidateMatches (lower : List Char → List Char) (q : Query) (c : Subst) : Bool :=
  let m := true
  let m := critClass q c m
  let m := critCollection q c m
  let m := critCas q c m
  let m := critInchi q c m
  let m := critName lower q c m
  critAtoms q c m

/-- `newmembers.add(candidate)`: sets of objects compare by identity. -/
def addMember (s : List Subst) (c : Subst) : List Subst :=
  if s.any (fun x => x.oid == c.oid) then s else s ++ [c]

/-- `search` (`__init__.py:147-232`): `members = none` means the whole collection. -/
def search (lower : List Char → List Char) (data : List Subst) (q : Query)
    (members : Option (List Subst)) : List Subst :=
  (members.getD data).foldl
    (fun acc c => if candidateMatches lower q c then addMember acc c else acc) []

/-! ## Naming (`reg.py:163-278`) -/

/-- `collection()` (`reg.py:163-175`): the text before the first `.`, or the empty string. -/
def collection (id : List Char) : List Char :=
  match id.span (· ≠ '.') with
  | (_, []) => []
  | (pre, _ :: _) => pre

/-- One element of the formula: the symbol followed by its count unless it is one
(`reg.py:249-252`, `261-264`). -/
def element (p : String × Int) : String := if p.2 ≠ 1 then p.1 ++ toString p.2 else p.1

/-- Python string order used by `contents.sort()`. -/
def sortAtoms (l : List (String × Int)) : List (String × Int) :=
  l.mergeSort (fun a b => decide (a.1 ≤ b.1))

/-- One round of the loop `for this in ['C', 'H']` (`reg.py:247-253`). -/
def symText (aa : List (String × Int)) (s out : String) : String :=
  match aa.lookup s with
  | some n => out ++ element (s, n)
  | none => out

/-- `charge = -aa['e']`, zero without an electron entry (`reg.py:255-257`). -/
def chargeOf (aa : List (String × Int)) : Int :=
  match aa.lookup "e" with
  | some n => -n
  | none => 0

/-- `hill()` when the data has an `atoms` dictionary (`reg.py:240-273`).  The dictionary is a list
of pairs in insertion order.  `none` is the `NameError` raised at line 273 for a charge of
magnitude above one.  Counts are integers, as in every shipped file. -/
def hill (aa : List (String × Int)) : Option String :=
  if aa.map Prod.fst = ["e"] then some "e-"
  else
    let contents := aa
    let out := ""
    let out := symText aa "C" out
    let contents := contents.filter (fun p => p.1 ≠ "C")
    let out := symText aa "H" out
    let contents := contents.filter (fun p => p.1 ≠ "H")
    let charge := chargeOf aa
    let contents := contents.filter (fun p => p.1 ≠ "e")
    let out := (sortAtoms contents).foldl (fun out p => out ++ element p) out
    if charge < 0 then
      if -charge > 1 then none else some (out ++ "-")
    else if charge > 0 then
      if charge > 1 then none else some (out ++ "+")
    else some out

/-! ## The registry (`reg.py:283-378`) -/

/-- The variables a registry file leaves behind: name, and the class object if the value is a
subclass of the base class.  A file that raises still leaves the variables bound before it
failed (`reg.py:330-341`). -/
abbrev FileVars := List (String × Option Nat)

/-- A registry directory as the operating system lists it. -/
abbrev RegDir := List (String × FileVars)

/-- The file-name filter (`reg.py:322-323`). -/
def eligible (name : String) : Bool :=
  match name.toList with
  | [] => false
  | c :: cs => c != '_' && c != '.' && decide (3 < (c :: cs).length) &&
      ((c :: cs).drop ((c :: cs).length - 3) == ['.', 'p', 'y'])

/-- The registry: class name ↦ class object. -/
abbrev Reg := List (String × Nat)

/-- `registry[new] = …`. -/
def Reg.set : Reg → String → Nat → Reg
  | [], k, c => [(k, c)]
  | (j, d) :: r, k, c => if j = k then (j, c) :: r else (j, d) :: Reg.set r k c

/-- One variable of a file (`reg.py:345-370`). -/
def regVar (fatal overwrite : Bool) (reg : Reg) : String × Option Nat → Reg × Option Err
  | (_, none) => (reg, none)
  | (new, some c) =>
    if (reg.lookup new).isSome then
      if fatal then (reg, some .file)
      else if overwrite then (reg.set new c, none)
      else (reg, none)
    else (reg.set new c, none)

/-- Run a list of steps, stopping at the first exception. -/
def runVars (fatal overwrite : Bool) : Reg → List (String × Option Nat) → Reg × Option Err
  | reg, [] => (reg, none)
  | reg, v :: vs =>
    match regVar fatal overwrite reg v with
    | (reg', none) => runVars fatal overwrite reg' vs
    | (reg', some e) => (reg', some e)

/-- The files of a directory (`reg.py:317-343`). -/
def runFiles (fatal overwrite : Bool) : Reg → RegDir → Reg × Option Err
  | reg, [] => (reg, none)
  | reg, (name, vars) :: fs =>
    if eligible name then
      match runVars fatal overwrite reg vars with
      | (reg', none) => runFiles fatal overwrite reg' fs
      | (reg', some e) => (reg', some e)
    else runFiles fatal overwrite reg fs

/-- The directories (`reg.py:309-320`); `none` is a directory that cannot be listed, on which
`os.listdir` raises. -/
def runDirs (fatal overwrite : Bool) : Reg → List (Option RegDir) → Reg × Option Err
  | reg, [] => (reg, none)
  | reg, none :: _ => (reg, some .file)
  | reg, some d :: ds =>
    match runFiles fatal overwrite reg d with
    | (reg', none) => runDirs fatal overwrite reg' ds
    | (reg', some e) => (reg', some e)

/-- `regload` (`reg.py:283-378`): the registry is emptied first. -/
def regload (fatal overwrite : Bool) (_old : Reg) (dirs : List (Option RegDir)) :
    Reg × Option Err := runDirs fatal overwrite [] dirs

end PyroMat.Registry
