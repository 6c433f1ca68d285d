import Verif.Registry.Model
import Verif.Text.Model

/-!
# Model of `info`, `/repo/src/pyromat/__init__.py:236-395`

`info` writes text.  The model records the writes in order, each with the stream it goes to: the
`target` stream (the caller's, or standard output when none was given) or standard output itself.
-/

namespace PyroMat.Registry.Info

open PyroMat PyroMat.Registry

/-- Python text. -/
abbrev Text := List Char

/-- The two streams `info` writes to: `target` (`__init__.py:278-279`) and `sys.stdout`. -/
inductive Stream where
  | target
  | stdout
deriving DecidableEq

/-- The amount of an atom: an `int`, or a `float` as computed by `igmix.atoms`
(`registry/igmix.py:654-665`).  Simplification: a float is the rational number it stands for. -/
inductive Qty where
  | int (n : Int)
  | real (x : Rat)
deriving DecidableEq

/-- What `info` reads of a substance beyond what `search` reads. -/
structure Sheet where
  /-- `data['fromfile']`. -/
  fromfile : Text
  /-- `data['doc']`. -/
  doc : Text
  /-- `atoms()`. -/
  amounts : Except Err (List (Text × Qty))
  /-- `str(mw())`. -/
  mw : Except Err Text
  /-- `hasattr(ss, prop)`. -/
  has : Text → Bool

/-- The fields of `time.localtime` used at `__init__.py:343`. -/
structure Stamp where
  hour : Nat
  min : Nat
  day : Nat
  month : Fin 12
  year : Nat

/-- Everything outside the function: the sheets of the substance objects, the modification times of
files (`none`: `os.path.getmtime` raises), the version, Python's `str(x)`, `'{:.3f}'.format(x)` and
`str.isspace`, and `repr(kwarg)`. -/
structure World where
  sheet : Subst → Sheet
  mtime : Text → Option Stamp
  version : Text
  str : Rat → Text
  fmt3 : Rat → Text
  ws : Char → Bool
  reprKw : Query → Text

/-! ## Python formatting -/

/-- `' ' * n`. -/
def blanks (n : Nat) : Text := List.replicate n ' '

/-- `'{:<ws}'` and `'{:ws}'` for strings. -/
def padRight (w : Nat) (s : Text) : Text := s ++ blanks (w - s.length)

/-- `'{:>ws}'` for strings. -/
def padLeft (w : Nat) (s : Text) : Text := blanks (w - s.length) ++ s

/-- `'{:^ws}'` for strings: the smaller half of the padding goes to the left. -/
def center (w : Nat) (s : Text) : Text :=
  blanks ((w - s.length) / 2) ++ s ++ blanks ((w - s.length) - (w - s.length) / 2)

/-- `str(n)` of a natural number. -/
def natStr (n : Nat) : Text := Nat.toDigits 10 n

/-- `str(n)` of an integer. -/
def intStr (n : Int) : Text := if n < 0 then '-' :: natStr n.natAbs else natStr n.natAbs

/-- `'{:02d}'`. -/
def two (n : Nat) : Text := List.replicate (2 - (natStr n).length) '0' ++ natStr n

/-- The months (`__init__.py:268`). -/
def months : List Text := ["January".toList, "February".toList, "March".toList, "April".toList,
  "May".toList, "June".toList, "July".toList, "August".toList, "September".toList,
  "October".toList, "November".toList, "December".toList]

/-! ## The details of one substance (`__init__.py:285-345`) -/

/-- `qty` as it is printed beside an atom (`__init__.py:309-314`). -/
def qtyText (W : World) : Qty → Text
  | .int n => if n = 1 then [] else intStr n
  | .real x => if x = 1 then [] else W.fmt3 x

/-- `abs(x)`. -/
def absRat (x : Rat) : Rat := if x < 0 then -x else x

/-- The text of the charge (`__init__.py:298-304`). -/
def chargeText (W : World) : Qty → Text
  | .int n =>
    (if n > 0 then ['-'] else ['+']) ++ (if n.natAbs ≠ 1 then natStr n.natAbs else [])
  | .real x =>
    (if x > 0 then ['-'] else ['+']) ++ (if absRat x ≠ 1 then W.str (absRat x) else [])

/-- The state of the loop over the atoms: `aline`, `nline`, `charge` (`__init__.py:292-294`). -/
structure Lines where
  aline : Text
  nline : Text
  charge : Text

/-- One round of the loop over the atoms (`__init__.py:295-316`). -/
def atomStep (W : World) (l : Lines) (p : Text × Qty) : Lines :=
  if p.1 = ['e'] then { l with charge := chargeText W p.2 }
  else { l with
    aline := l.aline ++ p.1 ++ blanks (qtyText W p.2).length
    nline := l.nline ++ blanks p.1.length ++ qtyText W p.2 }

/-- The loop over the atoms (`__init__.py:292-316`). -/
def atomLines (W : World) (aa : List (Text × Qty)) : Lines :=
  aa.foldl (atomStep W) ⟨blanks 4, blanks 4, []⟩

/-- `'{:>18s} : '.format(label)` (`__init__.py:319`). -/
def label (s : Text) : Text := padLeft 18 s ++ " : ".toList

/-- The names (`__init__.py:321-325`): the first line is labelled, the others are indented. -/
def nameLines : Text → List Text → List Text
  | _, [] => []
  | lead, n :: ns => (lead ++ n ++ ['\n']) :: nameLines (blanks lead.length) ns

/-- A write, or an exception raised instead of it. -/
abbrev Step := Except Err (Stream × Text)

/-- A write to the target stream. -/
def say (s : Text) : Step := .ok (.target, s)

/-- Run writes until one of them raises. -/
def run : List Step → List (Stream × Text) × Option Err
  | [] => ([], none)
  | .error e :: _ => ([], some e)
  | .ok w :: rest => (w :: (run rest).1, (run rest).2)

/-- The block of the formula (`__init__.py:291-317`; every class inherits `atoms`). -/
def formulaSteps (W : World) (ss : Subst) : List Step :=
  match (W.sheet ss).amounts with
  | .error e => [.error e]
  | .ok aa =>
    let l := atomLines W aa
    [say ('\n' :: l.aline ++ l.charge ++ '\n' :: l.nline ++ "\n\n".toList)]

/-- One labelled line. -/
def field (name value : Text) : Step := say (label name ++ value ++ ['\n'])

/-- The molecular weight (`__init__.py:327`). -/
def mwStep (W : World) (ss : Subst) : Step :=
  match (W.sheet ss).mw with
  | .error e => .error e
  | .ok t => field "Molecular Weight".toList t

/-- The time the file was last modified (`__init__.py:342-343`). -/
def timeStep (W : World) (ss : Subst) : Step :=
  match W.mtime (W.sheet ss).fromfile with
  | none => .error .exception
  | some t => say (label "Last updated".toList ++ natStr t.hour ++ [':'] ++ two t.min ++ [' '] ++
      months.getD t.month [] ++ [' '] ++ natStr t.day ++ ", ".toList ++ natStr t.year ++
      "\n\n".toList)

/-- `utility.print_line(ss.data['doc'], '')` (`__init__.py:345`, `utility.py:503-504`): it writes
to standard output, whatever the target is.  The width is the default, 74. -/
def docStep (W : World) (ss : Subst) : Step :=
  match PyroMat.Text.splitLines W.ws (W.sheet ss).doc [] [] 74 with
  | none => .error .type
  | some t => .ok (.stdout, t)

/-- The branch for one member (`__init__.py:288-345`) after `members.pop()`. -/
def details (W : World) (ss : Subst) : List Step :=
  [say ("***\nInformation summary for substance: \"".toList ++ ss.id ++ "\"\n***\n".toList)] ++
  formulaSteps W ss ++
  (match ss.names with
    | some ns => (nameLines (label "Names".toList) ns).map say
    | none => []) ++
  [mwStep W ss] ++
  (match ss.cas with
    | some c => [field "CAS number".toList c.toList]
    | none => []) ++
  (match ss.inchi with
    | some c => [field "InChI string".toList c.toList]
    | none => []) ++
  [field "Data class".toList ss.cls.toList,
   field "Loaded from".toList (W.sheet ss).fromfile,
   timeStep W ss,
   docStep W ss]

/-! ## The table (`__init__.py:347-395`) -/

/-- `proplist` (`__init__.py:369`). -/
def proplist : List Text := ["T".toList, "p".toList, "d".toList, "v".toList, "cp".toList,
  "cv".toList, "gam".toList, "e".toList, "h".toList, "s".toList, "mw".toList, "R".toList,
  "X".toList, "Y".toList]

/-- `proplen` (`__init__.py:370-372`). -/
def proplen : Nat := proplist.foldl (fun n p => n + (p.length + 1)) 0

/-- `s <= t` for Python strings. -/
def pyLe : Text → Text → Bool
  | [], _ => true
  | _ :: _, [] => false
  | a :: s, b :: t => if a = b then pyLe s t else decide (a.toNat < b.toNat)

/-- `members.sort(key=lambda ss: ss.data['id'])` (`__init__.py:357-358`): a stable sort. -/
def sorted (l : List Subst) : List Subst := l.mergeSort (fun a b => pyLe a.id b.id)

/-- `idlen` (`__init__.py:360-364`). -/
def idlen (l : List Subst) : Nat := l.foldl (fun n ss => max n ss.id.length) 2

/-- The name printed in the table: the first of a non-empty list (`__init__.py:365-366`, `385-388`). -/
def firstName (ss : Subst) : Text :=
  match ss.names with
  | some (n :: _) => n
  | _ => []

/-- `namelen` (`__init__.py:362-366`). -/
def namelen (l : List Subst) : Nat :=
  l.foldl (fun n ss =>
    match ss.names with
    | some (nm :: _) => max n nm.length
    | _ => n) 4

/-- `classlen` (`__init__.py:361`): fixed. -/
def classlen : Nat := 5

/-- `fmt.format(id, class, name)` (`__init__.py:374`). -/
def rowHead (wid wname : Nat) (i c n : Text) : Text :=
  [' '] ++ padRight wid i ++ " : ".toList ++ center classlen c ++ " : ".toList ++
    padRight wname n ++ " :".toList

/-- The line of dashes (`__init__.py:375`, `377`). -/
def rule (wid wname : Nat) : Text :=
  List.replicate (wid + classlen + wname + proplen + 11) '-' ++ ['\n']

/-- `head` (`__init__.py:375-377`). -/
def head (wid wname : Nat) : Text :=
  rule wid wname ++ rowHead wid wname "ID".toList "class".toList "name".toList ++
    " properties\n".toList ++ rule wid wname

/-- The cell of one property (`__init__.py:390-394`). -/
def propCell (W : World) (ss : Subst) (p : Text) : Text :=
  if (W.sheet ss).has p then ' ' :: p else blanks (p.length + 1)

/-- The writes of one member (`__init__.py:381-395`). -/
def rowWrites (W : World) (wid wname index : Nat) (ss : Subst) : List Text :=
  (if index % 15 = 0 then [head wid wname] else []) ++
  [rowHead wid wname ss.id ss.cls.toList (firstName ss)] ++
  proplist.map (propCell W ss) ++ [['\n']]

/-- The loop over the sorted members (`__init__.py:379-395`). -/
def rowsFrom (W : World) (wid wname : Nat) : Nat → List Subst → List Text
  | _, [] => []
  | index, ss :: rest => rowWrites W wid wname index ss ++ rowsFrom W wid wname (index + 1) rest

/-- The branch for several members (`__init__.py:347-395`), from the sorted list on. -/
def tableOf (W : World) (l : List Subst) : List Text :=
  ["  PYroMat\nThermodynamic computational tools for Python\n".toList,
   "version: ".toList ++ W.version ++ ['\n']] ++
  rowsFrom W (idlen l) (namelen l) 0 l

/-- The branch for several members (`__init__.py:347-395`). -/
def table (W : World) (members : List Subst) : List Text := tableOf W (sorted members)

/-! ## The function -/

/-- The `members` argument.  A set is listed in its iteration order. -/
inductive Arg where
  | none
  | instance (ss : Subst)
  | ident (s : Text)
  | set (l : List Subst)
  | list (l : List Subst)
  | tuple (l : List Subst)
  | generator (l : List Subst)

/-- The outcome: the writes, the caller's `members` object afterwards, the exception if any. -/
structure Outcome where
  wrote : List (Stream × Text)
  after : Arg
  err : Option Err

/-- The three branches (`__init__.py:281-395`) for members with a length.  `keep` and `emptied` are the
caller's object untouched and after `members.pop()`; `canPop` says whether it has that method
(otherwise an `AttributeError` is raised). -/
def report (W : World) (kw : Query) (members : List Subst) (keep emptied : Arg) (canPop : Bool) :
    Outcome :=
  match members with
  | [] => ⟨[(.target, "No substances matched the critera.\n".toList ++ W.reprKw kw ++ ['\n'])],
      keep, none⟩
  | [ss] =>
    if canPop then
      let r := run (details W ss)
      ⟨r.1, emptied, r.2⟩
    else ⟨[], keep, some .attribute⟩
  | _ => ⟨(table W members).map (fun t => (.target, t)), keep, none⟩

/-- `info` (`__init__.py:236-395`): `data` is the loaded collection (`dat.data.values()`), `kw` the
remaining keyword arguments, which reach `search` only when `members` is omitted.  `get` looks the
identifier up in the collection (`__init__.py:72-83`), which is keyed by identifier; the message
`get` prints before it raises is left out. -/
def info (lower : Text → Text) (W : World) (data : List Subst) (arg : Arg) (kw : Query) :
    Outcome :=
  match arg with
  | .none => report W kw (search lower data kw none) .none .none true
  | .instance ss => report W kw [ss] (.instance ss) (.instance ss) true
  | .ident s =>
    match data.find? (fun ss => ss.id = s) with
    | none => ⟨[], .ident s, some .param⟩
    | some ss => report W kw [ss] (.ident s) (.ident s) true
  | .set l => report W kw l (.set l) (.set []) true
  | .list l => report W kw l (.list l) (.list []) true
  | .tuple l => report W kw l (.tuple l) (.tuple l) false
  | .generator l => ⟨[], .generator l, some .type⟩

end PyroMat.Registry.Info
