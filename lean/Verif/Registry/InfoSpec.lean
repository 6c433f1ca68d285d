import Verif.Registry.Info
import Verif.Registry.Spec
import Mathlib.Data.List.Forall2

/-! # What the properties of `info` mean -/

namespace PyroMat.Registry.Info.Spec

open PyroMat.Registry PyroMat.Registry.Info

/-- The text a stream received. -/
def received (s : Stream) (w : List (Stream × Text)) : Text :=
  w.flatMap fun x => if x.1 = s then x.2 else []

/-- Nothing but spaces. -/
def Blank (s : Text) : Prop := ∀ c ∈ s, c = ' '

/-- Dictionary order: `s` begins `t`, or has the smaller character where they first differ. -/
def InOrder (s t : Text) : Prop :=
  (∃ r, t = s ++ r) ∨ ∃ p a b r r', s = p ++ a :: r ∧ t = p ++ b :: r' ∧ a.toNat < b.toNat

/-- The widths of the three text columns of a table. -/
structure Widths where
  id : Nat
  cls : Nat
  name : Nat

/-- A line of the table: identifier, class and name, each in a column of the given width and padded
with spaces, followed by the rest of the line. -/
def IsLine (w : Widths) (i c n rest line : Text) : Prop :=
  ∃ ci cc cn : Text,
    line = " ".toList ++ ci ++ " : ".toList ++ cc ++ " : ".toList ++ cn ++ " :".toList ++ rest ∧
    ci.length = w.id ∧ cc.length = w.cls ∧ cn.length = w.name ∧
    (∃ b, Blank b ∧ ci = i ++ b) ∧
    (∃ a b, Blank a ∧ Blank b ∧ cc = a ++ c ++ b) ∧
    (∃ b, Blank b ∧ cn = n ++ b)

/-- The properties of the table, in the order of their columns. -/
def columns : List Text := ["T".toList, "p".toList, "d".toList, "v".toList, "cp".toList,
  "cv".toList, "gam".toList, "e".toList, "h".toList, "s".toList, "mw".toList, "R".toList,
  "X".toList, "Y".toList]

/-- The cell of a property: its name when the substance has it, as many spaces otherwise. -/
def IsCell (has : Text → Bool) (p cell : Text) : Prop :=
  (has p = true ∧ cell = ' ' :: p) ∨ (has p = false ∧ Blank cell ∧ cell.length = p.length + 1)

/-- The name shown: the first one, nothing for a substance without names. -/
def Shown (ss : Subst) (n : Text) : Prop :=
  (∃ rest, ss.names = some (n :: rest)) ∨ ((ss.names = none ∨ ss.names = some []) ∧ n = [])

/-- The row of a substance. -/
def IsRow (W : World) (w : Widths) (ss : Subst) (row : Text) : Prop :=
  ∃ (n : Text) (cells : List Text), Shown ss n ∧
    List.Forall₂ (IsCell (W.sheet ss).has) columns cells ∧
    IsLine w ss.id ss.cls.toList n (cells.flatten ++ "\n".toList) row

/-- The heading: the titles of the columns between two lines of dashes, which are at least as long
as a row. -/
def IsHead (w : Widths) (hd : Text) : Prop :=
  ∃ (line : Text) (n : Nat),
    IsLine w "ID".toList "class".toList "name".toList " properties\n".toList line ∧
    hd = List.replicate n '-' ++ "\n".toList ++ line ++ List.replicate n '-' ++ "\n".toList ∧
    9 + w.id + w.cls + w.name + (columns.map fun p => p.length + 1).sum ≤ n

/-- Rows with the heading before the first and after every fifteen rows. -/
def withHeads (hd : Text) (rows : List Text) : Text :=
  (rows.zipIdx.map fun x => (if x.2 % 15 = 0 then hd else []) ++ x.1).flatten

/-- The first lines of the table. -/
def banner (version : Text) : Text :=
  "  PYroMat\nThermodynamic computational tools for Python\n".toList ++
    ("version: ".toList ++ version ++ ['\n'])

/-- `x` written over `y`: the characters of `x`, and those of `y` where `x` is blank. -/
def overlay (x y : Text) : Text := List.zipWith (fun a b => if a = ' ' then b else a) x y

/-- An amount as a chemist writes it: nothing for one, an integer in full, anything else with three
decimals. -/
def amount (W : World) : Qty → Text
  | .int 1 => []
  | .int n => intStr n
  | .real x => if x = 1 then [] else W.fmt3 x

/-- A formula on one line: each symbol followed by its amount. -/
def formula (W : World) (aa : List (Text × Qty)) : Text :=
  aa.flatMap fun p => p.1 ++ amount W p.2

/-- The charge: nothing without an entry for the electron; `-` for electrons gained, `+` for electrons
lost, followed by their number unless it is one.  Nothing is said of an entry of zero electrons. -/
def IsCharge (W : World) (aa : List (Text × Qty)) (c : Text) : Prop :=
  match aa.lookup ['e'] with
  | none => c = []
  | some (.int n) => (0 < n → c = '-' :: amount W (.int n)) ∧ (n < 0 → c = '+' :: amount W (.int (-n)))
  | some (.real x) => (0 < x → c = '-' :: (if x = 1 then [] else W.str x)) ∧
      (x < 0 → c = '+' :: (if x = -1 then [] else W.str (-x)))

/-- A labelled line: the label ends in column 18; a line without a label is indented to the same
column. -/
def IsEntry (e : Option Text × Text) (line : Text) : Prop :=
  ∃ lead : Text, lead.length = 21 ∧ line = lead ++ e.2 ++ ['\n'] ∧
    match e.1 with
    | some l => ∃ b, Blank b ∧ lead = b ++ l ++ " : ".toList
    | none => Blank lead

/-- The date and time of a file: `9:05 March 1, 2022`. -/
def clock (t : Stamp) : Text :=
  natStr t.hour ++ [':'] ++ ((if t.min < 10 then ['0'] else []) ++ natStr t.min) ++
  [' '] ++ ["January".toList, "February".toList, "March".toList, "April".toList,
    "May".toList, "June".toList, "July".toList, "August".toList, "September".toList,
    "October".toList, "November".toList, "December".toList].getD t.month [] ++
  [' '] ++ natStr t.day ++ ", ".toList ++ natStr t.year

/-- What the summary of a substance tells, line by line. -/
def entries (W : World) (ss : Subst) (mw : Text) (t : Stamp) : List (Option Text × Text) :=
  (match ss.names with
    | some (n :: ns) => (some "Names".toList, n) :: ns.map fun x => (none, x)
    | _ => []) ++
  [(some "Molecular Weight".toList, mw)] ++
  (ss.cas.toList.map fun c => (some "CAS number".toList, c.toList)) ++
  (ss.inchi.toList.map fun c => (some "InChI string".toList, c.toList)) ++
  [(some "Data class".toList, ss.cls.toList), (some "Loaded from".toList, (W.sheet ss).fromfile),
   (some "Last updated".toList, clock t)]

/-- The title of a summary. -/
def title (ss : Subst) : Text :=
  "***\nInformation summary for substance: \"".toList ++ ss.id ++ "\"\n***\n".toList

/-- The message when there is nothing to show. -/
def nothing (W : World) (kw : Query) : Text :=
  "No substances matched the critera.\n".toList ++ W.reprKw kw ++ ['\n']

/-- The ways of asking for one substance: the object, its identifier, a set or list with nothing else
in it, or criteria that it alone satisfies. -/
def Refers (lower : Text → Text) (data : List Subst) (kw : Query) (arg : Arg) (ss : Subst) : Prop :=
  arg = .instance ss ∨ (arg = .ident ss.id ∧ ss ∈ data) ∨ arg = .set [ss] ∨ arg = .list [ss] ∨
  (arg = .none ∧ ∀ c, (c ∈ data ∧ Registry.Spec.Satisfies lower kw c) ↔ c = ss)

end PyroMat.Registry.Info.Spec
