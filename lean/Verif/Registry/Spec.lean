import Verif.Registry.Model

/-! # What the search, naming and registry properties mean -/

namespace PyroMat.Registry.Spec

open PyroMat.Registry

/-- `s` contains `sub` as a contiguous substring. -/
def HasText (sub s : List Char) : Prop := ∃ a b, s = a ++ sub ++ b

/-- A substance satisfies all the criteria of a query, in the words of the documentation (with the
collection criterion as implemented: the identifier begins with the given text). -/
structure Satisfies (lower : List Char → List Char) (q : Query) (c : Subst) : Prop where
  pmclass : ∀ p, q.pmclass = some p → c.cls = p
  collection : ∀ k, q.collection = some k → ∃ rest, c.id = k ++ rest
  cas : ∀ k, q.cas = some k → c.cas = some k
  inchi : ∀ k, q.inchi = some k → c.inchi = some k
  name : ∀ n, q.name = some n → HasText n c.id ∨
    ∃ ns, c.names = some ns ∧ ∃ cn ∈ ns, HasText (lower n) (lower cn)
  atom : ∀ a, q.contains = .atom a → ∃ n, c.atoms.lookup a = some n
  atoms : ∀ l, q.contains = .list l → ∀ a ∈ l, ∃ n, c.atoms.lookup a = some n
  table : ∀ t, q.contains = .table t → ∀ a n, (a, n) ∈ t →
    ∃ m, c.atoms.lookup a = some m ∧ ∀ k, n = some k → m = k

/-- The class definitions met in the given directories, in order: eligible files only. -/
def definitions (dirs : List RegDir) : List (String × Nat) :=
  dirs.flatMap fun d => d.flatMap fun f =>
    if eligible f.1 then f.2.filterMap (fun v => v.2.map fun c => (v.1, c)) else []

/-- The definitions of one class name. -/
def named (k : String) (ds : List (String × Nat)) : List Nat :=
  (ds.filter (fun d => d.1 = k)).map Prod.snd

/-- Hill order as documented: carbon, hydrogen, then the other elements alphabetically. -/
def rank (s : String) : Nat := if s = "C" then 0 else if s = "H" then 1 else 2

/-- `a` is written before `b`. -/
def Before (a b : String × Int) : Prop := rank a.1 < rank b.1 ∨ (rank a.1 = rank b.1 ∧ a.1 ≤ b.1)

/-- The text of a formula: symbol and count (omitted when one). -/
def formula (l : List (String × Int)) : String :=
  String.join (l.map fun p => if p.2 = 1 then p.1 else p.1 ++ toString p.2)

end PyroMat.Registry.Spec
