import Verif.Igt.Model
import Verif.Gas.Spec

/-!
# Specification vocabulary for dynamic mixtures

A mixture is described by the amount of every substance at every position of its shape.
-/

namespace PyroMat.Igt.Spec

open PyroMat PyroMat.Gas PyroMat.Igt
open scoped BigOperators

variable {σ : Type} [DecidableEq σ]

/-- Kilomoles of substance `s` in the mixture at position `i`: everything entered for that
substance, zero if there is none. -/
noncomputable def amount (m : Mix σ) (s : σ) (i : List Nat) : ℝ :=
  ∑ r ∈ Finset.range m.c.length, if m.c[r]? = some s then m.q.val (r :: i) else 0

/-- The array of amounts has one row per substance, and the mixture has at least one axis.  Every
mixture the constructor returns satisfies this. -/
structure Wf (m : Mix σ) : Prop where
  rows : m.q.shape = m.c.length :: m.shape
  rank : m.shape ≠ []

/-- `i` is a position within `shape`. -/
def Within (i shape : List Nat) : Prop := List.Forall₂ (fun k n => k < n) i shape

/-- Same rank, and axis by axis the lengths agree or one of them is 1. -/
def Compat (s t : List Nat) : Prop := List.Forall₂ (fun a b => a = b ∨ a = 1 ∨ b = 1) s t

/-- The common shape of two compatible shapes. -/
def joined (s t : List Nat) : List Nat := List.zipWith (fun a b => if a = 1 then b else a) s t

/-- Where an operand of shape `s` is read for position `i` of the result: axes of length 1 are
repeated. -/
def src (s i : List Nat) : List Nat := List.zipWith (fun n k => if n = 1 then 0 else k) s i

/-- Two mixtures hold the same: same shape and same amount of every substance everywhere. -/
def Same (a b : Mix σ) : Prop :=
  a.shape = b.shape ∧ ∀ s i, Within i a.shape → amount a s i = amount b s i

open PyroMat.Units PyroMat.Units.Spec PyroMat.Units.Props PyroMat.Gas.Spec

/-- A working configuration whose `unit_mass` and `unit_molar` are the listed units `um`, `un`. -/
structure Works (E : Env) (S : Sys) (um un : String) : Prop where
  uses : Uses E S
  mass : E.c.str "unit_mass" = .ok um
  massUnit : (Units.mass E.a).contains um = true
  molar : E.c.str "unit_molar" = .ok un
  molarUnit : (Units.molar E.a).contains un = true

/-- One unit of mass per unit of moles is one kg per kmol: kg with kmol, g with mol, ... -/
def Consistent (E : Env) (um un : String) : Prop :=
  size (Units.mass E.a) um = size (Units.molar E.a) un

/-- Every constituent has a positive molecular weight. -/
def Weighs (L : Lib σ) (m : Mix σ) : Prop := ∀ s ∈ m.c, 0 < (L.gas s).mw

/-- Sum over the contents of a mixture of amount times a number `w s` belonging to the
substance. -/
noncomputable def weigh (w : σ → ℝ) (m : Mix σ) (i : List Nat) : ℝ :=
  ∑ s ∈ m.c.toFinset, w s * amount m s i

/-- Atoms of kind `a` in a molecule of substance `s`. -/
def atomsIn (L : Lib σ) (a : String) (s : σ) : ℝ :=
  (((L.atoms s).filter (fun p => p.1 = a)).map Prod.snd).sum

/-! ## Mixture strings -/

/-- One term of a mixture string: text before the name (quantity and blanks), the name, and blanks
after it. -/
structure Term where
  pre : List Char
  name : List Char
  post : List Char

/-- The text of a term. -/
def Term.text (t : Term) : List Char := t.pre ++ t.name ++ t.post

/-- Terms joined by plus signs. -/
def joinPlus : List (List Char) → List Char
  | [] => []
  | [a] => a
  | a :: as => a ++ '+' :: joinPlus as

/-- The term is written as documented: no letters and no plus sign in the quantity; a name that
starts with a letter, contains no plus sign and does not end in a blank; and the quantity `x` is
the number written, or 1 if there is only blank space. -/
structure Term.Writes (ws alpha : Char → Bool) (toFloat : List Char → Option ℝ) (t : Term) (x : ℝ) :
    Prop where
  pre : ∀ c ∈ t.pre, alpha c = false ∧ c ≠ '+'
  name : ∃ c cs, t.name = c :: cs ∧ alpha c = true
  plus : '+' ∉ t.name
  last : ∀ c ∈ t.name.getLast?, ws c = false
  post : ∀ c ∈ t.post, ws c = true ∧ c ≠ '+'
  value : ((∀ c ∈ t.pre, ws c = true) ∧ x = 1) ∨
    (∃ l n r, t.pre = l ++ n ++ r ∧ (∀ c ∈ l, ws c = true) ∧ (∀ c ∈ r, ws c = true) ∧
      (∃ c, n.head? = some c ∧ ws c = false) ∧ (∃ c, n.getLast? = some c ∧ ws c = false) ∧
      toFloat n = some x)

end PyroMat.Igt.Spec
