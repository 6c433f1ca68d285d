import Mathlib.Data.List.Perm.Basic
import Verif.Solve.Model

/-!
# Vocabulary for the solver's properties
-/

namespace PyroMat.Solve.Spec

open PyroMat PyroMat.Solve

/-- The length of a value that is iterated: a list of length other than 1. -/
def Arg.lenIs (a : Arg) (n : Nat) : Prop := ∃ l, a = .many l ∧ l.length = n ∧ n ≠ 1

/-- All the values that are lists of length other than 1 have the same length. -/
def Agree (vals : List Arg) : Prop :=
  ∀ a ∈ vals, ∀ b ∈ vals, ∀ m n, Arg.lenIs a m → Arg.lenIs b n → m = n

/-- The value used for element `k`: scalars and length-1 lists are used whole. -/
def pick (a : Arg) (k : Nat) : Arg :=
  match a with
  | .one x => .one x
  | .many l => if l.length = 1 then .many l else .one (l.getD k 0)

/-- The value of the unknown in a call of the user's property. -/
def at_ (S : Solver) (a : Args) : ℝ := num a S.param

/-- The error tolerated for target `y`. -/
noncomputable def tol (S : Solver) (y : ℝ) : ℝ := max S.small |S.eps * y|

end PyroMat.Solve.Spec
