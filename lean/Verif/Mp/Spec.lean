import Mathlib.Analysis.SpecialFunctions.Pow.Deriv
import Mathlib.Algebra.BigOperators.Group.List.Basic
import Verif.Mp.Poly

/-!
# Vocabulary for the multi-phase properties: polynomials and derivatives
-/

namespace PyroMat.Mp.Spec

open PyroMat PyroMat.Mp

/-- The one-variable polynomial a list of groups stands for: the sum over groups of
`x^post * sum of c * (x^pre)^i`. -/
noncomputable def poly1At (gs : List Group1) (x : ℝ) : ℝ :=
  (gs.map (fun g => x ^ g.post * (g.terms.map (fun t => t.2 * (x ^ g.pre) ^ t.1)).sum)).sum

/-- The two-variable polynomial: the sum over groups of
`x^postx * y^posty * sum of c * (x^prex)^i * (y^prey)^j`. -/
noncomputable def poly2At (gs : List Group2) (x y : ℝ) : ℝ :=
  (gs.map (fun g => x ^ g.postx * y ^ g.posty *
    (g.terms.map (fun t => t.2.2 * (x ^ g.prex) ^ t.1 * (y ^ g.prey) ^ t.2.1)).sum)).sum

/-- Terms are listed in strictly descending order of exponent, as documented, and there is at least
one. -/
def Sorted1 (g : Group1) : Prop := g.terms ≠ [] ∧ g.terms.Pairwise (fun a b => b.1 < a.1)

/-- Terms are listed in descending order of x-exponent and then of y-exponent, without repetition, as
documented, and there is at least one. -/
def Sorted2 (g : Group2) : Prop :=
  g.terms ≠ [] ∧ g.terms.Pairwise (fun a b => b.1 < a.1 ∨ b.1 = a.1 ∧ b.2.1 < a.2.1)

/-- `j` holds the value of `V` at `x` and its first and second derivatives there. -/
structure Is1 (V : ℝ → ℝ) (x : ℝ) (j : P3) : Prop where
  val : j.p = V x
  d1 : HasDerivAt V j.px x
  d2 : HasDerivAt (deriv V) j.pxx x

/-- `j` holds the value of `V` at `(x, y)` and its five partial derivatives up to second order
there; the mixed one both ways. -/
structure Is2 (V : ℝ → ℝ → ℝ) (x y : ℝ) (j : J6) : Prop where
  val : j.p = V x y
  dx : HasDerivAt (fun s => V s y) j.px x
  dy : HasDerivAt (fun s => V x s) j.py y
  dxx : HasDerivAt (fun s => deriv (fun u => V u y) s) j.pxx x
  dxy : HasDerivAt (fun s => deriv (fun u => V u s) x) j.pxy y
  dyx : HasDerivAt (fun s => deriv (fun u => V s u) y) j.pxy x
  dyy : HasDerivAt (fun s => deriv (fun u => V x u) s) j.pyy y

end PyroMat.Mp.Spec

namespace PyroMat.Mp

/-- Forget the derivatives above order `d`. -/
def P3.cut (d : Nat) (s : P3) : P3 :=
  ⟨s.p, if d > 0 then s.px else 0, if d > 1 then s.pxx else 0⟩

/-- Forget the derivatives above order `d`. -/
def J6.cut (d : Nat) (s : J6) : J6 :=
  ⟨s.p, if d > 0 then s.px else 0, if d > 0 then s.py else 0, if d > 1 then s.pxx else 0,
    if d > 1 then s.pxy else 0, if d > 1 then s.pyy else 0⟩

end PyroMat.Mp
