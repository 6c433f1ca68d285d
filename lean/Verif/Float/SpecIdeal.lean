import Verif.Float.SpecResidual
import Verif.Float.SpecPoly
import Verif.Mp.SpecHelm

/-!
# Sizes of the ideal part and of the energies

The sums of the magnitudes of the terms of the documented formulas.  A logarithm counts as its magnitude plus 1: the 1
stands for the rounding of its argument.
-/

namespace PyroMat.Float.Spec

open PyroMat PyroMat.Mp

/-- The size of the ideal part `log d + l log t + m t log t + p(t) + Σ c log(1 - exp(-θ t))`, ... -/
noncomputable def idealSize (g : AOgroup) (t d : ℝ) : ℝ :=
  (|Real.log d| + 1) + |g.logt.getD 0| * (|Real.log t| + 1) + |g.tlogt.getD 0| * t * (|Real.log t| + 1) +
    size0 (g.coef0.getD []) t + (g.coef1.map fun r => |r.2| * (|Real.log (1 - Real.exp (-r.1 * t))| + 1)).sum

/-- ... and of its derivative by reduced temperature. -/
noncomputable def idealSizeT (g : AOgroup) (t : ℝ) : ℝ :=
  |g.logt.getD 0| / t + |g.tlogt.getD 0| * (|Real.log t| + 1 + 1) + size1 (g.coef0.getD []) t +
    (g.coef1.map fun r => |r.2| * (|r.1| * Real.exp (-r.1 * t) / (1 - Real.exp (-r.1 * t)))).sum

/-- Ideal data of the documented form, with bounds: exponents inside the polynomial up to `nx`, at most `ng` groups,
exponents outside up to `w`, arguments of exponentials up to `M` and so far from 0 that subtracting the exponential from
1 amplifies errors by `Q` at most. -/
structure Tame (g : AOgroup) (nx ng w M Q : Nat) (t : ℝ) : Prop where
  sorted : ∀ q ∈ g.coef0.getD [], Mp.Spec.Sorted1 q
  inside : ∀ q ∈ g.coef0.getD [], ∀ u ∈ q.terms, u.1 ≤ nx
  groups : (g.coef0.getD []).length ≤ ng
  outside : ∀ q ∈ g.coef0.getD [], |q.pre| ≤ w ∧ |q.post| ≤ w
  positive : ∀ r ∈ g.coef1, 0 < r.1
  args : ∀ r ∈ g.coef1, r.1 * t ≤ M
  apart : ∀ r ∈ g.coef1, 1 + Real.exp (-r.1 * t) ≤ Q * (1 - Real.exp (-r.1 * t))

/-- The number of roundings of the ideal part. -/
def idealRoundings (nx ng w M Q m : Nat) : Nat :=
  (nx + 1) * (2 * w + 5) + 3 * (2 * w + 3) + ng + 2 * (8 * M + 2) * Q + 8 * M + m + 20

/-- The sizes of the parts an energy is made of: reduced temperature and sizes of the ideal part, reduced temperature and
density and sizes of the residual part. -/
structure Parts where
  tto : ℝ
  o : ℝ
  oT : ℝ
  tt : ℝ
  dd : ℝ
  r : ℝ
  rT : ℝ
  rD : ℝ

/-- The sizes at a state. -/
noncomputable def partsAt (To dso Tr dsr : ℝ) (g : AOgroup) (coef0 : List (List Group2)) (coef1 : List Row1) (T d : ℝ) : Parts :=
  ⟨To / T, idealSize g (To / T) (d / dso), idealSizeT g (To / T), Tr / T, d / dsr,
    arSize coef0 coef1 (Tr / T) (d / dsr), arSizeT coef0 coef1 (Tr / T) (d / dsr), arSizeD coef0 coef1 (Tr / T) (d / dsr)⟩

/-- The size of the internal energy, ... -/
def Parts.e (s : Parts) (R Tr : ℝ) : ℝ := (s.oT + s.rT) * (R * Tr)

/-- ... the enthalpy, ... -/
def Parts.h (s : Parts) (R T : ℝ) : ℝ := (1 + s.tto * s.oT + (s.dd * s.rD + s.tt * s.rT)) * (R * T)

/-- ... the entropy, ... -/
def Parts.s (s : Parts) (R : ℝ) : ℝ := (s.tto * s.oT + s.o + (s.tt * s.rT + s.r)) * R

/-- ... the free energy ... -/
def Parts.f (s : Parts) (R T : ℝ) : ℝ := (s.o + s.r) * (R * T)

/-- ... and the Gibbs energy. -/
def Parts.g (s : Parts) (R T : ℝ) : ℝ := (s.o + 1 + (s.r + s.dd * s.rD)) * (R * T)

end PyroMat.Float.Spec
