import Verif.Units.Model

/-!
# Specification vocabulary for the unit conversions

Everything here is phrased in terms of calls of the public functions.
-/

namespace PyroMat.Units.Spec

open PyroMat PyroMat.Units

variable {K : Type} [Field K] [LinearOrder K]

/-- The value returned by a conversion call (no exponent handling hidden). -/
def returned (r : Except Err (Res K)) : Except Err (Val K) := r.map (·.ret)

/-- "`1 a` is `x b`": the number that `conv(1., a, b)` returns. -/
def OneIs (c : Conv K) (a b : String) (x : K) : Prop :=
  ∀ cfg, returned (c.call cfg (.scalar 1) (some a) (some b) none false) = .ok (.scalar x)

/-- Physically meaningful arguments of `setup`. -/
structure Positive (a : SetupArgs K) : Prop where
  Tstd : 0 < a.Tstd
  pstd : 0 < a.pstd
  g : 0 < a.g
  dh2o : 0 < a.dh2o
  dhg : 0 < a.dhg

/-- A user-supplied table is usable when no factor is zero. -/
def NonZero (c : Conv K) : Prop := ∀ p ∈ c.table, p.2 ≠ 0

/-- The contract of an optionally in-place elementwise routine `f value inplace`:
either it fails for every value with the same error, or there is one scalar function `g` such
that the result is `g` applied to every element, a copying call leaves the caller's data alone
and an in-place call on an array leaves the result in the caller's array. -/
def InplaceContract (f : Val K → Bool → Except Err (Res K)) : Prop :=
  (∃ e, ∀ v ip, f v ip = .error e) ∨
  ∃ g : K → K, ∀ v : Val K,
    (∃ r, f v false = .ok r ∧ r.ret = v.map g ∧ r.caller = v) ∧
    (∃ r, f v true = .ok r ∧ r.ret = v.map g ∧
      r.caller = if v.isArr then v.map g else v)

/-- The five temperature scales. -/
inductive Scale | K | C | R | F | eV
  deriving DecidableEq

/-- Their unit strings. -/
def Scale.name : Scale → String
  | .K => "K" | .C => "C" | .R => "R" | .F => "F" | .eV => "eV"

/-- Thermodynamic (Kelvin) temperature denoted by the number `x` on a scale, by definition of
the scales. -/
def kelvin : Scale → K → K
  | .K, x => x
  | .C, x => x + 273.15
  | .R, x => x * (5 / 9)
  | .F, x => (x + 459.67) * (5 / 9)
  | .eV, x => x * 1.602176634e-19 / 1.380649e-23

end PyroMat.Units.Spec
