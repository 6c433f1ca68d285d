import Verif.Igt.Spec
import Verif.Igt.Thermo

/-!
# Specification vocabulary for the properties of dynamic mixtures
-/

namespace PyroMat.Igt.Spec

open PyroMat PyroMat.Gas PyroMat.Igt PyroMat.Units PyroMat.Units.Spec PyroMat.Gas.Spec
open scoped BigOperators

variable {σ : Type} [DecidableEq σ]

/-- The position of the mixture that belongs to position `i` of a result: the last axes, axes of
length 1 repeated.  For a result with as many axes as the mixture this is `src m.shape i`. -/
def place (m : Mix σ) (i : List Nat) : List Nat :=
  src m.shape (i.drop (i.length - m.shape.length))

/-- The amount of substance `s` at position `i` of a result, in the working unit of matter. -/
noncomputable def holds (E : Env) (S : Sys) (L : Lib σ) (m : Mix σ) (s : σ) (i : List Nat) : ℝ :=
  amount m s (place m i) / msize E.a (L.gas s).mw S.m

/-- Total number of kilomoles at position `i` of a result. -/
noncomputable def kmols (m : Mix σ) (i : List Nat) : ℝ := ∑ s ∈ m.c.toFinset, amount m s (place m i)

/-- Mole fraction of a substance at position `i` of a result. -/
noncomputable def molFrac (m : Mix σ) (s : σ) (i : List Nat) : ℝ :=
  amount m s (place m i) / kmols m i

/-- Mean molecular weight at position `i` of a result. -/
noncomputable def meanMw (L : Lib σ) (m : Mix σ) (i : List Nat) : ℝ :=
  weigh (fun s => (L.gas s).mw) m (place m i) / kmols m i

/-- All constituents of the mixture are valid at the reading `t` of the working temperature scale. -/
def ValidAt (S : Sys) (L : Lib σ) (m : Mix σ) (t : ℝ) : Prop :=
  ∀ s ∈ m.c, (L.gas s).Tlo ≤ toKelvin S.T.name t ∧ toKelvin S.T.name t ≤ (L.gas s).Thi

/-- A result shows the number `x` at position `i`, single values being repeated along an axis. -/
def Shows (r : Except Err NArr) (i : List Nat) (x : ℝ) : Prop :=
  ∃ A, r = .ok A ∧ A.val (src A.shape (i.drop (i.length - A.shape.length))) = some x

/-- `i` is a position of the result. -/
def Position (r : Except Err NArr) (i : List Nat) : Prop := ∃ A, r = .ok A ∧ Within i A.shape

/-- A result has this shape. -/
def HasShape (r : Except Err NArr) (sh : List Nat) : Prop := ∃ A, r = .ok A ∧ A.shape = sh

/-! ## Arguments of a call -/

/-- All properties given by a call, positional ones named T, then p. -/
def suppliedM (varg : List Arr) (kw : KwM) : KwM := ["T", "p"].zip varg ++ kw

/-- Their names. -/
def givenM (varg : List Arr) (kw : KwM) : List String :=
  ["T", "p"].take varg.length ++ kw.map (fun q => q.1)

/-- The call supplies exactly the property `a` with value `va` and the property `b` with value
`vb` (by position or by name, in any order), and they are an allowed pair. -/
structure SuppliesM (varg : List Arr) (kw : KwM) (a : String) (va : Arr) (b : String) (vb : Arr) :
    Prop where
  len : varg.length ≤ 2
  args : (suppliedM varg kw).Perm [(a, va), (b, vb)]
  ok : Admissible [a, b]

/-- What an argument says about position `i` of the result: axes matched from the right, single
values repeated. -/
def entry (a : Arr) (i : List Nat) : ℝ := a.val (src a.shape (i.drop (i.length - a.shape.length)))

/-- An array of shape `s` can be used in a result of shape `sh`: it is a single value, or it has the
same number of axes and each has length 1 or the length in `sh`. -/
def Suits (s sh : List Nat) : Prop := s = [] ∨ s = [1] ∨ List.Forall₂ (fun a n => a = 1 ∨ a = n) s sh

/-- Every temperature given lies between the lowest and the highest limit of the constituents. -/
def InLimits (S : Sys) (L : Lib σ) (m : Mix σ) (ta : Arr) : Prop :=
  ∀ j, Within j ta.shape → (∃ s ∈ m.c, (L.gas s).Tlo ≤ toKelvin S.T.name (ta.val j)) ∧
    ∃ s ∈ m.c, toKelvin S.T.name (ta.val j) ≤ (L.gas s).Thi

/-- No inversion of the call prints its warning. -/
def SilentM (E : Env) (L : Lib σ) (m : Mix σ) (varg : List Arr) (kw : KwM) : Prop :=
  ∀ st, argparseM E L m varg kw = .ok st → st.warned = false

/-- A property that rises with temperature on `[lo, hi]`: defined there, with reported derivative at
least `m > 0` and values changing by at most `M` per kelvin, plus `J` in all for the jumps between the
pieces of a fit. -/
structure Rises (f : ℝ → Option (ℝ × ℝ)) (lo hi m M J : ℝ) : Prop where
  m_pos : 0 < m
  M_nonneg : 0 ≤ M
  J_nonneg : 0 ≤ J
  slope : ∀ x, lo ≤ x → x ≤ hi → ∃ y y', f x = some (y, y') ∧ m ≤ y'
  lipschitz : ∀ x x' y y', lo ≤ x → x ≤ hi → lo ≤ x' → x' ≤ hi → (f x).map (·.1) = some y →
    (f x').map (·.1) = some y' → |y - y'| ≤ M * |x - x'| + J

/-- All constituents have the same temperature limits `lo` and `hi`. -/
def CommonRange (L : Lib σ) (m : Mix σ) (lo hi : ℝ) : Prop :=
  lo ≤ hi ∧ m.c ≠ [] ∧ ∀ s ∈ m.c, (L.gas s).Tlo = lo ∧ (L.gas s).Thi = hi

/-- The part of the entropy (kJ/K) of a mixture at a position that depends on pressure (in Pa) and
mixing: each substance at its partial pressure relative to its reference pressure. -/
noncomputable def pressurePart (L : Lib σ) (m : Mix σ) (i : List Nat) (p : ℝ) : ℝ :=
  -(Ru * ∑ s ∈ m.c.toFinset, amount m s (place m i) * Real.log (p * molFrac m s i / (L.gas s).pref))

end PyroMat.Igt.Spec
