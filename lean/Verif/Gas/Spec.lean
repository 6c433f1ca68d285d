import Mathlib.Analysis.Calculus.Deriv.Basic
import Verif.Gas.Model

/-!
# Specification vocabulary for the ideal gases
-/

namespace PyroMat.Gas.Spec

open PyroMat PyroMat.Gas Filter Topology

/-- A usable data entry: strictly ascending positive temperature limits, one row of coefficients
per piece, positive molecular weight and reference pressure. -/
structure WellFormed (D : Data) : Prop where
  ascending : D.Tlim.Pairwise (· < ·)
  rows : D.Tlim.length = D.C.length + 1
  nonempty : D.C ≠ []
  pos : ∀ T ∈ D.Tlim, 0 < T
  mw : 0 < D.mw
  pref : 0 < D.pref

/-- `T` lies strictly between two adjacent limits. -/
def InsidePiece (D : Data) (T : ℝ) : Prop :=
  ∃ i lo hi, D.Tlim[i]? = some lo ∧ D.Tlim[i + 1]? = some hi ∧ lo < T ∧ T < hi

/-- Around `T` the inner routines are differentiable functions of temperature obeying the
thermodynamic relations: `dh/dT = cp`, `ds/dT = cp/T`, `g = h - T s`, and the derivative that
`_h` and `_s` report are those. -/
def Smooth (G : Gas) (T : ℝ) : Prop :=
  ∃ h s cp : ℝ → ℝ,
    (∀ᶠ x in 𝓝 T, G.h x = some (h x, cp x) ∧ G.cp x = some (cp x) ∧
      G.s x = some (s x, cp x / x) ∧ (G.g x).map (·.1) = some (h x - x * s x)) ∧
    HasDerivAt h (cp T) T ∧ HasDerivAt s (cp T / T) T

/-! ## Unit systems -/

open PyroMat.Units PyroMat.Units.Spec PyroMat.Units.Props

/-- A choice of working units: temperature scale, pressure, volume, energy and matter. -/
structure Sys where
  T : Scale
  p : String
  v : String
  e : String
  m : String

/-- Every unit of the system is a listed unit of its kind. -/
structure Sys.Valid (a : SetupArgs ℝ) (S : Sys) : Prop where
  p : (pressure a).contains S.p = true
  v : (volume : Conv ℝ).contains S.v = true
  e : (energy : Conv ℝ).contains S.e = true
  m : IsMatterUnit a S.m

/-- The configuration of `E` works in the unit system `S`, and its default temperature and
pressure are stored in listed units. -/
structure Uses (E : Env) (S : Sys) : Prop where
  pos : Positive E.a
  valid : S.Valid E.a
  T : E.c.str "unit_temperature" = .ok S.T.name
  p : E.c.str "unit_pressure" = .ok S.p
  v : E.c.str "unit_volume" = .ok S.v
  e : E.c.str "unit_energy" = .ok S.e
  m : E.c.str "unit_matter" = .ok S.m
  defT : ∃ s : Scale, E.c.str "def_T_unit" = .ok s.name
  defp : ∃ u, E.c.str "def_p_unit" = .ok u ∧ (pressure E.a).contains u = true

/-- Size of a listed unit: its entry in the conversion table. -/
def size (c : Conv ℝ) (u : String) : ℝ := (c.table.lookup u).getD 1

/-- Size of a matter unit in kmol for molecular weight `mw`. -/
noncomputable def msize (a : SetupArgs ℝ) (mw : ℝ) (u : String) : ℝ := (matterScale a mw u).getD 1

/-- Kinds of quantity, by the units they are given in. -/
inductive Kind
  | temperature | pressure | density | volume | energy | entropy | number

/-- The kind of each property by name (documented units, `ig.py:1436-1442`). -/
def kindOf (name : String) : Kind :=
  match name with
  | "T" => .temperature
  | "p" => .pressure
  | "d" => .density
  | "v" => .volume
  | "h" | "e" | "g" | "f" => .energy
  | "s" | "cp" | "cv" | "R" => .entropy
  | _ => .number

/-- The number, in the units of `S`, of a quantity given in internal units (K, Pa, kmol/m3,
m3/kmol, kJ/kmol, kJ/kmol/K). -/
noncomputable def inUnits (a : SetupArgs ℝ) (S : Sys) (mw : ℝ) (k : Kind) (x : ℝ) : ℝ :=
  match k with
  | .temperature => fromKelvin S.T.name x
  | .pressure => x / size (Units.pressure a) S.p
  | .density => x / msize a mw S.m * size Units.volume S.v
  | .volume => x * msize a mw S.m / size Units.volume S.v
  | .energy => x * (1000 / size Units.energy S.e) * msize a mw S.m
  | .entropy =>
    x * (1000 / size Units.energy S.e) * msize a mw S.m * (size Units.temperature S.T.name / 1.8)
  | .number => x

/-- The converse: the internal-unit value of a number `x` given in the units of `S`. -/
noncomputable def internal (a : SetupArgs ℝ) (S : Sys) (mw : ℝ) (k : Kind) (x : ℝ) : ℝ :=
  match k with
  | .temperature => toKelvin S.T.name x
  | .pressure => x * size (Units.pressure a) S.p
  | .density => x * msize a mw S.m / size Units.volume S.v
  | .volume => x / msize a mw S.m * size Units.volume S.v
  | .energy => x / (1000 / size Units.energy S.e) / msize a mw S.m
  | .entropy =>
    x / (1000 / size Units.energy S.e) / msize a mw S.m / (size Units.temperature S.T.name / 1.8)
  | .number => x

/-! ## Argument lists -/

/-- Names of the properties given by a call: positional ones are T, then p. -/
def given (varg : List (Val ℝ)) (kw : Kw) : List String :=
  ["T", "p"].take varg.length ++ kw.map (·.1)

/-- The documented rule: at most two distinct properties among T, p, d, v, e, h, s, at most one
of T, e, h, and not both d and v. -/
structure Admissible (names : List String) : Prop where
  two : names.length ≤ 2
  distinct : names.Nodup
  known : ∀ n ∈ names, n ∈ ["T", "p", "d", "v", "e", "h", "s"]
  one_of_Teh : ∀ a ∈ names, ∀ b ∈ names, a ∈ ["T", "e", "h"] → b ∈ ["T", "e", "h"] → a = b
  not_dv : ¬ ("d" ∈ names ∧ "v" ∈ names)

/-- All properties given by a call, positional ones named. -/
def supplied (varg : List (Val ℝ)) (kw : Kw) : Kw := ["T", "p"].zip varg ++ kw

/-- The call supplies exactly the property `a` with value `va` and the property `b` with value
`vb` (by position or by name, in any order), and they are an allowed pair. -/
structure Supplies (varg : List (Val ℝ)) (kw : Kw) (a : String) (va : Val ℝ) (b : String)
    (vb : Val ℝ) : Prop where
  len : varg.length ≤ 2
  args : (supplied varg kw).Perm [(a, va), (b, vb)]
  ok : Admissible [a, b]

/-- Element `i` of an argument stretched to the common length: its only element, or the `i`-th. -/
def nth {α : Type} (xs : List α) (i : Nat) : Option α :=
  match xs with
  | [x] => some x
  | xs => xs[i]?

/-- The methods that return an array, by name (the names of their documented results). -/
inductive Quantity
  | T | p | d | v | h | e | s | g | f | cp | cv | gam

/-- Their names. -/
def Quantity.name : Quantity → String
  | .T => "T" | .p => "p" | .d => "d" | .v => "v" | .h => "h" | .e => "e" | .s => "s" | .g => "g"
  | .f => "f" | .cp => "cp" | .cv => "cv" | .gam => "gam"

/-- The method of that name. -/
noncomputable def method : Quantity → Env → Gas → List (Val ℝ) → Kw → Except Err (List Nan)
  | .T => mT | .p => mP | .d => mD | .v => mV | .h => mH | .e => mE | .s => mS | .g => mG
  | .f => mF | .cp => mCp | .cv => mCv | .gam => mGam

/-- The call prints no "failed to converge" warning. -/
def Silent (E : Env) (G : Gas) (varg : List (Val ℝ)) (kw : Kw) : Prop :=
  ∀ st, argparse E G varg kw = .ok st → st.warned = false

/-- A routine that can be inverted on `[lo, hi]`: defined there, with reported derivative at least
`m > 0` in absolute value and values changing by at most `M` per unit, plus `J` in all for the jumps
between the pieces of a fit. -/
structure Regular (f : ℝ → Option (ℝ × ℝ)) (lo hi m M J : ℝ) : Prop where
  m_pos : 0 < m
  M_nonneg : 0 ≤ M
  J_nonneg : 0 ≤ J
  slope : ∀ x, lo ≤ x → x ≤ hi → ∃ y y', f x = some (y, y') ∧ m ≤ |y'|
  lipschitz : ∀ x x' y y', lo ≤ x → x ≤ hi → lo ≤ x' → x' ≤ hi → (f x).map (·.1) = some y →
    (f x').map (·.1) = some y' → |y - y'| ≤ M * |x - x'| + J

/-- Method `q` of the call returns the number `x` (not NaN) at element `i`. -/
def Gives (E : Env) (G : Gas) (varg : List (Val ℝ)) (kw : Kw) (q : Quantity) (i : Nat) (x : ℝ) : Prop :=
  ∃ xs, method q E G varg kw = .ok xs ∧ xs[i]? = some (some x)

/-- Absolute temperature, in degrees of the working scale (K or °R, or eV), of the reading `t`.
(Kelvin as the library converts it, within 3e-14 of the definition by C07.) -/
noncomputable def absolute (S : Sys) (t : ℝ) : ℝ :=
  toKelvin S.T.name t * (1.8 / size Units.temperature S.T.name)

/-- Within its limits the gas has an enthalpy, entropy and heat capacity and a Gibbs energy
`h - T s`, and the derivative of the enthalpy that `_h` reports is the heat capacity. -/
def Coherent (G : Gas) : Prop :=
  ∀ T, G.Tlo ≤ T → T ≤ G.Thi → ∃ h s cp sT gT, G.h T = some (h, cp) ∧ G.cp T = some cp ∧
    G.s T = some (s, sT) ∧ G.g T = some (h - T * s, gT)

end PyroMat.Gas.Spec
