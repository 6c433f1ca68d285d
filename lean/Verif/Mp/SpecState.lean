import Verif.Gas.Spec
import Verif.Mp.Methods

/-!
# Specification vocabulary for the multiphase substances
-/

namespace PyroMat.Mp.Spec

open PyroMat PyroMat.Units PyroMat.Gas PyroMat.Gas.Spec PyroMat.Mp

/-! ## Units

The multiphase class works in K, Pa, kg/m3, m3/kg, J/kg and J/kg/K. -/

/-- A quantity in these units, per kmol (and in kJ) instead of per kg (and in J). -/
noncomputable def perKmol (mw : ℝ) (k : Kind) (x : ℝ) : ℝ :=
  match k with
  | .density => x / mw
  | .volume => x * mw
  | .energy | .entropy => x * mw / 1000
  | _ => x

/-- The converse. -/
noncomputable def perKg (mw : ℝ) (k : Kind) (x : ℝ) : ℝ :=
  match k with
  | .density => x * mw
  | .volume => x / mw
  | .energy | .entropy => x / mw * 1000
  | _ => x

/-- The number, in the units of `S`, of a quantity in K, Pa, kg/m3, m3/kg, J/kg, J/kg/K. -/
noncomputable def inUnitsKg (a : SetupArgs ℝ) (S : Sys) (mw : ℝ) (k : Kind) (x : ℝ) : ℝ :=
  inUnits a S mw k (perKmol mw k x)

/-- The quantity in those units of a number given in the units of `S`. -/
noncomputable def internalKg (a : SetupArgs ℝ) (S : Sys) (mw : ℝ) (k : Kind) (x : ℝ) : ℝ :=
  perKg mw k (internal a S mw k x)

/-! ## Argument lists -/

/-- The rule for the properties of a call: distinct known names; at most two of them, or all of
T, p and x; at most one of e, h, s; not both d and v; quality only with T or p. -/
structure MpAdmissible (names : List String) : Prop where
  distinct : names.Nodup
  known : ∀ n ∈ names, n ∈ ["T", "p", "d", "v", "x", "e", "h", "s"]
  few : names.length ≤ 2 ∨ ∀ n ∈ names, n ∈ ["T", "p", "x"]
  one_ehs : ∀ a ∈ names, ∀ b ∈ names, a ∈ ["e", "h", "s"] → b ∈ ["e", "h", "s"] → a = b
  not_dv : ¬ ("d" ∈ names ∧ "v" ∈ names)
  x_with : "x" ∈ names → ∀ b ∈ names, b ∈ ["T", "p", "x"]

/-- The arguments of a call in K, Pa, kg/m3, m3/kg, J/kg, J/kg/K, with their names. -/
noncomputable def physical (a : SetupArgs ℝ) (S : Sys) (mw : ℝ) (varg : List (Val ℝ)) (kw : Kw) :
    List (String × List ℝ) :=
  (supplied varg kw).map (fun q => (q.1, (Val.elems q.2).map (internalKg a S mw (kindOf q.1))))

/-- Values a substance can use, for `n` states: an allowed choice of two or three properties, arrays
of length `n` or 1, some temperature and pressure in range, and quality between 0 and 1 with no
temperature or pressure above critical (from -1 if it comes with both T and p). -/
structure Usable (B : Sub) (n : Nat) (l : List (String × List ℝ)) : Prop where
  two : 2 ≤ l.length
  names : MpAdmissible (l.map (·.1))
  sizes : ∀ q ∈ l, q.2.length = n ∨ q.2.length = 1
  full : ∃ q ∈ l, q.2.length = n
  T : ∀ xs, ("T", xs) ∈ l → ∃ x ∈ xs, B.Tlo ≤ x ∧ x ≤ B.Thi
  p : ∀ xs, ("p", xs) ∈ l → ∃ x ∈ xs, B.plo ≤ x ∧ x ≤ B.phi
  x : ∀ xs, ("x", xs) ∈ l → ∀ x ∈ xs, -1 ≤ x ∧ x ≤ 1
  sat_x : ∀ xs, ("x", xs) ∈ l → l.length = 2 → ∀ x ∈ xs, 0 ≤ x
  sat_T : ∀ xs zs, ("x", xs) ∈ l → ("T", zs) ∈ l → l.length = 2 → ∀ z ∈ zs, z ≤ B.Tc
  sat_p : ∀ xs zs, ("x", xs) ∈ l → ("p", zs) ∈ l → l.length = 2 → ∀ z ∈ zs, z ≤ B.pc

/-! ## Substances -/

/-- A substance whose saturation curves make a dome from `Tmin` up to the critical temperature: the
vapor is less dense than the liquid. -/
structure Dome (B : Sub) (Tmin : ℝ) : Prop where
  mw : 0 < B.mw
  vapor : ∀ T, Tmin ≤ T → T ≤ B.Tc → 0 < B.dsv T
  liquid : ∀ T, Tmin ≤ T → T < B.Tc → B.dsv T < B.dsl T

/-- The temperatures the inversions return, when they return numbers, are at least `Tmin`, and
saturation temperatures are at most critical. -/
structure Bounded (S : Sol) (B : Sub) (Tmin : ℝ) : Prop where
  Ts : ∀ q f, S.Ts q = .ok f → ∀ n T, f n = some T → Tmin ≤ T ∧ T ≤ B.Tc
  Thd : ∀ i q f, S.Thd i q = .ok f → ∀ n T, f n = some T → Tmin ≤ T

/-- One of the numerical inversions raises `e` for some input. -/
def Raises (S : Sol) (e : Err) : Prop :=
  (∃ q, S.Ts q = .error e) ∨ (∃ q, S.d q = .error e) ∨ (∃ q, S.Tdp q = .error e) ∨
  (∃ i q, S.Thp i q = .error e) ∨ (∃ i q, S.Thd i q = .error e) ∨ (∃ i q, S.dhT i q = .error e)

/-- The methods of two arguments that return arrays of numbers. -/
inductive MQuantity
  | T | p | d | v | x | e | f | g | h | s | cv

/-- The kind of each of them. -/
def MQuantity.kind : MQuantity → Kind
  | .T => .temperature | .p => .pressure | .d => .density | .v => .volume | .x => .number
  | .e | .f | .g | .h => .energy
  | .s | .cv => .entropy

/-- The method. -/
noncomputable def mpMethod : MQuantity → Env → Sub → Sol → List (Val ℝ) → Kw →
    Except Err (List Nan)
  | .T => mpT | .p => mpP | .d => mpD | .v => mpV | .x => mpX | .e => mpE | .f => mpF | .g => mpG
  | .h => mpH | .s => mpS | .cv => mpCv

/-- The name of the argument that gives the same quantity, if there is one. -/
def MQuantity.name : MQuantity → String
  | .T => "T" | .p => "p" | .d => "d" | .v => "v" | .x => "x" | .e => "e" | .h => "h" | .s => "s"
  | .f => "f" | .g => "g" | .cv => "cv"

/-- Method `q` of the call returns the number `y` (not NaN) at element `i`. -/
def MpGives (E : Env) (B : Sub) (S : Sol) (varg : List (Val ℝ)) (kw : Kw) (q : MQuantity) (i : Nat)
    (y : ℝ) : Prop :=
  ∃ ys, mpMethod q E B S varg kw = .ok ys ∧ ys[i]? = some (some y)

/-- The entry of an array argument for state `i`: an array of one entry serves all states. -/
def Elem {α : Type} (xs : List α) (i : Nat) (x : α) : Prop := xs[i]? = some x ∨ xs = [x]

/-! ## Accuracy of the inversions -/

open Classical in
/-- A property of the substance at temperature `T` and density `D`: under the dome that of the mixture of
liquid and vapor with that density, elsewhere that of the single phase. -/
noncomputable def valueAt (B : Sub) (f : ℝ → ℝ → ℝ) (T D : ℝ) : ℝ :=
  if T < B.Tc ∧ B.dsv T ≤ D ∧ D ≤ B.dsl T then
    let x := (1 / D - 1 / B.dsl T) / (1 / B.dsv T - 1 / B.dsl T)
    (1 - x) * f T (B.dsl T) + x * f T (B.dsv T)
  else f T D

/-- `x` solves `f x = y` as well as a tolerance `ep` allows: the value at `x` is `y` to within the
relative tolerance, or `y` lies between the values at `x` and at another point within the relative
tolerance of `x`. -/
def Solves (ep : ℝ) (f : ℝ → ℝ) (y x : ℝ) : Prop :=
  |f x - y| ≤ ep * |y| ∨
    ∃ x', |x' - x| ≤ ep * |x| ∧ (f x ≤ y ∧ y ≤ f x' ∨ f x' ≤ y ∧ y ≤ f x)

/-- What the theorems on accuracy assume about the data of a substance: an ordered dome, and limits in
order. -/
structure GoodSub (B : Sub) (Tmin : ℝ) : Prop where
  dome : Dome B Tmin
  pos : 0 < B.Tt
  order : B.Tt < B.Tc
  range : B.Tlo ≤ B.Thi
  min1 : Tmin ≤ B.Tt * 0.99
  min2 : Tmin ≤ B.Tlo

/-- The value in K, Pa, kg/m3, m3/kg, J/kg or J/kg/K of a number given or returned in the configured
units. -/
noncomputable def si (E : Env) (U : Sys) (B : Sub) (m : MQuantity) (y : ℝ) : ℝ :=
  internalKg E.a U B.mw m.kind y

/-- The method that returns an inverse property. -/
def _root_.PyroMat.Mp.Inv.quantity : Inv → MQuantity
  | .e => .e | .h => .h | .s => .s

/-! ## Saturation -/

/-- The saturation methods that return the values of the liquid and of the vapor. -/
inductive SatQuantity
  | ds | vs | es | hs | ss

/-- The method. -/
noncomputable def satMethod : SatQuantity → Env → Sub → Sol → Option (Val ℝ) → Option (Val ℝ) →
    Except Err (List Nan × List Nan)
  | .ds => satDs | .vs => satVs | .es => satEs | .hs => satHs | .ss => satSs

/-- The kind of quantity it returns. -/
def SatQuantity.kind : SatQuantity → Kind
  | .ds => .density | .vs => .volume | .es | .hs => .energy | .ss => .entropy

/-- Its value in a phase of temperature `T` and density `d`. -/
noncomputable def SatQuantity.value (B : Sub) : SatQuantity → ℝ → ℝ → ℝ
  | .ds => fun _ d => d
  | .vs => fun _ d => 1 / d
  | .es => fun T d => (B.F.e T d).v
  | .hs => fun T d => (B.F.h T d).v
  | .ss => fun T d => (B.F.s T d).v

/-- The method of a general call that returns the same quantity. -/
def SatQuantity.general : SatQuantity → MQuantity
  | .ds => .d | .vs => .v | .es => .e | .hs => .h | .ss => .s

/-- A temperature (in the units of `U`) from the triple to the critical point. -/
def InDomeT (U : Sys) (B : Sub) (t : ℝ) : Prop := B.Tt ≤ toKelvin U.T.name t ∧ toKelvin U.T.name t ≤ B.Tc

/-- A pressure (in the units of `U`) from the triple to the critical point. -/
def InDomeP (a : SetupArgs ℝ) (U : Sys) (B : Sub) (p : ℝ) : Prop :=
  B.pt ≤ p * size (Units.pressure a) U.p ∧ p * size (Units.pressure a) U.p ≤ B.pc

end PyroMat.Mp.Spec
