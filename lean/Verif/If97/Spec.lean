import Verif.Mp.Spec
import Verif.Mp.SpecState
import Verif.If97.Model

/-!
# Vocabulary for the steam class
-/

namespace PyroMat.If97.Spec

open PyroMat PyroMat.If97

/-- The polynomial a coefficient list stands for: the sum of `c * x^i * y^j`. -/
noncomputable def polyAt (A : List Term) (x y : ℝ) : ℝ :=
  (A.map (fun t => t.2.2 * x ^ t.1 * y ^ t.2.1)).sum

/-- The list is not empty, its terms are in ascending order of x-exponent and then of y-exponent
without repetition, and all exponents are at most 100 and above -100. -/
structure WellFormed (A : List Term) : Prop where
  nonempty : A ≠ []
  sorted : A.Pairwise (fun a b => a.1 < b.1 ∨ a.1 = b.1 ∧ a.2.1 < b.2.1)
  xrange : ∀ t ∈ A, -100 < t.1 ∧ t.1 ≤ 100
  yrange : ∀ t ∈ A, -100 < t.2.1 ∧ t.2.1 ≤ 100

/-- No term has a negative power of zero. -/
def Regular (A : List Term) (x y : ℝ) : Prop :=
  (x ≠ 0 ∨ ∀ t ∈ A, 0 ≤ t.1) ∧ (y ≠ 0 ∨ ∀ t ∈ A, 0 ≤ t.2.1)

/-! ## The saturation line -/

/-- The scaled temperature of the IAPWS report. -/
noncomputable def scaled (W : Water) (T : ℝ) : ℝ := T + W.r4 8 / (T - W.r4 9)

/-- The saturation equation of the IAPWS report, in the fourth root `B` of the pressure in MPa and the
scaled temperature `th`. -/
noncomputable def satEq (W : Water) (B th : ℝ) : ℝ :=
  B ^ 2 * th ^ 2 + W.r4 0 * B ^ 2 * th + W.r4 1 * B ^ 2 + W.r4 2 * B * th ^ 2 + W.r4 3 * B * th +
    W.r4 4 * B + W.r4 5 * th ^ 2 + W.r4 6 * th + W.r4 7

/-- The saturation equation as a quadratic in `B`: its coefficients at the scaled temperature. -/
noncomputable def inB (W : Water) (th : ℝ) : ℝ × ℝ × ℝ :=
  ((th + W.r4 0) * th + W.r4 1, (W.r4 2 * th + W.r4 3) * th + W.r4 4,
    (W.r4 5 * th + W.r4 6) * th + W.r4 7)

/-- The saturation equation as a quadratic in the scaled temperature. -/
noncomputable def inTh (W : Water) (B : ℝ) : ℝ × ℝ × ℝ :=
  ((B + W.r4 2) * B + W.r4 5, (W.r4 0 * B + W.r4 3) * B + W.r4 6,
    (W.r4 1 * B + W.r4 4) * B + W.r4 7)

/-- The fourth root of the saturation pressure: the root of the quadratic in `B` the report
prescribes. -/
noncomputable def rootB (W : Water) (T : ℝ) : ℝ :=
  let q := inB W (scaled W T)
  2 * q.2.2 / (-q.2.1 + Real.sqrt (q.2.1 ^ 2 - 4 * q.1 * q.2.2))

/-- Conditions on the coefficients under which the equation for the saturation pressure has the
prescribed root between `lo` and `hi`. -/
structure SatPressure (W : Water) (lo hi : ℝ) : Prop where
  ordered : lo ≤ hi
  n9 : W.r4 8 ≤ 0
  n10 : hi < W.r4 9
  disc : ∀ T, lo ≤ T → T ≤ hi →
    let q := inB W (scaled W T)
    0 ≤ q.2.1 ^ 2 - 4 * q.1 * q.2.2 ∧ 0 < -q.2.1 + Real.sqrt (q.2.1 ^ 2 - 4 * q.1 * q.2.2) ∧ 0 < q.2.2

/-- Conditions under which the two equations for the saturation line follow one branch. -/
structure SatLine (W : Water) (lo hi : ℝ) : Prop extends SatPressure W lo hi where
  branch : ∀ T, lo ≤ T → T ≤ hi →
    let q := inTh W (rootB W T)
    0 ≤ 2 * q.1 * scaled W T + q.2.1 ∧ q.2.2 ≠ 0

/-- Coefficients 1 to 10 of the saturation-pressure equation (IAPWS R7-97, table 34). -/
noncomputable def iapws : Fin 10 → ℝ :=
  ![1167.0521452767, -724213.16703206, -17.073846940092, 12020.824702470, -3232555.0322333,
    14.915108613530, -4823.2657361591, 405113.40542057, -0.23855557567849, 650.17534844798]

/-! ## Regions -/

/-- The range of the formulation: pressures from 0 to 1000 bar up to 1073.15 K and from 0 to 500 bar up
to 2273.15 K. -/
def Valid (T p : ℝ) : Prop :=
  0 ≤ p ∧ (T ≤ 1073.15 ∧ p ≤ 1000 ∨ T ≤ 2273.15 ∧ p ≤ 500)

/-- Below the saturation line. -/
def Vapour (W : Water) (T p : ℝ) : Prop := ∃ P, ps W T = some P ∧ p < P

/-- The boundary between regions 2 and 3 (equation 5 of the report): the pressure at a temperature. -/
noncomputable def border (W : Water) (T : ℝ) : ℝ := W.b23 0 + W.b23 1 * T + W.b23 2 * T ^ 2

/-- The regions of the report. -/
def InRegion (W : Water) (r : Nat) (T p : ℝ) : Prop :=
  match r with
  | 1 => T ≤ 623.15 ∧ 0 ≤ p ∧ p ≤ 1000 ∧ ¬ Vapour W T p
  | 2 => 0 ≤ p ∧ p ≤ 1000 ∧ (T ≤ 623.15 ∧ Vapour W T p ∨
      623.15 < T ∧ T ≤ 863.15 ∧ p < border W T ∨ 863.15 < T ∧ T ≤ 1073.15)
  | 3 => 623.15 < T ∧ T ≤ 863.15 ∧ 0 ≤ p ∧ p ≤ 1000 ∧ border W T ≤ p
  | 5 => 1073.15 < T ∧ T ≤ 2273.15 ∧ 0 ≤ p ∧ p ≤ 500
  | _ => False

/-- The coefficient lists are well formed. -/
structure GoodData (W : Water) : Prop where
  r1 : WellFormed W.r1
  r2o : WellFormed W.r2o
  r2r : WellFormed W.r2r
  r3 : WellFormed W.r3
  r5o : WellFormed W.r5o
  r5r : WellFormed W.r5r

/-! ## Thermodynamics -/

/-- The dimensionless Gibbs energy of each region (equations 7, 15 and 32 of the report; temperature in
K, pressure in bar). -/
noncomputable def gamma (W : Water) (r : Nat) (T p : ℝ) : ℝ :=
  match r with
  | 1 => polyAt W.r1 (7.1 - p / 165.3) (1386 / T - 1.222)
  | 2 => Real.log (p / 10) + polyAt W.r2o (p / 10) (540 / T) + polyAt W.r2r (p / 10) (540 / T - 0.5)
  | 5 => Real.log (p / 10) + polyAt W.r5o (p / 10) (1000 / T) + polyAt W.r5r (p / 10) (1000 / T)
  | _ => 0

/-- The specific Gibbs energy in kJ/kg. -/
noncomputable def gibbs (W : Water) (r : Nat) (T p : ℝ) : ℝ := W.R * T * gamma W r T p

/-- No negative power of zero occurs in the polynomials of a region. -/
def RegularAt (W : Water) (r : Nat) (T p : ℝ) : Prop :=
  match r with
  | 1 => Regular W.r1 (7.1 - p / 165.3) (1386 / T - 1.222)
  | 2 => Regular W.r2o (p / 10) (540 / T) ∧ Regular W.r2r (p / 10) (540 / T - 0.5)
  | 5 => Regular W.r5o (p / 10) (1000 / T) ∧ Regular W.r5r (p / 10) (1000 / T)
  | _ => True

/-- The value of each property in terms of the Gibbs energy `g` as a function of temperature and
pressure, given by its derivatives `j` (x temperature, y pressure).  With the pressure in bar and
energies in kJ/kg the specific volume in m3/kg is a hundredth of the pressure derivative. -/
noncomputable def fromGibbs (q : Q) (T p : ℝ) (j : Mp.J6) : ℝ :=
  match q with
  | .h => j.p - T * j.px
  | .s => -j.px
  | .d => 1 / (j.py / 100)
  | .e => j.p - T * j.px - p * j.py
  | .cp => -T * j.pxx
  | .cv => -T * j.pxx + T * j.pxy ^ 2 / j.pyy

/-- `v` is the value the property has by the Gibbs energy of region `r`. -/
def Derives (W : Water) (r : Nat) (q : Q) (T p v : ℝ) : Prop :=
  ∃ j, Mp.Spec.Is2 (gibbs W r) T p j ∧ v = fromGibbs q T p j

/-- The specific Helmholtz energy of region 3 in kJ/kg (equation 28 of the report), density in kg/m3. -/
noncomputable def helmholtz (W : Water) (T d : ℝ) : ℝ :=
  W.R * T * (W.r3ln * Real.log (d / W.dc) + polyAt W.r3 (d / W.dc) (W.Tc / T))

/-- The pressure in bar of a Helmholtz energy given by its derivatives (x temperature, y density). -/
noncomputable def pressureOf (d : ℝ) (j : Mp.J6) : ℝ := d ^ 2 * j.py / 100

/-- The value of each property in terms of the Helmholtz energy. -/
noncomputable def fromHelm (q : Q) (T d : ℝ) (j : Mp.J6) : ℝ :=
  match q with
  | .h => j.p - T * j.px + d * j.py
  | .s => -j.px
  | .d => d
  | .e => j.p - T * j.px
  | .cv => -T * j.pxx
  | .cp => -T * j.pxx + T * (d ^ 2 * j.pxy) ^ 2 / (d ^ 2 * (2 * d * j.py + d ^ 2 * j.pyy))

/-- `p` is the pressure by the Helmholtz energy at temperature `T` and density `d`. -/
def PressureAt (W : Water) (T d p : ℝ) : Prop :=
  ∃ j, Mp.Spec.Is2 (helmholtz W) T d j ∧ p = pressureOf d j

/-! ## Units -/

/-- The kind of each property. -/
def kind (q : Q) : Gas.Spec.Kind :=
  match q with
  | .h | .e => .energy
  | .s | .cp | .cv => .entropy
  | .d => .density

/-- A value in kJ, kg, m3, K in the units of `S`: the documented units of the results. -/
noncomputable def shown (a : Units.SetupArgs ℝ) (S : Gas.Spec.Sys) (mw : ℝ) (q : Q) (v : ℝ) : ℝ :=
  match kind q with
  | .density => Mp.Spec.inUnitsKg a S mw .density v
  | k => Mp.Spec.inUnitsKg a S mw k (1000 * v)

/-- A temperature of the caller in K. -/
noncomputable def kelvin (S : Gas.Spec.Sys) (T : ℝ) : ℝ := Units.toKelvin S.T.name T

/-- A pressure of the caller in bar. -/
noncomputable def bar (a : Units.SetupArgs ℝ) (S : Gas.Spec.Sys) (p : ℝ) : ℝ :=
  p * Gas.Spec.size (Units.pressure a) S.p / 1e5

end PyroMat.If97.Spec
