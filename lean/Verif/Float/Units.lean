import Verif.Float.Near
import Verif.Units.Model
import Mathlib.Data.Real.Basic

/-!
# Model of `/repo/src/pyromat/units.py` with rounded arithmetic

The same functions as in `Verif/Units/Model.lean`, each arithmetic operation of the code being one operation of an
`Arith`.  `exact_*` show that with exact arithmetic the two models are the same.
-/

namespace PyroMat.Float

open PyroMat PyroMat.Units

/-- The formulas from which `setup` fills its tables (`units.py:243-407`).  `num` is a number that a double holds
exactly: an integer below `2⁵³`, or an argument of `setup`. -/
inductive Ex where
  | lit (x : ℝ)
  | num (x : ℝ)
  | mul (a b : Ex)
  | div (a b : Ex)
  | pow (a : Ex) (n : ℕ)

/-- The value of a formula (`units.py:243-407`): literals and operations in the order of the code. -/
noncomputable def Ex.eval (A : Arith) : Ex → ℝ
  | .lit x => A.lit x
  | .num x => x
  | .mul a b => A.mul (a.eval A) (b.eval A)
  | .div a b => A.div (a.eval A) (b.eval A)
  | .pow a n => A.pow (a.eval A) n

/-- The number of roundings in a formula. -/
def Ex.cost : Ex → ℕ
  | .lit _ => 1
  | .num _ => 0
  | .mul a b => a.cost + b.cost + 1
  | .div a b => a.cost + b.cost + 1
  | .pow a n => n * a.cost + 1

/-- A table of `setup` as formulas (`units.py:59-116`). -/
structure Table where
  entries : List (String × Ex)
  configDefault : Option String

/-- The `Conversion` object that `setup` builds from the formulas (`units.py:59-116`). -/
noncomputable def Table.build (A : Arith) (t : Table) : Conv ℝ :=
  { table := t.entries.map fun e => (e.1, e.2.eval A), configDefault := t.configDefault }

/-- `const_k` (`units.py:251`). -/
noncomputable def kE : Ex := .lit 1.380649e-23
/-- `const_Na` (`units.py:253`). -/
noncomputable def NaE : Ex := .lit 6.02214076e23
/-- `const_q` (`units.py:255`). -/
noncomputable def qE : Ex := .lit 1.602176634e-19
/-- `const_Ru` (`units.py:258`). -/
noncomputable def RuE : Ex := .mul kE NaE
/-- `const_dstd` (`units.py:264`). -/
noncomputable def dstdE (a : SetupArgs ℝ) : Ex := .div (.div (.mul (.num a.pstd) (.num 1e5)) RuE) (.num a.Tstd)

/-- `length['in']`, `length['ft']` (`units.py:283`, `286`). -/
noncomputable def inE : Ex := .lit 0.0254
/-- `length['ft']` (`units.py:286`). -/
noncomputable def ftE : Ex := .mul inE (.num 12)
/-- `length['mile']` (`units.py:288`). -/
noncomputable def mileE : Ex := .mul ftE (.num 5280)
/-- `length['mm']` (`units.py:279`). -/
noncomputable def mmE : Ex := .lit 1e-3

/-- `length` (`units.py:275-289`). -/
noncomputable def lengthT : Table where
  entries :=
    [("km", .num 1e3), ("m", .num 1), ("cm", .lit 0.01), ("mm", mmE), ("um", .lit 1e-6), ("nm", .lit 1e-9),
     ("A", .lit 1e-10), ("in", inE), ("nmi", .num 1852), ("ft", ftE), ("yd", .mul ftE (.num 3)), ("mile", mileE),
     ("mi", mileE)]
  configDefault := some "unit_length"

/-- `time` (`units.py:292-301`). -/
noncomputable def timeT : Table where
  entries :=
    [("ns", .lit 1e-9), ("us", .lit 1e-6), ("ms", .lit 1e-3), ("s", .num 1), ("min", .num 60), ("hr", .num 3600),
     ("day", .num 86400), ("year", .num 31536000)]
  configDefault := some "unit_time"

/-- `mass['lbm']` (`units.py:310`). -/
noncomputable def lbmE : Ex := .lit 0.45359237
/-- `mass['g']` (`units.py:308`). -/
noncomputable def gE : Ex := .lit 1e-3
/-- `mass['u']` (`units.py:317`). -/
noncomputable def uE : Ex := .div (.num 1) (.mul NaE (.num 1000))

/-- `mass` (`units.py:306-318`). -/
noncomputable def massT (a : SetupArgs ℝ) : Table where
  entries :=
    [("kg", .num 1), ("g", gE), ("mg", .lit 1e-6), ("lbm", lbmE), ("lb", lbmE), ("oz", .div lbmE (.num 16)),
     ("slug", .div lbmE (.div ftE (.mul (.num a.g) (.num 1)))), ("u", uE), ("amu", uE)]
  configDefault := some "unit_mass"

/-- `force['lb']` (`units.py:324`). -/
noncomputable def lbfE (a : SetupArgs ℝ) : Ex := .mul (.num a.g) lbmE

/-- `force` (`units.py:321-328`). -/
noncomputable def forceT (a : SetupArgs ℝ) : Table where
  entries :=
    [("N", .num 1), ("kN", .num 1000), ("lb", lbfE a), ("kgf", .num a.g), ("lbf", lbfE a),
     ("oz", .div (lbfE a) (.num 16))]
  configDefault := some "unit_force"

/-- `molar['Nm3']` (`units.py:339`). -/
noncomputable def Nm3E (a : SetupArgs ℝ) : Ex := .mul gE (dstdE a)
/-- `molar['scf']` (`units.py:343`). -/
noncomputable def scfE (a : SetupArgs ℝ) : Ex := .mul (Nm3E a) (.pow (.div ftE (.num 1)) 3)

/-- `molar` (`units.py:333-344`). -/
noncomputable def molarT (a : SetupArgs ℝ) : Table where
  entries :=
    [("kmol", .num 1), ("mol", gE), ("lbmol", lbmE), ("n", .div gE NaE), ("Nm3", Nm3E a), ("Ncum", Nm3E a),
     ("NL", .mul (Nm3E a) (.lit 1e-3)), ("Ncc", .mul (Nm3E a) (.lit 1e-6)), ("scf", scfE a),
     ("sci", .mul (scfE a) (.pow (.div inE ftE) 3))]
  configDefault := some "unit_molar"

/-- `temperature` (`units.py:349-355`). -/
noncomputable def temperatureT : Table where
  entries :=
    [("K", .lit 1.8), ("C", .lit 1.8), ("F", .num 1), ("R", .num 1), ("eV", .div (.mul (.lit 1.8) qE) kE)]
  configDefault := some "unit_temperature"

/-- `energy` (`units.py:358-367`). -/
noncomputable def energyT : Table where
  entries :=
    [("J", .num 1), ("kJ", .num 1000), ("cal", .lit 4.184), ("kcal", .num 4184), ("eV", qE),
     ("BTU", .mul (.mul (.lit 4.184) (.div lbmE gE)) (.div (.num 1) (.lit 1.8)))]
  configDefault := some "unit_energy"

/-- `volume['L']` (`units.py:377`). -/
noncomputable def literE : Ex := .div (.pow (.num 1) 3) (.num 1000)
/-- `volume['gal']` (`units.py:385`). -/
noncomputable def galE : Ex := .mul (.pow inE 3) (.num 231)

/-- `volume` (`units.py:370-389`). -/
noncomputable def volumeT : Table where
  entries :=
    [("m3", .pow (.num 1) 3), ("mm3", .pow mmE 3), ("cm3", .pow (.lit 0.01) 3), ("in3", .pow inE 3),
     ("ft3", .pow ftE 3), ("L", literE), ("mL", .div literE (.num 1000)), ("uL", .div literE (.num 1e6)),
     ("cum", .pow (.num 1) 3), ("cc", .pow (.lit 0.01) 3), ("cumm", .pow mmE 3), ("cuin", .pow inE 3),
     ("cuft", .pow ftE 3), ("gal", galE), ("USgal", galE), ("UKgal", .mul literE (.lit 4.54609)),
     ("qt", .div galE (.num 4)), ("pt", .div galE (.num 8))]
  configDefault := some "unit_volume"

/-- `pressure['psi']` (`units.py:402`). -/
noncomputable def psiE (a : SetupArgs ℝ) : Ex := .mul (.div (lbfE a) (.num 1)) (.pow (.div (.num 1) inE) 2)
/-- `pressure['mmHg']` (`units.py:400`). -/
noncomputable def mmHgE (a : SetupArgs ℝ) : Ex := .mul (.mul (.num a.dhg) (.num a.g)) mmE
/-- `pressure['mmH2O']` (`units.py:401`). -/
noncomputable def mmH2OE (a : SetupArgs ℝ) : Ex := .mul (.mul (.num a.dh2o) (.num a.g)) mmE

/-- `pressure` (`units.py:392-407`). -/
noncomputable def pressureT (a : SetupArgs ℝ) : Table where
  entries :=
    [("Pa", .num 1), ("kPa", .num 1e3), ("MPa", .num 1e6), ("GPa", .num 1e9), ("bar", .num 1e5),
     ("atm", .mul (.num 1e5) (.num a.pstd)), ("Torr", .div (.mul (.num a.pstd) (.num 1e5)) (.num 760)),
     ("mmHg", mmHgE a), ("mmH2O", mmH2OE a), ("psi", psiE a),
     ("psf", .mul (psiE a) (.pow (.div inE ftE) 2)), ("ksi", .mul (psiE a) (.num 1000)),
     ("inHg", .div (.mul (mmHgE a) inE) mmE), ("inH2O", .div (.mul (mmH2OE a) inE) mmE)]
  configDefault := some "unit_pressure"

/-- The tables that `setup` fills (`units.py:243-407`). -/
noncomputable def tables (a : SetupArgs ℝ) : List Table :=
  [lengthT, timeT, massT a, forceT a, molarT a, temperatureT, energyT, volumeT, pressureT a]

/-- The conversions that `setup` binds (`units.py:243-407`). -/
noncomputable def convs (A : Arith) (a : SetupArgs ℝ) : List (Conv ℝ) := (tables a).map (·.build A)

/-- `if exponent: conv **= exponent` (`units.py:149-150`, `596-597`). -/
noncomputable def powF (A : Arith) (conv : ℝ) (exponent : Option ℤ) : Except Err ℝ :=
  match exponent with
  | none => .ok conv
  | some n =>
    if n = 0 then .ok conv
    else if conv = 0 ∧ n < 0 then .error .zeroDivision
    else .ok (A.pow conv n)

/-- Python scalar division. -/
noncomputable def divF (A : Arith) (x y : ℝ) : Except Err ℝ := if y = 0 then .error .zeroDivision else .ok (A.div x y)

/-- `Conversion.__call__` (`units.py:123-156`). -/
noncomputable def callF (A : Arith) (c : Conv ℝ) (cfg : Cfg) (value : Val ℝ) (fromU toU : Option String)
    (exponent : Option ℤ) (inplace : Bool) : Except Err (Res ℝ) := do
  let fu ← c.resolve cfg fromU
  let tu ← c.resolve cfg toU
  if fu = tu then
    return retSame value
  let a ← c.get fu
  let b ← c.get tu
  let conv ← powF A (← divF A a b) exponent
  return applyOp (fun x => A.mul x conv) value inplace

/-- First half of `temperature_scale` (`units.py:495-503`). -/
noncomputable def toKelvinF (A : Arith) (u : String) (x : ℝ) : ℝ :=
  if u = "C" then A.add x (A.lit 273.15)
  else if u = "R" then A.div x (A.lit 1.8)
  else if u = "F" then A.add (A.div x (A.lit 1.8)) (A.lit 255.3722222222222)
  else if u = "eV" then A.mul x (A.div (qE.eval A) (kE.eval A))
  else x

/-- Second half of `temperature_scale` (`units.py:505-513`). -/
noncomputable def fromKelvinF (A : Arith) (u : String) (x : ℝ) : ℝ :=
  if u = "C" then A.sub x (A.lit 273.15)
  else if u = "R" then A.mul x (A.lit 1.8)
  else if u = "F" then A.mul (A.sub x (A.lit 255.3722222222222)) (A.lit 1.8)
  else if u = "eV" then A.div x (A.div (qE.eval A) (kE.eval A))
  else x

/-- `temperature_scale` (`units.py:440-514`). -/
noncomputable def temperatureScaleF (A : Arith) (cfg : Cfg) (value : Val ℝ) (fromU toU : Option String)
    (inplace : Bool) : Except Err (Res ℝ) := do
  let fu ← match fromU with
    | some u => pure u
    | none => cfg "unit_temperature"
  let tu ← match toU with
    | some u => pure u
    | none => cfg "unit_temperature"
  if fu = tu then
    return retSame value
  match resolveAbs fu tu with
  | none => return retSame value
  | some (fu, tu) => return applyOp (fun x => fromKelvinF A tu (toKelvinF A fu x)) value inplace

/-- `matter` (`units.py:562-601`). -/
noncomputable def matterF (A : Arith) (a : SetupArgs ℝ) (cfg : Cfg) (value : Val ℝ) (mw : ℝ)
    (fromU toU : Option String) (exponent : Option ℤ) (inplace : Bool) : Except Err (Res ℝ) := do
  let fu ← match fromU with
    | some u => pure u
    | none => cfg "unit_matter"
  let tu ← match toU with
    | some u => pure u
    | none => cfg "unit_matter"
  if fu = tu then
    return retSame value
  if ((massT a).build A).contains fu then
    if ((massT a).build A).contains tu then
      callF A ((massT a).build A) cfg value (some fu) (some tu) exponent inplace
    else
      let x ← ((massT a).build A).get fu
      let xm ← divF A x mw
      let y ← ((molarT a).build A).get tu
      let conv ← powF A (← divF A xm y) exponent
      return applyOp (fun x => A.mul x conv) value inplace
  else
    if ((molarT a).build A).contains tu then
      callF A ((molarT a).build A) cfg value (some fu) (some tu) exponent inplace
    else
      let x ← ((molarT a).build A).get fu
      let y ← ((massT a).build A).get tu
      let conv ← powF A (← divF A (A.mul x mw) y) exponent
      return applyOp (fun x => A.mul x conv) value inplace

/-! ## With exact arithmetic this is the model of `Verif/Units/Model.lean` -/

theorem exact_mass (a : SetupArgs ℝ) : (massT a).build exact = mass a := rfl

theorem exact_molar (a : SetupArgs ℝ) : (molarT a).build exact = molar a := by
  simp only [Table.build, molarT, List.map_cons, List.map_nil, Ex.eval, exact, molar, molarNm3, molarScf, scfE, Nm3E,
    dstdE, RuE, kE, NaE, gE, ftE, inE, lbmE, zpow_natCast, const_dstd, const_Ru, const_k, const_Na, lbm]

theorem exact_tables (a : SetupArgs ℝ) : convs exact a = allConvs a := by
  simp only [convs, tables, List.map_cons, List.map_nil, allConvs, exact_mass, exact_molar]
  simp only [Table.build, lengthT, timeT, forceT, temperatureT, energyT, volumeT, pressureT, List.map_cons,
    List.map_nil, Ex.eval, exact, length, time, force, temperature, energy, volume, pressure, psi, psiE, mmHgE, mmH2OE,
    lbfE, literE, galE, kE, qE, gE, ftE, inE, mmE, mileE, lbmE, zpow_natCast, const_k, const_q, lbm]

theorem exact_pow (x : ℝ) (n : Option ℤ) : powF exact x n = powExp x n := rfl

theorem exact_div (x y : ℝ) : divF exact x y = pyDiv x y := by
  unfold divF pyDiv; rfl

theorem exact_call (c : Conv ℝ) (cfg : Cfg) (v : Val ℝ) (f t : Option String) (n : Option ℤ) (i : Bool) :
    callF exact c cfg v f t n i = c.call cfg v f t n i := by
  simp only [callF, Conv.call, exact_pow, exact_div]
  rfl

theorem exact_scale (cfg : Cfg) (v : Val ℝ) (f t : Option String) (i : Bool) :
    temperatureScaleF exact cfg v f t i = temperatureScale cfg v f t i := rfl

theorem exact_matter (a : SetupArgs ℝ) (cfg : Cfg) (v : Val ℝ) (mw : ℝ) (f t : Option String) (n : Option ℤ) (i : Bool) :
    matterF exact a cfg v mw f t n i = matter a cfg v mw f t n i := by
  simp only [matterF, matter, exact_pow, exact_div, exact_mass, exact_molar, exact_call]
  rfl

end PyroMat.Float
