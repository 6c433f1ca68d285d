import Mathlib.Algebra.Order.Field.Basic
import Mathlib.Tactic.NormNum
import Mathlib.Tactic.NormNum.OfScientific
import Verif.Basic

/-!
# Model of `/repo/src/pyromat/units.py`

Numbers live in an arbitrary linearly ordered field `K` (exact arithmetic).  A value handed to
a conversion is a Python scalar or a NumPy array; array shape is flattened to a list.
-/

namespace PyroMat.Units

variable {K : Type} [Field K] [LinearOrder K]

/-- A numeric argument: a Python scalar or an `ndarray` (contents only).  Models the
`isinstance(value, np.ndarray)` distinction of `units.py:152`, `488`, `530`, `553`, `599`. -/
inductive Val (K : Type) where
  | scalar (x : K)
  | arr (xs : List K)
  deriving Repr

/-- Elementwise application (NumPy broadcasting of a scalar operation over `value`,
`units.py:154-156`, `495-513`). -/
def Val.map (f : K → K) : Val K → Val K
  | .scalar x => .scalar (f x)
  | .arr xs => .arr (xs.map f)

/-- `isinstance(value, np.ndarray)` (`units.py:152`). -/
def Val.isArr : Val K → Bool
  | .scalar _ => false
  | .arr _ => true

/-- What a conversion call leaves behind: the value it returns, the contents of the caller's
own object afterwards, and whether the returned object *is* the caller's object. -/
structure Res (K : Type) where
  ret : Val K
  caller : Val K
  isAlias : Bool

/-- A NumPy ufunc call `np.op(value, c, out=value)` when `inplace` and `value` is an array,
`np.op(value, c)` otherwise (`units.py:152-156`, `530-537`, `553-559`, `599-601`). -/
def applyOp (f : K → K) (v : Val K) (inplace : Bool) : Res K :=
  if inplace && v.isArr then { ret := v.map f, caller := v.map f, isAlias := true }
  else { ret := v.map f, caller := v, isAlias := false }

/-- `return value` (`units.py:146`, `472`, `583`): the caller's object itself. -/
def retSame (v : Val K) : Res K := { ret := v, caller := v, isAlias := true }

/-- Read access to `pm.config` (`utility.py:363-369`): string-valued parameters only; an
unknown key raises `PMParamError`. -/
abbrev Cfg := String → Except Err String

/-- `Conversion` objects (`units.py:59-116`): a table and the name of the configuration
parameter holding the default unit.  A Python dict is an association list with distinct keys. -/
structure Conv (K : Type) where
  table : List (String × K)
  configDefault : Option String

/-- `unit in self.table` (`units.py:119-121`). -/
def Conv.contains (c : Conv K) (u : String) : Bool := (c.table.lookup u).isSome

/-- `self.table[u]` (`units.py:160-161`): `KeyError` when absent. -/
def Conv.get (c : Conv K) (u : String) : Except Err K :=
  match c.table.lookup u with
  | some x => .ok x
  | none => .error .key

/-- Default resolution of a unit argument (`units.py:131-143`). -/
def Conv.resolve (c : Conv K) (cfg : Cfg) : Option String → Except Err String
  | some u => .ok u
  | none =>
    match c.configDefault with
    | none => .error .param
    | some k => cfg k

/-- `if exponent: conv **= exponent` (`units.py:149-150`, `596-597`).  Python truthiness makes
`None` and `0` both skip the power; a negative power of zero raises `ZeroDivisionError`.
Simplification: exponents are integers. -/
def powExp (conv : K) (exponent : Option ℤ) : Except Err K :=
  match exponent with
  | none => .ok conv
  | some n =>
    if n = 0 then .ok conv
    else if conv = 0 ∧ n < 0 then .error .zeroDivision
    else .ok (conv ^ n)

/-- Python scalar division (`ZeroDivisionError` on a zero divisor). -/
def pyDiv (x y : K) : Except Err K := if y = 0 then .error .zeroDivision else .ok (x / y)

/-- `Conversion.__call__` (`units.py:123-156`). -/
def Conv.call (c : Conv K) (cfg : Cfg) (value : Val K) (fromU toU : Option String)
    (exponent : Option ℤ) (inplace : Bool) : Except Err (Res K) := do
  let fu ← c.resolve cfg fromU
  let tu ← c.resolve cfg toU
  if fu = tu then
    return retSame value
  let a ← c.get fu
  let b ← c.get tu
  let conv ← powExp (← pyDiv a b) exponent
  return applyOp (· * conv) value inplace

/-- Arguments of `setup` (`units.py:174`). -/
structure SetupArgs (K : Type) where
  Tstd : K
  pstd : K
  g : K
  dh2o : K
  dhg : K

/-- Default arguments of `setup` (`units.py:174`). -/
def SetupArgs.default : SetupArgs K :=
  { Tstd := 273.15, pstd := 1.01325, g := 9.80665, dh2o := 999.9720, dhg := 13595.1 }

/-- `const_k`, Boltzmann (`units.py:251`). -/
def const_k : K := 1.380649e-23
/-- `const_Na`, Avogadro (`units.py:253`). -/
def const_Na : K := 6.02214076e23
/-- `const_q`, elementary charge (`units.py:255`). -/
def const_q : K := 1.602176634e-19
/-- `const_Ru` (`units.py:258`). -/
def const_Ru : K := const_k * const_Na
/-- `const_dstd` (`units.py:264`). -/
def const_dstd (a : SetupArgs K) : K := a.pstd * 1e5 / const_Ru / a.Tstd

/-- `length` (`units.py:275-289`).  Reads of entries stored a line earlier are written as the
stored expression. -/
def length : Conv K where
  table :=
    [("km", 1e3), ("m", 1), ("cm", 0.01), ("mm", 1e-3), ("um", 1e-6), ("nm", 1e-9),
     ("A", 1e-10), ("in", 0.0254), ("nmi", 1852),
     ("ft", 0.0254 * 12), ("yd", 0.0254 * 12 * 3), ("mile", 0.0254 * 12 * 5280),
     ("mi", 0.0254 * 12 * 5280)]
  configDefault := some "unit_length"

/-- `time` (`units.py:292-301`). -/
def time : Conv K where
  table :=
    [("ns", 1e-9), ("us", 1e-6), ("ms", 1e-3), ("s", 1), ("min", 60), ("hr", 3600),
     ("day", 86400), ("year", 31536000)]
  configDefault := some "unit_time"

/-- `mass['lbm']` (`units.py:310`). -/
def lbm : K := 0.45359237

/-- `mass` (`units.py:306-318`). -/
def mass (a : SetupArgs K) : Conv K where
  table :=
    [("kg", 1), ("g", 1e-3), ("mg", 1e-6), ("lbm", lbm), ("lb", lbm), ("oz", lbm / 16),
     ("slug", lbm / ((0.0254 * 12) / (a.g * 1))),
     ("u", 1 / (const_Na * 1000)), ("amu", 1 / (const_Na * 1000))]
  configDefault := some "unit_mass"

/-- `force` (`units.py:321-328`). -/
def force (a : SetupArgs K) : Conv K where
  table :=
    [("N", 1), ("kN", 1000), ("lb", a.g * lbm), ("kgf", a.g), ("lbf", a.g * lbm),
     ("oz", a.g * lbm / 16)]
  configDefault := some "unit_force"

/-- `molar['Nm3']` (`units.py:339`). -/
def molarNm3 (a : SetupArgs K) : K := 1e-3 * const_dstd a
/-- `molar['scf']` (`units.py:343`). -/
def molarScf (a : SetupArgs K) : K := molarNm3 a * ((0.0254 * 12) / 1) ^ 3

/-- `molar` (`units.py:333-344`). -/
def molar (a : SetupArgs K) : Conv K where
  table :=
    [("kmol", 1), ("mol", 1e-3), ("lbmol", lbm), ("n", 1e-3 / const_Na),
     ("Nm3", molarNm3 a), ("Ncum", molarNm3 a), ("NL", molarNm3 a * 1e-3),
     ("Ncc", molarNm3 a * 1e-6), ("scf", molarScf a),
     ("sci", molarScf a * (0.0254 / (0.0254 * 12)) ^ 3)]
  configDefault := some "unit_molar"

/-- `temperature` (`units.py:349-355`). -/
def temperature : Conv K where
  table := [("K", 1.8), ("C", 1.8), ("F", 1), ("R", 1), ("eV", 1.8 * const_q / const_k)]
  configDefault := some "unit_temperature"

/-- `energy` (`units.py:358-367`). -/
def energy : Conv K where
  table :=
    [("J", 1), ("kJ", 1000), ("cal", 4.184), ("kcal", 4184), ("eV", const_q),
     ("BTU", 4.184 * (lbm / 1e-3) * (1 / 1.8))]
  configDefault := some "unit_energy"

/-- `volume` (`units.py:370-389`). -/
def volume : Conv K where
  table :=
    [("m3", 1 ^ 3), ("mm3", 1e-3 ^ 3), ("cm3", 0.01 ^ 3), ("in3", 0.0254 ^ 3),
     ("ft3", (0.0254 * 12) ^ 3), ("L", 1 ^ 3 / 1000), ("mL", 1 ^ 3 / 1000 / 1000),
     ("uL", 1 ^ 3 / 1000 / 1e6), ("cum", 1 ^ 3), ("cc", 0.01 ^ 3), ("cumm", 1e-3 ^ 3),
     ("cuin", 0.0254 ^ 3), ("cuft", (0.0254 * 12) ^ 3), ("gal", 0.0254 ^ 3 * 231),
     ("USgal", 0.0254 ^ 3 * 231), ("UKgal", 1 ^ 3 / 1000 * 4.54609),
     ("qt", 0.0254 ^ 3 * 231 / 4), ("pt", 0.0254 ^ 3 * 231 / 8)]
  configDefault := some "unit_volume"

/-- `pressure['psi']` (`units.py:402`). -/
def psi (a : SetupArgs K) : K := (a.g * lbm / 1) * (1 / 0.0254) ^ 2

/-- `pressure` (`units.py:392-407`). -/
def pressure (a : SetupArgs K) : Conv K where
  table :=
    [("Pa", 1), ("kPa", 1e3), ("MPa", 1e6), ("GPa", 1e9), ("bar", 1e5), ("atm", 1e5 * a.pstd),
     ("Torr", a.pstd * 1e5 / 760), ("mmHg", a.dhg * a.g * 1e-3), ("mmH2O", a.dh2o * a.g * 1e-3),
     ("psi", psi a), ("psf", psi a * (0.0254 / (0.0254 * 12)) ^ 2), ("ksi", psi a * 1000),
     ("inHg", a.dhg * a.g * 1e-3 * 0.0254 / 1e-3),
     ("inH2O", a.dh2o * a.g * 1e-3 * 0.0254 / 1e-3)]
  configDefault := some "unit_pressure"

/-- All conversion objects that `setup` binds (`units.py:243-407`). -/
def allConvs (a : SetupArgs K) : List (Conv K) :=
  [length, time, mass a, force a, molar a, temperature, energy, volume, pressure a]

/-- `ismass` (`units.py:416-436`). -/
def ismass (a : SetupArgs K) (cfg : Cfg) (units : Option String) : Except Err Bool := do
  let u ← match units with
    | some u => pure u
    | none => cfg "unit_matter"
  if (mass a).contains u then return true
  else if (molar a).contains u then return false
  else throw .param

/-- The rewriting of `'abs'` (`units.py:473-486`); `none` means "return value unchanged". -/
def resolveAbs (fu tu : String) : Option (String × String) :=
  if fu = "abs" then
    if tu = "C" then some ("K", tu) else if tu = "F" then some ("R", tu) else none
  else if tu = "abs" then
    if fu = "C" then some (fu, "K") else if fu = "F" then some (fu, "R") else none
  else some (fu, tu)

/-- First half of `temperature_scale`: to Kelvin (`units.py:495-503`).  Any other unit name
falls through unchanged. -/
def toKelvin (u : String) (x : K) : K :=
  if u = "C" then x + 273.15
  else if u = "R" then x / 1.8
  else if u = "F" then x / 1.8 + 255.3722222222222
  else if u = "eV" then x * (const_q / const_k)
  else x

/-- Second half of `temperature_scale`: from Kelvin (`units.py:505-513`). -/
def fromKelvin (u : String) (x : K) : K :=
  if u = "C" then x - 273.15
  else if u = "R" then x * 1.8
  else if u = "F" then (x - 255.3722222222222) * 1.8
  else if u = "eV" then x / (const_q / const_k)
  else x

/-- `temperature_scale` (`units.py:440-514`).  When not in place the result is a fresh copy
(`units.py:493`). -/
def temperatureScale (cfg : Cfg) (value : Val K) (fromU toU : Option String)
    (inplace : Bool) : Except Err (Res K) := do
  let fu ← match fromU with
    | some u => pure u
    | none => cfg "unit_temperature"
  let tu ← match toU with
    | some u => pure u
    | none => cfg "unit_temperature"
  if fu = tu then
    return retSame value
  match resolveAbs fu tu with
  | none => return retSame value
  | some (fu, tu) => return applyOp (fun x => fromKelvin tu (toKelvin fu x)) value inplace

/-- `pressure(patm, from_units='bar', to_units=units)` as used at `units.py:533`, `537`, `556`,
`559`: a scalar. -/
def patmIn (a : SetupArgs K) (cfg : Cfg) (patm : K) (units : Option String) : Except Err K := do
  let r ← (pressure a).call cfg (.scalar patm) (some "bar") units none false
  match r.ret with
  | .scalar x => return x
  | .arr _ => throw .type

/-- `gauge_to_abs` (`units.py:518-537`).  `patm` is explicit (its Python default is the
`const_pstd` of import time). -/
def gaugeToAbs (a : SetupArgs K) (cfg : Cfg) (value : Val K) (units : Option String) (patm : K)
    (inplace : Bool) : Except Err (Res K) := do
  let pa ← patmIn a cfg patm units
  return applyOp (· + pa) value inplace

/-- `abs_to_gauge` (`units.py:541-559`). -/
def absToGauge (a : SetupArgs K) (cfg : Cfg) (value : Val K) (units : Option String) (patm : K)
    (inplace : Bool) : Except Err (Res K) := do
  let pa ← patmIn a cfg patm units
  return applyOp (· - pa) value inplace

/-- `matter` (`units.py:562-601`); `get_config` is `pm.config[...]` (`utility.py:411-421`).
`mw` is a Python scalar. -/
def matter (a : SetupArgs K) (cfg : Cfg) (value : Val K) (mw : K)
    (fromU toU : Option String) (exponent : Option ℤ) (inplace : Bool) : Except Err (Res K) := do
  let fu ← match fromU with
    | some u => pure u
    | none => cfg "unit_matter"
  let tu ← match toU with
    | some u => pure u
    | none => cfg "unit_matter"
  if fu = tu then
    return retSame value
  if (mass a).contains fu then
    if (mass a).contains tu then
      (mass a).call cfg value (some fu) (some tu) exponent inplace
    else
      let x ← (mass a).get fu
      let xm ← pyDiv x mw
      let y ← (molar a).get tu
      let conv ← powExp (← pyDiv xm y) exponent
      return applyOp (· * conv) value inplace
  else
    if (molar a).contains tu then
      (molar a).call cfg value (some fu) (some tu) exponent inplace
    else
      let x ← (molar a).get fu
      let y ← (mass a).get tu
      let conv ← powExp (← pyDiv (x * mw) y) exponent
      return applyOp (· * conv) value inplace

end PyroMat.Units
