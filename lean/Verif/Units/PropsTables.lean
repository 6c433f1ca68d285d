import Mathlib.Algebra.Order.Field.Rat
import Verif.Units.Lemmas

/-!
# Property theorems C04: coherence of the unit tables
-/

set_option linter.unusedSectionVars false
set_option linter.unusedSimpArgs false

namespace PyroMat.Units.Props

open PyroMat PyroMat.Units PyroMat.Units.Spec

variable {K : Type} [Field K] [LinearOrder K] [IsStrictOrderedRing K]

/-! ## C04 - coherence of the tables -/

/-- C04 (first part).  Whatever positive constants are given to `setup`, every factor in every
table is positive. -/
theorem C04_factors_positive (a : SetupArgs K) (ha : Positive a) :
    ∀ c ∈ allConvs a, ∀ p ∈ c.table, 0 < p.2 := by
  obtain ⟨h1, h2, h3, h4, h5⟩ := ha
  intro c hc
  simp only [allConvs, List.mem_cons, List.not_mem_nil, or_false] at hc
  have hd : (0:K) < const_dstd a := by
    unfold const_dstd const_Ru const_k const_Na
    have := h2; have := h1
    positivity
  have hlb : (0:K) < lbm := by unfold lbm; norm_num
  have hk : (0:K) < const_k := by unfold const_k; norm_num
  have hq : (0:K) < const_q := by unfold const_q; norm_num
  have hNa : (0:K) < const_Na := by unfold const_Na; norm_num
  have hN : (0:K) < molarNm3 a := by unfold molarNm3; positivity
  have hS : (0:K) < molarScf a := by unfold molarScf; positivity
  have hP : (0:K) < psi a := by unfold psi; positivity
  rcases hc with rfl | rfl | rfl | rfl | rfl | rfl | rfl | rfl | rfl <;>
  · simp only [length, time, mass, force, molar, temperature, energy, volume, pressure,
      List.forall_mem_cons, List.not_mem_nil, false_imp_iff, implies_true, and_true]
    repeat' apply And.intro
    all_goals positivity

example : Positive (SetupArgs.default : SetupArgs ℚ) := by
  constructor <;> norm_num [SetupArgs.default]

/-- Tables are dictionaries: no unit name occurs twice. -/
theorem C04_names_distinct (a : SetupArgs K) :
    ∀ c ∈ allConvs a, (c.table.map Prod.fst).Nodup := by
  intro c hc
  simp only [allConvs, List.mem_cons, List.not_mem_nil, or_false] at hc
  rcases hc with rfl | rfl | rfl | rfl | rfl | rfl | rfl | rfl | rfl <;>
  simp [length, time, mass, force, molar, temperature, energy, volume, pressure]

theorem nonZero_of_mem {a : SetupArgs K} (ha : Positive a) {c : Conv K} (hc : c ∈ allConvs a) :
    NonZero c := fun p hp => ne_of_gt (C04_factors_positive a ha c hc p hp)

/-- C04.  Length and time units. -/
theorem C04_length_time :
    OneIs (length : Conv K) "ft" "in" 12 ∧ OneIs (length : Conv K) "yd" "ft" 3 ∧
    OneIs (length : Conv K) "mile" "ft" 5280 ∧ OneIs (length : Conv K) "mi" "mile" 1 ∧
    OneIs (length : Conv K) "in" "cm" 2.54 ∧ OneIs (length : Conv K) "nmi" "m" 1852 ∧
    OneIs (length : Conv K) "km" "m" 1000 ∧ OneIs (length : Conv K) "m" "cm" 100 ∧
    OneIs (length : Conv K) "cm" "mm" 10 ∧ OneIs (length : Conv K) "mm" "um" 1000 ∧
    OneIs (length : Conv K) "um" "nm" 1000 ∧ OneIs (length : Conv K) "nm" "A" 10 ∧
    OneIs (time : Conv K) "min" "s" 60 ∧ OneIs (time : Conv K) "hr" "min" 60 ∧
    OneIs (time : Conv K) "day" "hr" 24 ∧ OneIs (time : Conv K) "year" "day" 365 ∧
    OneIs (time : Conv K) "s" "ms" 1000 ∧ OneIs (time : Conv K) "ms" "us" 1000 ∧
    OneIs (time : Conv K) "us" "ns" 1000 := by
  have hp : Positive (SetupArgs.default : SetupArgs K) := by
    constructor <;> norm_num [SetupArgs.default]
  have hn : NonZero (length : Conv K) := nonZero_of_mem hp (by simp [allConvs])
  have ht : NonZero (time : Conv K) := nonZero_of_mem hp (by simp [allConvs])
  refine ⟨?_, ?_, ?_, ?_, ?_, ?_, ?_, ?_, ?_, ?_, ?_, ?_, ?_, ?_, ?_, ?_, ?_, ?_, ?_⟩
  all_goals first
    | exact oneIs_of_lookup hn rfl rfl (by norm_num)
    | exact oneIs_of_lookup ht rfl rfl (by norm_num)

/-- C04.  Mass and force units for any gravity: 16 oz = 1 lb, the pound-force is the weight of
the pound-mass, the slug is accelerated by one pound-force at one foot per second squared
(1 slug = 1 lbf / (1 ft/s²) = g * lbm / ft), the kilogram-force is the weight of a kilogram,
and the atomic mass unit is one gram per mole per molecule. -/
theorem C04_mass_force (a : SetupArgs K) (ha : Positive a) :
    OneIs (mass a) "lb" "oz" 16 ∧ OneIs (mass a) "lb" "lbm" 1 ∧
    OneIs (mass a) "kg" "g" 1000 ∧ OneIs (mass a) "g" "mg" 1000 ∧
    OneIs (mass a) "lbm" "kg" 0.45359237 ∧
    OneIs (mass a) "slug" "kg" (a.g * 0.45359237 / (12 * 0.0254)) ∧
    OneIs (mass a) "g" "u" 6.02214076e23 ∧ OneIs (mass a) "amu" "u" 1 ∧
    OneIs (force a) "lbf" "N" (0.45359237 * a.g) ∧ OneIs (force a) "lb" "lbf" 1 ∧
    OneIs (force a) "lb" "oz" 16 ∧ OneIs (force a) "kgf" "N" a.g ∧
    OneIs (force a) "kN" "N" 1000 := by
  have hm : NonZero (mass a) := nonZero_of_mem ha (by simp [allConvs])
  have hf : NonZero (force a) := nonZero_of_mem ha (by simp [allConvs])
  have hg : a.g ≠ 0 := ne_of_gt ha.g
  refine ⟨?_, ?_, ?_, ?_, ?_, ?_, ?_, ?_, ?_, ?_, ?_, ?_, ?_⟩
  · exact oneIs_of_lookup hm rfl rfl (by unfold lbm; norm_num)
  · exact oneIs_of_lookup hm rfl rfl (by unfold lbm; norm_num)
  · exact oneIs_of_lookup hm rfl rfl (by norm_num)
  · exact oneIs_of_lookup hm rfl rfl (by norm_num)
  · exact oneIs_of_lookup hm rfl rfl (by unfold lbm; norm_num)
  · exact oneIs_of_lookup hm rfl rfl (by unfold lbm; field_simp)
  · exact oneIs_of_lookup hm rfl rfl (by unfold const_Na; norm_num)
  · exact oneIs_of_lookup hm rfl rfl (by unfold const_Na; norm_num)
  · exact oneIs_of_lookup hf rfl rfl (by unfold lbm; field_simp)
  · exact oneIs_of_lookup hf rfl rfl (by unfold lbm; field_simp)
  · exact oneIs_of_lookup hf rfl rfl (by unfold lbm; field_simp)
  · exact oneIs_of_lookup hf rfl rfl (by simp)
  · exact oneIs_of_lookup hf rfl rfl (by norm_num)

/-- C04.  Molar units: named after the mass units they scale with, molecules through Avogadro's
number, and the normal (standard) volumes through the ideal-gas law at the standard state
(`p V = n R T` with `p = pstd` bar, `T = Tstd`). -/
theorem C04_molar (a : SetupArgs K) (ha : Positive a) :
    OneIs (molar a) "kmol" "mol" 1000 ∧ OneIs (molar a) "lbmol" "kmol" 0.45359237 ∧
    OneIs (molar a) "mol" "n" 6.02214076e23 ∧
    OneIs (molar a) "Nm3" "mol"
      (a.pstd * 100000 / ((1.380649e-23 * 6.02214076e23) * a.Tstd)) ∧
    OneIs (molar a) "Ncum" "Nm3" 1 ∧ OneIs (molar a) "Nm3" "NL" 1000 ∧
    OneIs (molar a) "NL" "Ncc" 1000 ∧ OneIs (molar a) "scf" "sci" 1728 ∧
    OneIs (molar a) "scf" "Nm3" ((12 * 0.0254) ^ 3) := by
  have hm : NonZero (molar a) := nonZero_of_mem ha (by simp [allConvs])
  have hT : a.Tstd ≠ 0 := ne_of_gt ha.Tstd
  have hP : a.pstd ≠ 0 := ne_of_gt ha.pstd
  refine ⟨?_, ?_, ?_, ?_, ?_, ?_, ?_, ?_, ?_⟩
  · exact oneIs_of_lookup hm rfl rfl (by norm_num)
  · exact oneIs_of_lookup hm rfl rfl (by unfold lbm; norm_num)
  · exact oneIs_of_lookup hm rfl rfl (by unfold const_Na; norm_num)
  · refine oneIs_of_lookup hm rfl rfl ?_
    unfold molarNm3 const_dstd const_Ru const_k const_Na
    field_simp
    norm_num
  all_goals
    refine oneIs_of_lookup hm rfl rfl ?_
    first | unfold molarScf molarNm3 const_dstd const_Ru const_k const_Na
          | unfold molarNm3 const_dstd const_Ru const_k const_Na
    field_simp
    try norm_num

/-- C04.  Energy and volume units. -/
theorem C04_energy_volume :
    OneIs (energy : Conv K) "kJ" "J" 1000 ∧ OneIs (energy : Conv K) "kcal" "cal" 1000 ∧
    OneIs (energy : Conv K) "cal" "J" 4.184 ∧ OneIs (energy : Conv K) "eV" "J" 1.602176634e-19 ∧
    OneIs (energy : Conv K) "BTU" "cal" (453.59237 * (5 / 9)) ∧
    OneIs (volume : Conv K) "m3" "L" 1000 ∧ OneIs (volume : Conv K) "L" "mL" 1000 ∧
    OneIs (volume : Conv K) "mL" "uL" 1000 ∧ OneIs (volume : Conv K) "mL" "cm3" 1 ∧
    OneIs (volume : Conv K) "cc" "cm3" 1 ∧ OneIs (volume : Conv K) "cum" "m3" 1 ∧
    OneIs (volume : Conv K) "cumm" "mm3" 1 ∧ OneIs (volume : Conv K) "cuin" "in3" 1 ∧
    OneIs (volume : Conv K) "cuft" "ft3" 1 ∧ OneIs (volume : Conv K) "uL" "mm3" 1 ∧
    OneIs (volume : Conv K) "gal" "in3" 231 ∧ OneIs (volume : Conv K) "USgal" "gal" 1 ∧
    OneIs (volume : Conv K) "gal" "qt" 4 ∧ OneIs (volume : Conv K) "qt" "pt" 2 ∧
    OneIs (volume : Conv K) "UKgal" "L" 4.54609 ∧ OneIs (volume : Conv K) "ft3" "in3" 1728 := by
  have hp : Positive (SetupArgs.default : SetupArgs K) := by
    constructor <;> norm_num [SetupArgs.default]
  have he : NonZero (energy : Conv K) := nonZero_of_mem hp (by simp [allConvs])
  have hv : NonZero (volume : Conv K) := nonZero_of_mem hp (by simp [allConvs])
  refine ⟨?_, ?_, ?_, ?_, ?_, ?_, ?_, ?_, ?_, ?_, ?_, ?_, ?_, ?_, ?_, ?_, ?_, ?_, ?_, ?_, ?_⟩
  all_goals first
    | exact oneIs_of_lookup hv rfl rfl (by norm_num)
    | exact oneIs_of_lookup he rfl rfl (by norm_num [const_q, lbm])

/-- C04.  A volume unit is the cube of the length unit it is named after: converting with the
volume table and converting lengths with `exponent=3` return the same value. -/
theorem C04_volume_is_length_cubed (cfg : Cfg) (v : Val K) (ip : Bool)
    (u w : String × String)
    (hu : u ∈ [("m3", "m"), ("mm3", "mm"), ("cm3", "cm"), ("in3", "in"), ("ft3", "ft")])
    (hw : w ∈ [("m3", "m"), ("mm3", "mm"), ("cm3", "cm"), ("in3", "in"), ("ft3", "ft")]) :
    ∃ r, returned ((volume : Conv K).call cfg v (some u.1) (some w.1) none ip) = .ok r ∧
      returned ((length : Conv K).call cfg v (some u.2) (some w.2) (some 3) ip) = .ok r := by
  have hp : Positive (SetupArgs.default : SetupArgs K) := by
    constructor <;> norm_num [SetupArgs.default]
  have hl : NonZero (length : Conv K) := nonZero_of_mem hp (by simp [allConvs])
  have hv : NonZero (volume : Conv K) := nonZero_of_mem hp (by simp [allConvs])
  have key : ∀ u ∈ [("m3", "m"), ("mm3", "mm"), ("cm3", "cm"), ("in3", "in"), ("ft3", "ft")],
      ∃ t : K, (length : Conv K).table.lookup u.2 = some t ∧
        (volume : Conv K).table.lookup u.1 = some (t ^ 3) := by
    intro u hu
    simp only [List.mem_cons, List.not_mem_nil, or_false] at hu
    rcases hu with rfl | rfl | rfl | rfl | rfl
    all_goals exact ⟨_, rfl, rfl⟩
  obtain ⟨t, ht1, ht2⟩ := key u hu
  obtain ⟨s, hs1, hs2⟩ := key w hw
  obtain ⟨r1, h1, h1'⟩ := call_ret hv ht2 hs2 cfg v none ip
  obtain ⟨r2, h2, h2'⟩ := call_ret hl ht1 hs1 cfg v (some 3) ip
  refine ⟨r1.ret, by rw [h1]; rfl, ?_⟩
  rw [h2]
  simp only [returned, Except.map, h1', h2']
  congr 1
  apply Val.map_congr
  intro x
  simp only [powS]
  rw [if_neg (by norm_num), ← div_pow]
  norm_cast

/-- C04.  Pressure units for any constants: the standard atmosphere, 760 Torr per atmosphere,
force per area for psi, column heights as `density * g * height`. -/
theorem C04_pressure (a : SetupArgs K) (ha : Positive a) :
    OneIs (pressure a) "kPa" "Pa" 1000 ∧ OneIs (pressure a) "MPa" "kPa" 1000 ∧
    OneIs (pressure a) "GPa" "MPa" 1000 ∧ OneIs (pressure a) "bar" "Pa" 100000 ∧
    OneIs (pressure a) "atm" "bar" a.pstd ∧ OneIs (pressure a) "atm" "Torr" 760 ∧
    OneIs (pressure a) "psi" "Pa" ((0.45359237 * a.g) / 0.0254 ^ 2) ∧
    OneIs (pressure a) "psi" "psf" 144 ∧ OneIs (pressure a) "ksi" "psi" 1000 ∧
    OneIs (pressure a) "mmHg" "Pa" (a.dhg * a.g * 0.001) ∧
    OneIs (pressure a) "mmH2O" "Pa" (a.dh2o * a.g * 0.001) ∧
    OneIs (pressure a) "inHg" "Pa" (a.dhg * a.g * 0.0254) ∧
    OneIs (pressure a) "inH2O" "Pa" (a.dh2o * a.g * 0.0254) := by
  have hm : NonZero (pressure a) := nonZero_of_mem ha (by simp [allConvs])
  have hg : a.g ≠ 0 := ne_of_gt ha.g
  have hP : a.pstd ≠ 0 := ne_of_gt ha.pstd
  refine ⟨?_, ?_, ?_, ?_, ?_, ?_, ?_, ?_, ?_, ?_, ?_, ?_, ?_⟩
  · exact oneIs_of_lookup hm rfl rfl (by norm_num)
  · exact oneIs_of_lookup hm rfl rfl (by norm_num)
  · exact oneIs_of_lookup hm rfl rfl (by norm_num)
  · exact oneIs_of_lookup hm rfl rfl (by norm_num)
  · exact oneIs_of_lookup hm rfl rfl (by field_simp)
  · exact oneIs_of_lookup hm rfl rfl (by field_simp)
  · exact oneIs_of_lookup hm rfl rfl (by unfold psi lbm; field_simp)
  · exact oneIs_of_lookup hm rfl rfl (by unfold psi lbm; field_simp; norm_num)
  · exact oneIs_of_lookup hm rfl rfl (by unfold psi lbm; field_simp)
  · exact oneIs_of_lookup hm rfl rfl (by norm_num)
  · exact oneIs_of_lookup hm rfl rfl (by norm_num)
  · exact oneIs_of_lookup hm rfl rfl (by norm_num; field_simp)
  · exact oneIs_of_lookup hm rfl rfl (by norm_num; field_simp)

/-- C04.  Temperature intervals. -/
theorem C04_temperature :
    OneIs (temperature : Conv K) "K" "R" 1.8 ∧ OneIs (temperature : Conv K) "C" "F" 1.8 ∧
    OneIs (temperature : Conv K) "C" "K" 1 ∧ OneIs (temperature : Conv K) "F" "R" 1 ∧
    OneIs (temperature : Conv K) "eV" "K" (1.602176634e-19 / 1.380649e-23) := by
  have hp : Positive (SetupArgs.default : SetupArgs K) := by
    constructor <;> norm_num [SetupArgs.default]
  have hm : NonZero (temperature : Conv K) := nonZero_of_mem hp (by simp [allConvs])
  refine ⟨?_, ?_, ?_, ?_, ?_⟩
  all_goals first
    | exact oneIs_of_lookup hm rfl rfl (by norm_num [const_q, const_k])

end PyroMat.Units.Props
