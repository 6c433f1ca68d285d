import Verif.Float.PropsLaw
import Verif.Float.GasExamples

/-!
# The hypotheses of C106 are met
-/

set_option linter.unusedSimpArgs false

namespace PyroMat.Float.Props

open PyroMat PyroMat.Units PyroMat.Units.Spec PyroMat.Gas PyroMat.Gas.Spec PyroMat.Gas.Props PyroMat.Shipped
open PyroMat.Shipped.Props

/-- The data of every shipped gas begin at 200 K or above. -/
theorem shipped_from_200 (f : File) (hf : f ∈ shipped) : f.gas.mw ≠ 0 ∧ 200 ≤ f.gas.Tlo := by
  obtain ⟨b, hb⟩ := shipped_checked f hf
  exact ⟨(gas_mw_pos hb).ne', lo_le hf hb⟩

/-- In double precision: the density of argon at 300 K and a pressure in Pa, and the pressure from that density. -/
example (p : ℝ) : ∃ f ∈ shipped, f.id = "ig.Ar" ∧ (∃ y y' : ℝ,
      method .d kmolEnv f.gas [.scalar 300, .scalar p] [] = .ok [some y] ∧
      lawD double kmolEnv f.gas.mw f.gas.Tlo f.gas.Thi 300 p = .ok y' ∧ |y' - y| ≤ 2.7e-14 * |y|) ∧
    ∃ d' p' : ℝ, lawD double kmolEnv f.gas.mw f.gas.Tlo f.gas.Thi 300 p = .ok d' ∧
      lawP double kmolEnv f.gas.mw f.gas.Tlo f.gas.Thi 300 d' = .ok p' ∧ |p' - p| ≤ 5.4e-14 * |p| := by
  obtain ⟨f, hf, hid, hl⟩ := argon_limits
  obtain ⟨m, h2⟩ := shipped_from_200 f hf
  have k : toKelvin kmolSys.T.name (300 : ℝ) = 300 := by simp [kmolSys, toKelvin, Scale.name]
  have l1 : f.gas.Tlo = 200 := by rw [gas_Tlo, hl]; rfl
  have l2 : f.gas.Thi = 6000 := by rw [gas_Thi, hl]; rfl
  have hlim : ∀ L ∈ [f.gas.Tlo, f.gas.Thi], Clear (2 ^ (-53 : ℤ)) double kmolSys (toKelvin kmolSys.T.name (300 : ℝ)) L := by
    intro L hL
    right
    rw [k]
    rw [l1, l2] at hL
    simp only [List.mem_cons, List.not_mem_nil, or_false] at hL
    rcases hL with rfl | rfl <;> norm_num [zpow_neg, abs_of_pos, abs_of_neg]
  refine ⟨f, hf, hid, ?_, ?_⟩
  · obtain ⟨y, y', e1, e2, e3⟩ := C106_density double_small.1 double_small.2 double_accurate kmolEnv kmolSys kmolEnv_uses f.gas m h2
      300 p (by rw [l1, k]; norm_num) (by rw [l2, k]; norm_num) hlim
    refine ⟨y, y', e1, e2, e3.trans (mul_le_mul_of_nonneg_right ?_ (abs_nonneg _))⟩
    norm_num [zpow_neg]
  · obtain ⟨d', p', e1, e2, e3⟩ := C106_roundtrip double_small.1 double_small.2 double_accurate kmolEnv kmolSys kmolEnv_uses f.gas m h2
      300 p (by rw [l1, k]; norm_num) (by rw [l2, k]; norm_num) hlim
    refine ⟨d', p', e1, e2, e3.trans (mul_le_mul_of_nonneg_right ?_ (abs_nonneg _))⟩
    norm_num [zpow_neg]

/-- In double precision: the temperature of argon at a density of 0.04 kmol/m3 and 100000 Pa (300.7 K). -/
example : ∃ f ∈ shipped, f.id = "ig.Ar" ∧ ∃ y y' : ℝ,
    method .T kmolEnv f.gas [] [("p", .scalar 100000), ("d", .scalar 0.04)] = .ok [some y] ∧ 300 ≤ y ∧ y ≤ 301 ∧
    lawT double kmolEnv f.gas.mw f.gas.Tlo f.gas.Thi 100000 0.04 = .ok y' ∧ |y' - y| ≤ 1.6e-11 := by
  obtain ⟨f, hf, hid, hl⟩ := argon_limits
  obtain ⟨m, h2⟩ := shipped_from_200 f hf
  have l1 : f.gas.Tlo = 200 := by rw [gas_Tlo, hl]; rfl
  have l2 : f.gas.Thi = 6000 := by rw [gas_Thi, hl]; rfl
  refine ⟨f, hf, hid, ?_⟩
  have i1 : internal kmolEnv.a kmolSys f.gas.mw .pressure 100000 = 100000 := by
    have : size (pressure kmolEnv.a) kmolSys.p = 1 := rfl
    simp [internal, this]
  have i2 : internal kmolEnv.a kmolSys f.gas.mw .density 0.04 = 0.04 := by
    have h2 : msize kmolEnv.a f.gas.mw kmolSys.m = 1 := by
      simp [msize, kmolSys, kmolEnv, Units.Props.matterScale, mass, molar, List.lookup, SetupArgs.default]
    have h3 : size (volume : Conv ℝ) kmolSys.v = 1 := by simp [size, kmolSys, volume, List.lookup]
    simp [internal, h2, h3]
  set T : ℝ := 100000 / (1000 * Ru * 0.04) with hT
  have t1 : 300 ≤ T ∧ T ≤ 301 := by
    rw [hT]
    norm_num [Ru, const_Ru, const_k, const_Na]
  have e := method_pd kmolEnv_uses m 100000 0.04 T (by rw [i1, i2]) (by linarith) (by linarith) .T
  have kk : ∀ x : ℝ, toKelvin kmolSys.T.name x = x := by intro x; simp [kmolSys, toKelvin, Scale.name]
  have v : value kmolEnv.a kmolSys f.gas .T (some T) (some (internal kmolEnv.a kmolSys f.gas.mw .pressure 100000))
      (some (internal kmolEnv.a kmolSys f.gas.mw .density 0.04)) = some T := by
    simp [value, inUnits, kmolSys, fromKelvin, Scale.name]
  rw [v] at e
  obtain ⟨y', e1, e2⟩ := C106_temperature double_small.1 double_small.2 double_accurate kmolEnv kmolSys kmolEnv_uses f.gas m h2
    100000 0.04 T e (by
      intro L hL
      rw [l1, l2] at hL
      rw [kk]
      simp only [List.mem_cons, List.not_mem_nil, or_false] at hL
      rcases hL with rfl | rfl
      · rw [abs_of_pos (by linarith)]
        norm_num [zpow_neg]; linarith
      · rw [abs_of_neg (by linarith)]
        norm_num [zpow_neg]; linarith)
  rw [kk, kk] at e2
  refine ⟨T, y', e, t1.1, t1.2, e1, e2.trans ?_⟩
  have : (2 : ℝ) ^ (-53 : ℤ) ≤ 1.12e-16 := by norm_num [zpow_neg]
  have p0 := double_small.1
  nlinarith

end PyroMat.Float.Props
