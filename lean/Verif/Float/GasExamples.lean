import Verif.Float.PropsGas
import Verif.Float.Examples
import Verif.Shipped.Examples
import Verif.Gas.PropsMore

/-!
# The hypotheses of C105 are met
-/

set_option linter.unusedSimpArgs false

namespace PyroMat.Float.Props

open PyroMat PyroMat.Units PyroMat.Units.Spec PyroMat.Gas PyroMat.Gas.Spec PyroMat.Gas.Props PyroMat.Shipped
open PyroMat.Shipped.Props

/-- The limits of argon: 200, 1000 and 6000 K. -/
theorem argon_limits : ∃ f ∈ shipped, f.id = "ig.Ar" ∧ f.data.Tlim = [200, 1000, 6000] := by
  have h : (shipped.any fun f => f.id == "ig.Ar" && f.Tlim.map mK == [200000, 1000000, 6000000]) = true := by
    decide +kernel
  obtain ⟨f, hf, he⟩ := List.any_eq_true.mp h
  simp only [Bool.and_eq_true, beq_iff_eq] at he
  obtain ⟨b, hb⟩ := shipped_checked f hf
  have hok := walk_ok _ _ _ _ _ (check_walk hb)
  refine ⟨f, hf, he.1, ?_⟩
  have hv : f.data.Tlim = (f.Tlim.map mK).map fun n : ℕ => (n : ℝ) / 1000 := by
    simp only [File.data, List.map_map]
    apply List.map_congr_left
    intro d hd
    have := (mK_val (hok d hd)).1
    simp only [Function.comp]
    linarith
  rw [hv, he.2]
  norm_num

/-- C105 in double precision: the enthalpy of argon at 300 K, in kJ/kmol, within `4e-7`. -/
example : ∃ f ∈ shipped, f.id = "ig.Ar" ∧ ∃ y y' : ℝ,
    method .h kmolEnv f.gas [.scalar 300, .scalar 100000] [] = .ok [some y] ∧
    methodF double kmolEnv f.data (fileForms f) .h 300 100000 = .ok (some y') ∧ |y' - y| ≤ 4e-7 := by
  obtain ⟨f, hf, hid, hl⟩ := argon_limits
  refine ⟨f, hf, hid, ?_⟩
  have k : toKelvin kmolSys.T.name (300 : ℝ) = 300 := by simp [kmolSys, toKelvin, Scale.name]
  obtain ⟨t', y, y', -, e1, e2, e3, e4⟩ := C105_property_partial double_small.1 double_small.2 double_accurate f hf kmolEnv
    kmolSys kmolEnv_uses .h 300 100000 (by norm_num) (by rw [gas_Tlo, hl, k]; norm_num)
    (by rw [gas_Thi, hl, k]; norm_num) (by
      intro L hL
      right
      rw [hl] at hL
      rw [k]
      simp only [List.mem_cons, List.not_mem_nil, or_false] at hL
      rcases hL with rfl | rfl | rfl <;> norm_num [zpow_neg, abs_of_pos, abs_of_neg])
  rw [e1 rfl] at e2 e4
  refine ⟨y, y', e2, e3, e4.trans ?_⟩
  rw [k]
  have h1 : size (Units.energy : Conv ℝ) kmolSys.e = 1000 := by simp [size, kmolSys, Units.energy, List.lookup]
  have h2 : msize kmolEnv.a f.gas.mw kmolSys.m = 1 := by
    simp [msize, kmolSys, kmolEnv, Units.Props.matterScale, mass, molar, List.lookup, SetupArgs.default]
  simp only [Q.kind, inUnits, weight, h1, h2]
  norm_num [zpow_neg]

/-- With exact arithmetic the two models agree: this is C105 with `ε = 0`. -/
example : ∃ f ∈ shipped, f.id = "ig.Ar" ∧ ∃ y : ℝ,
    method .s kmolEnv f.gas [.scalar 300, .scalar 100000] [] = .ok [some y] ∧
    methodF exact kmolEnv f.data (fileForms f) .s 300 100000 = .ok (some y) := by
  obtain ⟨f, hf, hid, hl⟩ := argon_limits
  refine ⟨f, hf, hid, ?_⟩
  have k : toKelvin kmolSys.T.name (300 : ℝ) = 300 := by simp [kmolSys, toKelvin, Scale.name]
  obtain ⟨t', y, y', -, e1, e2, e3, e4⟩ := C105_property_partial le_rfl (by norm_num) exact_accurate f hf kmolEnv
    kmolSys kmolEnv_uses .s 300 100000 (by norm_num) (by rw [gas_Tlo, hl, k]; norm_num)
    (by rw [gas_Thi, hl, k]; norm_num) (by
      intro L hL
      exact Or.inl ⟨rfl, rfl⟩)
  rw [e1 rfl] at e2
  have : y' = y := by
    rw [mul_zero, zero_mul] at e4
    exact sub_eq_zero.mp (abs_nonpos_iff.mp e4)
  exact ⟨y, e2, this ▸ e3⟩

end PyroMat.Float.Props
