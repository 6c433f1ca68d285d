import Verif.Shipped.PropsMp
import Verif.Gas.PropsConst

/-!
# Calls that meet the hypotheses of C97 and C98
-/

set_option linter.unusedSimpArgs false

namespace PyroMat.Shipped.Props

open PyroMat PyroMat.Units PyroMat.Units.Spec PyroMat.Units.Props PyroMat.Gas PyroMat.Gas.Spec PyroMat.Gas.Props
  PyroMat.Mp PyroMat.Mp.Spec PyroMat.Mp.Props PyroMat.Shipped PyroMat.Shipped.Data

theorem kelvin_K (t : ℝ) : toKelvin exampleSys.T.name t = t := by
  simp [exampleSys, toKelvin, Scale.name]

/-- Water between freezing and boiling, in K, bar, m3, kJ and kg. -/
theorem water_T : ∀ t ∈ Val.elems (Val.arr [300, 350, 373.15] : Val ℝ), InDomeT exampleSys H2O.sub t := by
  intro t ht
  simp only [Val.elems, List.mem_cons, List.not_mem_nil, or_false] at ht
  rcases ht with rfl | rfl | rfl <;>
    norm_num [InDomeT, kelvin_K, MpFile.sub, H2O, Dec.val, Dec.p]

theorem water_mem : H2O ∈ shippedMp := by simp [shippedMp]

example : ∃ ls vs, satDs fullEnv H2O.sub (codeSol H2O.sub) (some (.arr [300, 350, 373.15])) none = .ok (ls, vs) ∧
    ∃ l v, ls[2]? = some (some l) ∧ vs[2]? = some (some v) ∧ 0 < v ∧ v < l := by
  obtain ⟨ls, vs, h, k⟩ := C97_densities H2O water_mem fullEnv exampleSys fullEnv_uses (codeSol H2O.sub) _ water_T
  obtain ⟨l, v, a, b, c, -, d⟩ := k 2 373.15 rfl
  refine ⟨ls, vs, h, l, v, a, b, c, d ?_⟩
  rw [kelvin_K]
  norm_num [MpFile.sub, H2O, Dec.val, Dec.p]

example : ∃ ps, satPs fullEnv H2O.sub (some (.arr [300, 350, 373.15])) = .ok ps ∧ ps.length = 3 := by
  obtain ⟨ps, h, k, -⟩ := C97_pressure H2O water_mem fullEnv exampleSys fullEnv_uses _ water_T
  exact ⟨ps, h, k⟩

theorem bar_size : size (Units.pressure fullEnv.a) exampleSys.p = 100000 := by
  simp [size, Units.pressure, exampleSys, fullEnv, SetupArgs.default, List.lookup]
  norm_num

/-- One atmosphere is the saturation pressure of water at exactly one temperature. -/
example : ∃! T, (H2O.sub.Tt * 0.99 ≤ T ∧ T ≤ H2O.sub.Tc) ∧ H2O.sub.ps T = 1.01325 * 100000 := by
  have := C97_saturation_temperature H2O water_mem fullEnv exampleSys 1.01325 ?_ (by simp [H2O])
  · rwa [bar_size] at this
  · unfold InDomeP
    rw [bar_size]
    norm_num [MpFile.sub, H2O, Dec.val, Dec.p]

/-- 40.58 bar is in the gap of R-134a. -/
example : ∀ t, satTs fullEnv C2H2F4.sub (quietSol C2H2F4.sub) (some (.scalar 40.58)) ≠ .ok [some t] :=
  (C97_critical_pressure_defect fullEnv exampleSys fullEnv_uses 40.58 (by rw [bar_size]; norm_num)
    (by rw [bar_size]; norm_num)).2.2.2

/-- Methane at 300 K and 10 kg/m3 meets the hypotheses of `C98_cv`. -/
example : CvIsSlope fullEnv CH4.sub (codeSol CH4.sub) 300
    (inUnitsKg fullEnv.a exampleSys CH4.sub.mw .density 10) := by
  have hf : CH4 ∈ shippedMp := by simp [shippedMp]
  refine C98_cv CH4 hf (by simp [CH4]) fullEnv exampleSys fullEnv_uses _ 300 _ 300 10 ?_ ?_ (by norm_num) ?_ ?_
    (Or.inl (Or.inl ?_))
  · exact kelvin_K _
  · exact internalKg_inUnitsKg fullEnv_uses (facts hf).mw.ne' _ _
  all_goals norm_num [MpFile.sub, CH4, Dec.val, Dec.p]

/-- Steam at 700 K and 10 kg/m3 meets the hypotheses of `C98_cv_one_phase`. -/
example : CvIsSlope fullEnv H2O.sub (codeSol H2O.sub) 700
    (inUnitsKg fullEnv.a exampleSys H2O.sub.mw .density 10) := by
  refine C98_cv_one_phase H2O water_mem fullEnv exampleSys fullEnv_uses _ 700 _ 700 10 ?_ ?_ (by norm_num) ?_ ?_
    (Or.inl ?_) (fun _ => ?_)
  · exact kelvin_K _
  · exact internalKg_inUnitsKg fullEnv_uses (facts water_mem).mw.ne' _ _
  all_goals norm_num [MpFile.sub, H2O, Dec.val, Dec.p, OffCritical]

/-- Water at 300 K and 1000 kg/m3 is off the critical density, as `C98_energies` asks. -/
example : OffCritical (1000 / H2O.ar.dscale.val) := by
  norm_num [OffCritical, H2O, Dec.val, Dec.p]

end PyroMat.Shipped.Props
