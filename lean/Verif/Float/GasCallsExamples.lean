import Verif.Float.PropsGasCalls
import Verif.Float.GasExamples

/-!
# The hypotheses of C105 for arrays are met
-/

set_option linter.unusedSimpArgs false

namespace PyroMat.Float.Props

open PyroMat PyroMat.Units PyroMat.Units.Spec PyroMat.Gas PyroMat.Gas.Spec PyroMat.Gas.Props PyroMat.Shipped
open PyroMat.Shipped.Props

theorem kmol_kelvin (t : ℝ) : toKelvin kmolSys.T.name t = t := by simp [kmolSys, toKelvin, Scale.name]

theorem argon_clear {f : File} (hl : f.data.Tlim = [200, 1000, 6000]) {t : ℝ} (h : t = 300 ∨ t = 7000) :
    ∀ L ∈ f.data.Tlim, Clear (2 ^ (-53 : ℤ)) double kmolSys (toKelvin kmolSys.T.name t) L := by
  intro L hL
  right
  rw [hl] at hL
  rw [kmol_kelvin]
  simp only [List.mem_cons, List.not_mem_nil, or_false] at hL
  rcases h with rfl | rfl <;> rcases hL with rfl | rfl | rfl <;> norm_num [zpow_neg, abs_of_pos, abs_of_neg]

/-- C105 in double precision: the enthalpies of argon at the temperatures 300 K and 7000 K and one density.  The first
is in kJ/kmol within `5e-7`, the second, above the limit, is NaN. -/
example : ∃ f ∈ shipped, f.id = "ig.Ar" ∧ ∃ (y y' : ℝ) (ys : List Nan),
    method .h kmolEnv f.gas [] [("T", .scalar 300), ("d", .scalar 0.04)] = .ok [some y] ∧
    methodsF double kmolEnv f.data (fileForms f) .h .d [300, 7000] [0.04] = .ok ys ∧ ys = [some y', none] ∧
    |y' - y| ≤ 5e-7 := by
  obtain ⟨f, hf, hid, hl⟩ := argon_limits
  refine ⟨f, hf, hid, ?_⟩
  obtain ⟨t', y, y', ys, -, e1, e2, e3, e4, e5, e6⟩ := C105_calls_partial double_small.1 double_small.2 double_accurate f hf
    kmolEnv kmolSys kmolEnv_uses .h .d [300, 7000] [0.04] (by simp) 0 (by simp) 300 0.04 rfl rfl (by norm_num)
    (by rw [gas_Tlo, hl, kmol_kelvin]; norm_num) (by rw [gas_Thi, hl, kmol_kelvin]; norm_num) (argon_clear hl (.inl rfl))
  have out := (C105_outside double_small.1 double_small.2 double_accurate f hf kmolEnv kmolSys kmolEnv_uses .h .d
    [300, 7000] [0.04] (by simp) (by simp) (by simp)).1 ys e3 1 7000 (by simp) rfl
    ⟨by rw [kmol_kelvin]; norm_num, by rw [gas_Thi, hl, kmol_kelvin]; norm_num, argon_clear hl (.inr rfl)⟩
  rw [e1 rfl] at e2 e6
  refine ⟨y, y', ys, e2, e3, ?_, e6.trans ?_⟩
  · match ys, e4, e5, out with
    | [a, b], _, e5, out =>
      simp only [List.getElem?_cons_zero, List.getElem?_cons_succ, Option.some.injEq] at e5 out
      rw [e5, out]
  · rw [kmol_kelvin]
    have h1 : size (Units.energy : Conv ℝ) kmolSys.e = 1000 := by simp [size, kmolSys, Units.energy, List.lookup]
    have h2 : msize kmolEnv.a f.gas.mw kmolSys.m = 1 := by
      simp [msize, kmolSys, kmolEnv, Units.Props.matterScale, mass, molar, List.lookup, SetupArgs.default]
    simp only [Q.kind, inUnits, weight, h1, h2]
    norm_num [zpow_neg]

/-- All temperatures above the limit: an error. -/
example : ∃ f ∈ shipped, f.id = "ig.Ar" ∧
    methodsF double kmolEnv f.data (fileForms f) .s .v [7000] [10, 20] = .error .param := by
  obtain ⟨f, hf, hid, hl⟩ := argon_limits
  refine ⟨f, hf, hid, (C105_outside double_small.1 double_small.2 double_accurate f hf kmolEnv kmolSys kmolEnv_uses .s .v
    [7000] [10, 20] (by simp) (by simp) (by simp)).2 ?_⟩
  intro t ht
  simp only [List.mem_cons, List.not_mem_nil, or_false] at ht
  subst ht
  exact ⟨by rw [kmol_kelvin]; norm_num, by rw [gas_Thi, hl, kmol_kelvin]; norm_num, argon_clear hl (.inr rfl)⟩

end PyroMat.Float.Props
