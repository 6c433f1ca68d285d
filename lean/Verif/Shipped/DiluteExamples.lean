import Verif.Shipped.PropsDilute
import Verif.Shipped.MpExamples

/-!
# Calls that meet the hypotheses of C101, and of C98 at low density
-/

set_option linter.unusedSimpArgs false

namespace PyroMat.Shipped.Props

open PyroMat PyroMat.Units PyroMat.Units.Spec PyroMat.Units.Props PyroMat.Gas PyroMat.Gas.Spec PyroMat.Gas.Props
  PyroMat.Mp PyroMat.Mp.Spec PyroMat.Mp.Props PyroMat.Shipped PyroMat.Shipped.Data PyroMat.Shipped.Spec

theorem full_speed : SpeedUnits fullEnv "m" "s" := by
  refine ⟨rfl, rfl, ?_, ?_⟩ <;> simp [Conv.contains, length, time, List.lookup]

theorem methane_mem : CH4 ∈ shippedMp := by simp [shippedMp]

/-- Methane at 300 K: to one part in a million an ideal gas, below some density. -/
example : ∃ e s c δ, 0 < δ ∧ 2 * CH4.sub.F.R ≤ c ∧ ∀ y, 0 < y → y < δ →
    IdealGasWithin fullEnv exampleSys "m" "s" CH4.sub (codeSol CH4.sub) CH4.sub.F.R 1e-6 e s c 300 y := by
  obtain ⟨e, s, c, -, h2, h3⟩ := C101_ideal_gas_limit CH4 methane_mem
  have h := h3 fullEnv exampleSys fullEnv_uses "m" "s" full_speed (codeSol CH4.sub) 300
  rw [kelvin_K] at h
  obtain ⟨δ, h0, h1⟩ := h (by norm_num [MpFile.sub, CH4, Dec.val, Dec.p]) (by norm_num [MpFile.sub, CH4, Dec.val, Dec.p])
    1e-6 (by norm_num)
  exact ⟨_, _, _, δ, h0, h2 300 (by norm_num [MpFile.sub, CH4, Dec.val, Dec.p]) (by norm_num [MpFile.sub, CH4, Dec.val, Dec.p]), h1⟩

/-- The hypotheses of `C98_cp` and `C98_sound` are met by methane at 300 K and some density. -/
example : ∃ d, 0 < d ∧ OffDome CH4.sub 300 d ∧ (CH4.sub.F.p 300 d).vd ≠ 0 ∧ (CH4.sub.F.s 300 d).vT ≠ 0 := by
  obtain ⟨δ, h0, h1⟩ := C101_stable CH4 methane_mem 300 (by norm_num [MpFile.sub, CH4, Dec.val, Dec.p])
    (by norm_num [MpFile.sub, CH4, Dec.val, Dec.p])
  obtain ⟨a, b⟩ := h1 (δ / 2) (by linarith) (by linarith)
  exact ⟨δ / 2, by linarith, Or.inl (by norm_num [MpFile.sub, CH4, Dec.val, Dec.p]), a.ne', b.ne'⟩

end PyroMat.Shipped.Props
