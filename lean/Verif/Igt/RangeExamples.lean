import Verif.Igt.PropsRange
import Verif.Igt.GivenExamples

/-!
# The hypotheses of C86 are met

The mixture of `ThermoExamples`: gas 7 is known from 200 K to 600 K, gas 8 from 300 K to 1000 K.
-/

set_option linter.unusedSimpArgs false

namespace PyroMat.Igt.Props

open PyroMat PyroMat.Gas PyroMat.Igt PyroMat.Igt.Spec PyroMat.Config.Defaults
open PyroMat.Units PyroMat.Units.Spec PyroMat.Units.Props PyroMat.Gas.Spec PyroMat.Gas.Props

theorem out2 {t : ℝ} (h : 1000 < t) : OutOfRange lib2 mA t := by
  refine Or.inr fun s hs => ?_
  have : (lib2.gas s).Thi ≤ 1000 := by by_cases h : s = 7 <;> simp [lib2, h, ig, constData]; norm_num
  exact lt_of_le_of_lt this h

theorem in2 {t : ℝ} (h1 : 200 ≤ t) (h2 : t ≤ 1000) : ¬ OutOfRange lib2 mA t := by
  rintro (h | h)
  · have := h 7 (by simp [mA])
    simp [lib2, ig, constData] at this
    linarith
  · have := h 8 (by simp [mA])
    simp [lib2, ig, constData] at this
    linarith

/-- 5000 K is refused by every method. -/
example (q : Quantity) : dynamic q envK lib2 mA [num 5000, num 100000] [] = .error .param := by
  refine C86_refused envK sysK envK_uses lib2 mA (by simp [mA]) (by simp [lib2]) _ _ (num 5000) (num 100000) "p"
    (Or.inl rfl) ⟨by simp, List.Perm.refl _, by constructor <;> decide⟩ [1] (by simp) (Or.inl rfl) (Or.inl rfl)
    (Or.inr (Or.inl rfl)) (by simp [mA, Mix.shape]) (Or.inr (Or.inr rfl)) (fun i _ => ?_) q
  rw [kelvin_id]
  exact out2 (by norm_num [entry, num])

/-- 400 K and 5000 K. -/
noncomputable def mixedT : Arr := ⟨[2], fun i => if i = [0] then 400 else 5000⟩

/-- An array of 400 K and 5000 K makes every method raise `ValueError`. -/
example (q : Quantity) : dynamic q envK lib2 mA [mixedT, num 100000] [] = .error .value := by
  refine C86_mixed_defect envK sysK envK_uses lib2 mA (by simp [mA]) (by simp [lib2]) _ _ mixedT (num 100000) "p"
    (Or.inl rfl) ⟨by simp, List.Perm.refl _, by constructor <;> decide⟩ [2] (by simp)
    (Or.inr (Or.inr (.cons (Or.inr rfl) .nil))) (Or.inl rfl)
    (Or.inr (Or.inl rfl)) (by simp [mA, Mix.shape]) (Or.inl rfl)
    ⟨[0], .cons (by norm_num) .nil, ?_⟩ ⟨[1], .cons (by norm_num) .nil, ?_⟩ q
  · rw [kelvin_id]
    exact in2 (by norm_num [entry, mixedT, src]) (by norm_num [entry, mixedT, src])
  · rw [kelvin_id]
    exact out2 (by norm_num [entry, mixedT, src])

/-- The pressures of 1 kmol/m3 at 400 K and 5000 K. -/
noncomputable def mixedP : Arr := ⟨[2], fun i => 1000 * Ru * (if i = [0] then 400 else 5000)⟩

theorem mixed_T (mw : ℝ) (i : List Nat) :
    gasTemperature envK sysK mw (mixedP.val i) 1 = if i = [0] then 400 else 5000 := by
  have e1 : size (Units.pressure envK.a) sysK.p = 1 := rfl
  have e2 : size (volume : Conv ℝ) sysK.v = 1 ^ 3 := rfl
  have e3 : msize envK.a mw sysK.m = 1 := rfl
  have hR : (Ru : ℝ) ≠ 0 := Ru_pos.ne'
  unfold gasTemperature internal mixedP
  simp only [e1, e2, e3]
  split <;> field_simp

/-- The same two states, given by pressure and density: the first is answered with 400 K and the second
with NaN. -/
example : ∃ A, iT envK lib2 mA [] [("p", mixedP), ("d", num 1)] = .ok A ∧ A.shape = [2] ∧
    A.val [0] = some 400 ∧ A.val [1] = none := by
  have e0 : entry mixedP [0] = mixedP.val [0] := by simp [entry, mixedP, src]
  have e1 : entry mixedP [1] = mixedP.val [1] := by simp [entry, mixedP, src]
  have en : ∀ i, entry (num 1) i = 1 := fun i => rfl
  obtain ⟨A, a1, a2, a3, a4⟩ := C86_density_partial envK sysK envK_uses lib2 mA (by simp [mA]) (by simp [lib2]) []
    [("p", mixedP), ("d", num 1)] mixedP (num 1)
    ⟨by simp, List.Perm.swap _ _ _, by constructor <;> decide⟩ [2] (by simp)
    (Or.inr (Or.inr (.cons (Or.inr rfl) .nil))) (Or.inl rfl)
    (Or.inr (Or.inl rfl)) (by simp [mA, Mix.shape]) (Or.inl rfl)
    (fun i hi => (meanMw_pos (lib2_weighs _) (mA_nonneg hi.length_eq)
      (by rw [(mA_amounts hi.length_eq).2.2]; norm_num)).ne')
    ⟨[0], .cons (by norm_num) .nil, by rw [e0, en, mixed_T]; exact in2 (by norm_num) (by norm_num)⟩
    .T (Or.inl rfl)
  refine ⟨A, a1, a2, ?_, ?_⟩
  · rw [a4 rfl [0] (.cons (by norm_num) .nil)
      (by rw [e0, en, mixed_T]; exact in2 (by norm_num) (by norm_num)), e0, en, mixed_T]
    rw [if_pos rfl]
    congr 1
  · exact a3 [1] (.cons (by norm_num) .nil) (by rw [e1, en, mixed_T]; exact out2 (by norm_num))

theorem mixed_V (mw : ℝ) (i : List Nat) :
    volumeTemperature envK sysK mw (mixedP.val i) 1 = if i = [0] then 400 else 5000 := by
  have e1 : size (Units.pressure envK.a) sysK.p = 1 := rfl
  have e2 : size (volume : Conv ℝ) sysK.v = 1 ^ 3 := rfl
  have e3 : msize envK.a mw sysK.m = 1 := rfl
  have hR : (Ru : ℝ) ≠ 0 := Ru_pos.ne'
  unfold volumeTemperature internal mixedP
  simp only [e1, e2, e3]
  split <;> field_simp

/-- The same two states, given by pressure and specific volume: the first is answered with 400 K and the second
with NaN. -/
example : ∃ A, iT envK lib2 mA [] [("p", mixedP), ("v", num 1)] = .ok A ∧ A.shape = [2] ∧
    A.val [0] = some 400 ∧ A.val [1] = none := by
  have e0 : entry mixedP [0] = mixedP.val [0] := by simp [entry, mixedP, src]
  have e1 : entry mixedP [1] = mixedP.val [1] := by simp [entry, mixedP, src]
  have en : ∀ i, entry (num 1) i = 1 := fun i => rfl
  obtain ⟨A, a1, a2, a3, a4⟩ := C86_volume_partial envK sysK envK_uses lib2 mA (by simp [mA]) (by simp [lib2]) []
    [("p", mixedP), ("v", num 1)] mixedP (num 1)
    ⟨by simp, List.Perm.swap _ _ _, by constructor <;> decide⟩ [2] (by simp)
    (Or.inr (Or.inr (.cons (Or.inr rfl) .nil))) (Or.inl rfl)
    (Or.inr (Or.inl rfl)) (by simp [mA, Mix.shape]) (Or.inl rfl)
    (fun i hi => (meanMw_pos (lib2_weighs _) (mA_nonneg hi.length_eq)
      (by rw [(mA_amounts hi.length_eq).2.2]; norm_num)).ne')
    ⟨[0], .cons (by norm_num) .nil, by rw [e0, en, mixed_V]; exact in2 (by norm_num) (by norm_num)⟩
    .T (Or.inl rfl)
  refine ⟨A, a1, a2, ?_, ?_⟩
  · rw [a4 rfl [0] (.cons (by norm_num) .nil)
      (by rw [e0, en, mixed_V]; exact in2 (by norm_num) (by norm_num)), e0, en, mixed_V]
    rw [if_pos rfl]
    congr 1
  · exact a3 [1] (.cons (by norm_num) .nil) (by rw [e1, en, mixed_V]; exact out2 (by norm_num))

/-- At 800 K, within the limits 200 K to 1000 K of the mixture, the enthalpy is NaN, as gas 7 is known
up to 600 K only. -/
example : ∃ A, iH envK lib2 mA [num 800, num 100000] [] = .ok A ∧ A.val [0] = none := by
  obtain ⟨A, a1, -, a2⟩ := C86_gap_defect envK sysK envK_uses lib2 mA (by simp [mA]) (by simp [lib2]) [num 800, num 100000] [] (num 800)
    (num 100000) "p" (Or.inl rfl) ⟨by simp, List.Perm.refl _, by constructor <;> decide⟩ [1] (by simp) (by simp)
    (Or.inl rfl) (Or.inl rfl) (Or.inr (Or.inl rfl)) (by simp [mA, Mix.shape]) (Or.inr (Or.inr rfl))
    (fun i _ => by rw [kelvin_id]; exact in2 (by norm_num [entry, num]) (by norm_num [entry, num])) [0]
    mA_within 7 (by simp [mA]) constData constData_wf (Or.inl (by simp [lib2]))
    (Or.inr (by rw [kelvin_id]; norm_num [entry, num, lib2, ig, constData])) .h (Or.inl rfl)
  exact ⟨A, a1, a2⟩

end PyroMat.Igt.Props
