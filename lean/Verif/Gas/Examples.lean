import Verif.Gas.PropsMore

/-!
# The hypotheses of the ideal-gas theorems are met

A gas of constant heat capacity, and nitrogen from the Shomate data, in a concrete configuration.
-/

set_option linter.unusedSimpArgs false

namespace PyroMat.Gas.Props

open PyroMat PyroMat.Units PyroMat.Units.Spec PyroMat.Units.Props PyroMat.Gas PyroMat.Gas.Spec
open PyroMat.Config.Defaults

/-- Within the limits of the constant gas there is one row of coefficients. -/
theorem const_piece (T : ℝ) (h1 : 200 ≤ T) (h2 : T ≤ 600) (α : Type) (f : Coef → ℝ → α) :
    piecewise constData.Tlim constData.C f T = some (f ⟨30, 0, 0, 0, 0, 0, 200⟩ T) := by
  obtain ⟨i, lo, hi, c, -, hb, -, -, hc, he⟩ := (C33_evaluation constData constData_wf T).1 h1 h2
  have : c = ⟨30, 0, 0, 0, 0, 0, 200⟩ := by
    match i, hb, hc with
    | 0, _, hc => simpa [constData] using hc.symm
    | n + 1, hb, _ => simp [constData] at hb
  rw [he α f, this]

/-- Enthalpy of the constant gas: invertible, with least and greatest slope 30 and no jumps. -/
theorem const_regular_h : Regular (ig constData).h (ig constData).Tlo (ig constData).Thi 30 30 0 where
  m_pos := by norm_num
  M_nonneg := by norm_num
  J_nonneg := le_refl _
  slope := by
    intro x h1 h2
    refine ⟨_, _, const_piece x h1 h2 _ (fun c T => (Sho.h c T, Sho.hT c T)), ?_⟩
    norm_num [Sho.hT]
  lipschitz := by
    intro x x' y y' h1 h2 h3 h4 hy hy'
    have e1 := const_piece x h1 h2 _ (fun c T => (Sho.h c T, Sho.hT c T))
    have e2 := const_piece x' h3 h4 _ (fun c T => (Sho.h c T, Sho.hT c T))
    simp only [ig, e1, e2, Option.map_some, Option.some.injEq] at hy hy'
    rw [← hy, ← hy', add_zero]
    have : Sho.h ⟨30, 0, 0, 0, 0, 0, 200⟩ x - Sho.h ⟨30, 0, 0, 0, 0, 0, 200⟩ x' = 30 * (x - x') := by
      simp only [Sho.h]; ring
    rw [this, abs_mul]
    norm_num

/-- Internal energy of the constant gas. -/
theorem const_regular_e : Regular (ig constData).e (ig constData).Tlo (ig constData).Thi 20 30 0 where
  m_pos := by norm_num
  M_nonneg := by norm_num
  J_nonneg := le_refl _
  slope := by
    intro x h1 h2
    refine ⟨_, _, by
      unfold Gas.e
      rw [show (ig constData).h x = _ from const_piece x h1 h2 _ (fun c T => (Sho.h c T, Sho.hT c T))]
      rfl, ?_⟩
    norm_num [Sho.hT, Ru, const_Ru, const_k, const_Na]
  lipschitz := by
    intro x x' y y' h1 h2 h3 h4 hy hy'
    unfold Gas.e at hy hy'
    rw [show (ig constData).h x = _ from const_piece x h1 h2 _ (fun c T => (Sho.h c T, Sho.hT c T))] at hy
    rw [show (ig constData).h x' = _ from const_piece x' h3 h4 _ (fun c T => (Sho.h c T, Sho.hT c T))] at hy'
    simp only [Option.map_some, Option.some.injEq] at hy hy'
    rw [← hy, ← hy', add_zero]
    have : Sho.h ⟨30, 0, 0, 0, 0, 0, 200⟩ x - Ru * x - (Sho.h ⟨30, 0, 0, 0, 0, 0, 200⟩ x' - Ru * x')
        = (30 - Ru) * (x - x') := by
      simp only [Sho.h]; ring
    rw [this, abs_mul]
    refine mul_le_mul_of_nonneg_right ?_ (abs_nonneg _)
    rw [abs_le]
    constructor <;> norm_num [Ru, const_Ru, const_k, const_Na]

theorem log_lipschitz {a b : ℝ} (ha : 200 ≤ a) (hb : 200 ≤ b) :
    |Real.log a - Real.log b| ≤ 1 / 200 * |a - b| := by
  have key : ∀ {a b : ℝ}, 200 ≤ a → a ≤ b → Real.log b - Real.log a ≤ 1 / 200 * (b - a) := by
    intro a b ha hab
    have ha0 : 0 < a := by linarith
    have hb0 : 0 < b := by linarith
    rw [← Real.log_div hb0.ne' ha0.ne']
    refine (Real.log_le_sub_one_of_pos (div_pos hb0 ha0)).trans ?_
    have : b / a - 1 = (b - a) / a := by field_simp
    rw [this, div_le_iff₀ ha0]
    nlinarith
  rcases le_total a b with h | h
  · rw [abs_sub_comm, abs_of_nonneg (sub_nonneg.mpr (Real.log_le_log (by linarith) h)),
      abs_sub_comm, abs_of_nonneg (sub_nonneg.mpr h)]
    exact key ha h
  · rw [abs_of_nonneg (sub_nonneg.mpr (Real.log_le_log (by linarith) h)),
      abs_of_nonneg (sub_nonneg.mpr h)]
    exact key hb h

/-- Entropy of the constant gas. -/
theorem const_regular_s : Regular (ig constData).s (ig constData).Tlo (ig constData).Thi (30 / 600) (30 / 200) 0 where
  m_pos := by norm_num
  M_nonneg := by norm_num
  J_nonneg := le_refl _
  slope := by
    intro x h1 h2
    refine ⟨_, _, const_piece x h1 h2 _ (fun c T => (Sho.s c T, Sho.sT c T)), ?_⟩
    have h1' : (200:ℝ) ≤ x := h1
    have h2' : x ≤ (600:ℝ) := h2
    have e : Sho.sT ⟨30, 0, 0, 0, 0, 0, 200⟩ x = 30 / x := by
      have : x ≠ 0 := by linarith
      simp only [Sho.sT]; field_simp; ring
    rw [e, abs_of_pos (div_pos (by norm_num) (by linarith))]
    exact div_le_div_of_nonneg_left (by norm_num) (by linarith) h2'
  lipschitz := by
    intro x x' y y' h1 h2 h3 h4 hy hy'
    rw [show (ig constData).s x = _ from const_piece x h1 h2 _ (fun c T => (Sho.s c T, Sho.sT c T))] at hy
    rw [show (ig constData).s x' = _ from const_piece x' h3 h4 _ (fun c T => (Sho.s c T, Sho.sT c T))] at hy'
    simp only [Option.map_some, Option.some.injEq] at hy hy'
    have h1' : (200:ℝ) ≤ x := h1
    have h3' : (200:ℝ) ≤ x' := h3
    rw [← hy, ← hy', add_zero]
    have : Sho.s ⟨30, 0, 0, 0, 0, 0, 200⟩ x - Sho.s ⟨30, 0, 0, 0, 0, 0, 200⟩ x' = 30 * (Real.log x - Real.log x') := by
      simp only [Sho.s]
      rw [Real.log_div (by linarith) (by norm_num), Real.log_div (by linarith) (by norm_num)]
      ring
    rw [this, abs_mul, abs_of_pos (by norm_num : (0:ℝ) < 30)]
    have := log_lipschitz h1' h3'
    linarith

/-- A call with two entropies and one pressure, and with several temperatures of which one is out of
range, are allowed calls. -/
example : Supplies [] [("s", .arr [180, 190]), ("p", .scalar 1e5)] "s" (.arr [180, 190]) "p" (.scalar 1e5) :=
  ⟨by simp, by simp [supplied], ⟨by simp, by simp, by simp, by simp, by simp⟩⟩

example : Supplies [.arr [100, 300, 400]] [("d", .scalar 0.04)] "T" (.arr [100, 300, 400]) "d" (.scalar 0.04) :=
  ⟨by simp, by simp [supplied], ⟨by simp, by simp, by simp, by simp, by simp⟩⟩

/-- The inversion of the enthalpy of the constant gas at the middle of its range converges at
once and prints no warning: C30 for a given enthalpy applies to this call. -/
theorem example_enthalpy : ∃ st, argparse kmolEnv (ig constData) [] [("h", .scalar 12000), ("p", .scalar 1e5)] = .ok st ∧
    st.T = [some 400] ∧ st.warned = false := by
  have hsup : Supplies [] [("h", .scalar 12000), ("p", .scalar 1e5)] "h" (.scalar 12000) "p" (.scalar 1e5) :=
    ⟨by simp, by simp [supplied], ⟨by simp, by simp, by simp, by simp, by simp⟩⟩
  have hmw : (ig constData).mw ≠ 0 := by norm_num [ig, constData]
  rw [argparse_pair kmolEnv_uses hmw hsup]
  have hh : internal kmolEnv.a kmolSys (ig constData).mw .energy 12000 = 12000 := by
    have e1 : size energy kmolSys.e = 1000 := rfl
    have e3 : msize kmolEnv.a (ig constData).mw kmolSys.m = 1 := by
      have : matterScale (SetupArgs.default : SetupArgs ℝ) (ig constData).mw "kmol" = some 1 := rfl
      show ((matterScale (SetupArgs.default : SetupArgs ℝ) (ig constData).mw "kmol").getD 1) = 1
      rw [this]; rfl
    simp only [internal]
    rw [e1, e3]
    norm_num
  have e1 : stdOf kmolEnv kmolSys (ig constData).mw [("h", .scalar 12000), ("p", .scalar 1e5)]
      = { h := some ⟨[internal kmolEnv.a kmolSys (ig constData).mw .energy 12000], false⟩, p := some ⟨[internal kmolEnv.a kmolSys (ig constData).mw .pressure 1e5], false⟩ } := by
    simp only [stdOf, stdArg, List.lookup_cons, List.lookup_nil]
    rfl
  unfold pre
  rw [e1, hh]
  have hf : (ig constData).h 400 = some (12000, 30) := by
    refine (const_piece 400 (by norm_num) (by norm_num) _ (fun c T => (Sho.h c T, Sho.hT c T))).trans ?_
    norm_num [Sho.h, Sho.hT]
  have hmid : (0.5 : ℝ) * ((ig constData).Tlo + (ig constData).Thi) = 400 := by
    norm_num [ig, constData]
  have hit : iter1 [((ig constData).h, 12000)] 400 (ig constData).Tlo (ig constData).Thi = .ok ([some 400], false) := by
    have hlo : ¬ ((400:ℝ) < (ig constData).Tlo ∨ (400:ℝ) > (ig constData).Thi) := by norm_num [ig, constData]
    have hs : stepEl 1e-6 (ig constData).Tlo (ig constData).Thi 20 ⟨(ig constData).h, 12000, some 400, true⟩
        = .ok ⟨(ig constData).h, 12000, some 400, false⟩ := by
      unfold stepEl
      simp only [if_true, hf]
      norm_num
      unfold halve
      rw [if_neg hlo, exOk]
    unfold iter1
    simp only [List.map_cons, List.map_nil]
    unfold iterLoop
    simp only [List.any_cons, List.any_nil, Bool.or_false, if_true, List.mapM_cons, List.mapM_nil, hs, exOk]
    unfold iterLoop
    simp [exOk, pure, Except.pure]
  have e2 : ∀ p, tempOf (ig constData) { h := some ⟨[12000], false⟩, p := some ⟨[p], false⟩ }
      = .ok (some ⟨[some 400], false, false⟩) := by
    intro p
    unfold tempOf
    simp only [List.map_cons, List.map_nil, hmid, hit, exOk]
  rw [e2, exOk]
  unfold solve
  simp only [densityOf, broadcast, List.length_singleton, if_true, exOk]
  rw [range_scalar (v := some 400) (by simp)]
  have o : oob (ig constData) (some 400) = false := by norm_num [oob, ig, constData]
  rw [o]
  exact ⟨_, rfl, rfl, rfl⟩

/-- C30 for a given enthalpy, instantiated: the enthalpy returned is within 2e-6 of 12000. -/
example : ∃ hs y, mH kmolEnv (ig constData) [] [("h", .scalar 12000), ("p", .scalar 1e5)] = .ok hs ∧
    hs[0]? = some (some y) ∧
    |y - 12000| ≤ (1 + 30 / 30) * 1e-6 * |(12000:ℝ)| + |inUnits kmolEnv.a kmolSys (ig constData).mw .energy 0| := by
  have hsup : Supplies [] [("h", .scalar 12000), ("p", .scalar 1e5)] "h" (.scalar 12000) "p" (.scalar 1e5) :=
    ⟨by simp, by simp [supplied], ⟨by simp, by simp, by simp, by simp, by simp⟩⟩
  have hmw : (ig constData).mw ≠ 0 := by norm_num [ig, constData]
  obtain ⟨st, hst, hT, hw⟩ := example_enthalpy
  obtain ⟨hs, h1, h2, -⟩ := method_rows kmolEnv_uses hmw (by simp) hst (good_of_pair kmolEnv_uses hmw hsup hst) .h
  have hq : Silent kmolEnv (ig constData) [] [("h", .scalar 12000), ("p", .scalar 1e5)] := by
    intro st' h'
    rw [hst] at h'; cases h'; exact hw
  obtain ⟨x, y, hx, hy, hb⟩ := C30_given_enthalpy kmolEnv kmolSys kmolEnv_uses (ig constData) hmw
    (by norm_num [ig, constData]) 30 30 0 const_regular_h [] _ "p" _ _ hsup hq hs h1 0 (by rw [h2, hT]; simp)
  have : x = 12000 := by simpa [nth, Val.elems] using hx.symm
  subst this
  exact ⟨hs, y, h1, hy, hb⟩

/-- C31 and the pressure relations apply to nitrogen at 300 K in the standard configuration. -/
example : Coherent (ig exampleData) ∧ Coherent (ig2 exampleData) ∧ Bounded (ig exampleData) ∧
    (ig exampleData).mw ≠ 0 ∧ 0 < (ig exampleData).pref ∧
    (ig exampleData).Tlo ≤ toKelvin exampleSys.T.name (300:ℝ) ∧
    toKelvin exampleSys.T.name (300:ℝ) ≤ (ig exampleData).Thi := by
  refine ⟨coherent_ig _ exampleData_wf, coherent_ig2 _ exampleData_wf, bounded_ig _ exampleData_wf, ?_, ?_, ?_, ?_⟩
  · norm_num [ig, exampleData]
  · norm_num [ig, exampleData]
  · show (ig exampleData).Tlo ≤ (300:ℝ)
    norm_num [ig, exampleData]
  · show (300:ℝ) ≤ (ig exampleData).Thi
    norm_num [ig, exampleData]

end PyroMat.Gas.Props
