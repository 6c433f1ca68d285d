import Verif.Gas.Examples
import Verif.Shipped.PropsSteady

/-!
# The hypotheses of C107 are met
-/

set_option linter.unusedSimpArgs false

namespace PyroMat.Shipped.Props

open PyroMat PyroMat.Units PyroMat.Units.Spec PyroMat.Units.Props PyroMat.Gas PyroMat.Gas.Spec
  PyroMat.Gas.Props PyroMat.Shipped PyroMat.Shipped.Spec PyroMat.Shipped.Data

/-- Nitrogen is among the gases of moderate heat capacity, with no limit within 50 K of 600 to 700 K. -/
theorem nitrogen : ∃ f ∈ shipped, f.id = "ig.N2" ∧ Moderate kmolEnv f .cp ∧ f.gas.Tlo ≤ 600 ∧ 700 ≤ f.gas.Thi ∧
    ∀ t : ℝ, 600 ≤ t → t ≤ 700 → ∀ L ∈ f.Tlim, 50 ≤ |t - L.val| := by
  have h : (((tables.map fun t => steady 0 t.1 t.2).flatten).any fun f => f.id == "ig.N2" &&
      f.Tlim.all (fun t => Nat.ble (mK t) 550000 || Nat.ble 750000 (mK t)) &&
      Nat.ble (mK (f.Tlim.headD ⟨0, 0⟩)) 600000 && Nat.ble 700000 (mK (f.Tlim.getLastD ⟨0, 0⟩))) = true := by decide +kernel
  obtain ⟨f, hf, he⟩ := List.any_eq_true.mp h
  simp only [Bool.and_eq_true, beq_iff_eq, Nat.ble_eq, List.all_eq_true, Bool.or_eq_true] at he
  obtain ⟨h1, h2⟩ := steady_all 0
  obtain ⟨b, hb, hk⟩ := (h2 f hf).2
  have hok := walk_ok _ _ _ _ _ (check_walk hb)
  have hne : f.Tlim ≠ [] := by
    intro hc
    have := walk_length _ _ _ _ _ (check_walk hb)
    rw [hc] at this; simp at this
  have g1 : f.gas.Tlo = (f.Tlim.headD ⟨0, 0⟩).val := by
    rw [gas_Tlo]
    cases hl : f.Tlim with
    | nil => exact absurd hl hne
    | cons t ts => simp [File.data, hl]
  have g2 : f.gas.Thi = (f.Tlim.getLastD ⟨0, 0⟩).val := by
    rw [gas_Thi]
    simp only [File.data, List.getLastD_eq_getLast?, List.getLast?_map]
    cases hl : f.Tlim.getLast? with
    | none => rw [List.getLast?_eq_none_iff] at hl; exact absurd hl hne
    | some t => simp
  have m1 : f.Tlim.headD ⟨0, 0⟩ ∈ f.Tlim := by
    cases hl : f.Tlim with
    | nil => exact absurd hl hne
    | cons t ts => simp
  have m2 : f.Tlim.getLastD ⟨0, 0⟩ ∈ f.Tlim := by
    rw [List.getLastD_eq_getLast?, List.getLast?_eq_some_getLast hne, Option.getD_some]
    exact List.getLast_mem hne
  refine ⟨f, h1.subset hf, he.1.1.1, ?_, ?_, ?_, ?_⟩
  · exact moderate hb kmolEnv_uses .cp 0 0 (by simp) hk
      (by intro T p d; simp only [value, Gas.cpI, Option.bind_some, sub_zero, Option.map_id'])
  · rw [g1]
    have := (mK_val (hok _ m1)).1
    have k : ((mK (f.Tlim.headD ⟨0, 0⟩) : ℕ) : ℝ) ≤ 600000 := by exact_mod_cast he.1.2
    linarith
  · rw [g2]
    have := (mK_val (hok _ m2)).1
    have k : (700000 : ℝ) ≤ (mK (f.Tlim.getLastD ⟨0, 0⟩) : ℕ) := by exact_mod_cast he.2
    linarith
  · intro t t1 t2 L hL
    have := (mK_val (hok _ hL)).1
    rcases he.1.1.2 L hL with k | k
    · have k' : ((mK L : ℕ) : ℝ) ≤ 550000 := by exact_mod_cast k
      rw [abs_of_nonneg (by linarith)]; linarith
    · have k' : (750000 : ℝ) ≤ (mK L : ℕ) := by exact_mod_cast k
      rw [abs_of_nonpos (by linarith)]; linarith

/-- The enthalpy of nitrogen at 600 K or at 700 K meets the hypotheses of C107, and is inverted. -/
example : ∃ f ∈ shipped, f.id = "ig.N2" ∧ ∃ x t0 t R, Taken kmolEnv kmolSys f .h x t0 ∧ mR kmolEnv f.gas = .ok R ∧
    mT kmolEnv f.gas [] [("h", .arr [x]), ("p", .scalar 1e5)] = .ok [some t] ∧ 2.33 * R * |t - t0| ≤ 1.34e-6 * |x| := by
  obtain ⟨f, hf, hid, hM, r1, r2, hfar⟩ := nitrogen
  obtain ⟨b, hb⟩ := shipped_checked f hf
  have hmw := gas_mw_pos hb
  have hRv := Shipped.Ru_val
  have hRb : f.id ≠ "ig.Rb" := by rw [hid]; decide
  obtain ⟨hx, hy, cx, cy, e1, e2, e3, -⟩ := h_growth hb 600 700 r1 (by norm_num) r2
  have n1 : (233 : ℝ) ≤ b.1 := by exact_mod_cast (check_nums hb).1
  have hj : (jumps f.cls f.Tlim f.C : ℝ) ≤ 30 := by
    have := (check_nums hb).2.2.2
    rw [if_neg hRb] at this
    exact_mod_cast this
  have hint : ∀ z, internal kmolEnv.a kmolSys f.gas.mw .energy z = z := by
    intro z
    have e1 : size energy kmolSys.e = 1000 := rfl
    have e3 : msize kmolEnv.a f.gas.mw kmolSys.m = 1 := by
      have : matterScale (SetupArgs.default : SetupArgs ℝ) f.gas.mw "kmol" = some 1 := rfl
      show ((matterScale (SetupArgs.default : SetupArgs ℝ) f.gas.mw "kmol").getD 1) = 1
      rw [this]; rfl
    simp only [internal]
    rw [e1, e3]
    norm_num
  have hin : ∀ z, inUnits kmolEnv.a kmolSys f.gas.mw .energy z = z := by
    intro z
    have := inUnits_internal kmolEnv_uses hmw.ne' .energy z
    rwa [hint] at this
  have hK : ∀ x : ℝ, toKelvin kmolSys.T.name x = x := fun x => rfl
  have val : ∀ t y c, f.gas.Tlo ≤ t → t ≤ f.gas.Thi → f.gas.h t = some (y, c) →
      method .h kmolEnv f.gas [.scalar t, .scalar 1e5] [] = .ok [some y] := by
    intro t y c t1 t2 hh
    rw [method_Tp kmolEnv_uses hmw.ne' t 1e5 (by rw [hK]; exact t1) (by rw [hK]; exact t2) .h, hK]
    simp only [value, Gas.hI, Option.bind_some, hh, Option.map_some, hin]
  have grow : 0.002 ≤ hy - hx := by
    have : 2.33 * Ru ≤ (b.1 : ℝ) / 100 * Ru := mul_le_mul_of_nonneg_right (by norm_num; linarith) Shipped.Ru_pos.le
    have := mul_le_mul_of_nonneg_right this (show (0 : ℝ) ≤ 700 - 600 by norm_num)
    rw [hRv] at this e3
    norm_num at this e3 ⊢
    linarith
  have some_taken : ∃ x t0, Taken kmolEnv kmolSys f .h x t0 := by
    by_cases hc : 0.001 ≤ |hx|
    · exact ⟨hx, 600, ⟨_, val 600 hx cx r1 (by linarith) e1⟩, fun L hL => hfar 600 (by norm_num) (by norm_num) L hL, by rw [hin]; exact hc⟩
    · refine ⟨hy, 700, ⟨_, val 700 hy cy (by linarith) r2 e2⟩, fun L hL => hfar 700 (by norm_num) (by norm_num) L hL, ?_⟩
      rw [hin]
      have := (abs_lt.mp (not_le.mp hc)).1
      refine le_trans ?_ (le_abs_self _)
      norm_num at this grow ⊢
      linarith
  obtain ⟨x, t0, ht⟩ := some_taken
  have hsup : Supplies [] [("h", .arr [x]), ("p", .scalar 1e5)] "h" (.arr [x]) "p" (.scalar 1e5) :=
    ⟨by simp, by simp [supplied], ⟨by simp, by simp, by simp, by simp, by simp⟩⟩
  obtain ⟨Ts, R, k1, k2, -, k4, -, k6⟩ := C107_from_enthalpy_partial f hf hRb kmolEnv kmolSys kmolEnv_uses hM _ _ _ _ _ hsup
    (by intro y hy; simp only [Val.elems, List.mem_singleton] at hy; rw [hy]; exact ⟨t0, ht⟩)
    (by simp [Val.elems]) (by simp [Val.elems]) (by simp [Val.elems])
  simp only [Val.elems, List.length_singleton, max_self] at k2
  obtain ⟨x', t, hx', hTt, hacc⟩ := k6 0 (by omega)
  simp only [Val.elems, nth, Option.some.injEq] at hx'
  subst hx'
  obtain ⟨v, rfl⟩ := List.length_eq_one_iff.mp k2
  simp only [List.getElem?_cons_zero, Option.some.injEq] at hTt
  subst hTt
  exact ⟨f, hf, hid, x, t0, t, R, ht, k4, k1, hacc t0 ht⟩

end PyroMat.Shipped.Props
