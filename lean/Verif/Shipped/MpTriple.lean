import Mathlib.Analysis.Complex.ExponentialBounds
import Mathlib.Analysis.SpecialFunctions.Exponential
import Verif.Shipped.MpGood

/-!
# Triple and critical pressures of the shipped multi-phase substances
-/

set_option linter.unusedSimpArgs false

namespace PyroMat.Shipped

open PyroMat.Gas PyroMat.Mp PyroMat.Mp.Spec PyroMat.Mp.Props PyroMat.Shipped.Data

/-- A sum of powers at a power `b^n`, if all exponents times `n` are whole. -/
def sumP (n : Nat) (ts : List (Int × Int)) (b : ℚ) : ℚ :=
  (ts.map fun t => (t.2 : ℚ) / 10 ^ 20 * b ^ (t.1.toNat * n / 10 ^ 20)).sum

theorem sumT_pow {n : Nat} {ts : List (Int × Int)} {b : ℚ} (hb : 0 ≤ b)
    (h : ts.all (fun t => decide (0 ≤ t.1 ∧ (t.1.toNat * n) % 10 ^ 20 = 0)) = true) :
    sumT ts ((b : ℝ) ^ n) = (sumP n ts b : ℚ) := by
  unfold sumT sumP
  simp only [List.all_eq_true, decide_eq_true_eq] at h
  induction ts with
  | nil => simp
  | cons t ts ih =>
    simp only [List.map_cons, List.sum_cons]
    rw [ih fun s hs => h s (by simp [hs])]
    push_cast
    congr 1
    obtain ⟨h0, h1⟩ := h t (by simp)
    have hk : t.1.toNat * n = t.1.toNat * n / 10 ^ 20 * 10 ^ 20 := by omega
    set k := t.1.toNat * n / 10 ^ 20
    have e : (n : ℝ) * xp t = k := by
      have h2 : (t.1 : ℝ) = (t.1.toNat : ℝ) := by
        rw [← Int.cast_natCast, Int.toNat_of_nonneg h0]
      have h3 : (t.1.toNat : ℝ) * n = k * 10 ^ 20 := by exact_mod_cast hk
      unfold xp
      rw [h2, mul_div_assoc', mul_comm, h3]
      field_simp
    have hb' : (0 : ℝ) ≤ (b : ℝ) := by exact_mod_cast hb
    rw [← Real.rpow_natCast, ← Real.rpow_mul hb', e, Real.rpow_natCast]
    rfl

/-- A number below `exp`. -/
def expLow (k : Nat) (r : ℚ) : ℚ := (27182818283 / 10000000000) ^ k * (1 + r + r ^ 2 / 2)

theorem expLow_le (k : Nat) {r : ℚ} (hr : 0 ≤ r) : (expLow k r : ℝ) ≤ Real.exp (k + r) := by
  have hr' : (0 : ℝ) ≤ r := by exact_mod_cast hr
  rw [Real.exp_add, ← Real.exp_one_pow]
  unfold expLow
  push_cast
  have h1 := Real.exp_one_gt_d9
  have h2 := Real.quadratic_le_exp_of_nonneg hr'
  refine mul_le_mul ?_ h2 (by positivity) (by positivity)
  refine pow_le_pow_left₀ (by norm_num) ?_ k
  refine le_trans ?_ h1.le
  norm_num

/-- A point of the saturation curve at or above 0.99 of the triple temperature whose pressure is at most
the triple pressure: `n`, `b` with `T = Tc (1 - b^n)`, and `k`, `r` with `k + r` a lower bound of
`-log(ps/pc)`. -/
def lowPoint (f : MpFile) (n : Nat) (b : ℚ) (k : Nat) (r : ℚ) : Bool :=
  decide (0 ≤ b) && decide (0 ≤ r) && decide (b ^ n < 1) && decide (f.pt.e ≤ 20) && decide (0 < sc20 f.pt) &&
    (flat f.ps.coef).all (fun t => decide (0 ≤ t.1 ∧ (t.1.toNat * n) % 10 ^ 20 = 0)) &&
    decide (sumP n (flat f.ps.coef) b ≤ -(k + r) * (1 - b ^ n)) &&
    decide ((sc20 f.ps.scale : ℚ) ≤ sc20 f.pt * expLow k r) &&
    decide ((sc20 f.Tt : ℚ) * 99 ≤ sc20 f.Tc * (1 - b ^ n) * 100)

theorem lowPoint_spec {f : MpFile} (hf : f ∈ shippedMp) {n : Nat} {b : ℚ} {k : Nat} {r : ℚ}
    (h : lowPoint f n b k r = true) :
    ∃ T, f.Tt.val * 0.99 ≤ T ∧ T ≤ f.Tc.val ∧ f.sub.ps T ≤ f.pt.val ∧ 0 < f.pt.val := by
  simp only [lowPoint, Bool.and_eq_true, decide_eq_true_eq] at h
  obtain ⟨⟨⟨⟨⟨⟨⟨⟨h1, h2⟩, h3⟩, h4⟩, h5⟩, h6⟩, h7⟩, h8⟩, h9⟩ := h
  have F := facts hf
  have hc : 0 < f.Tc.val := F.Tt.trans F.Tc
  have h1' : (0 : ℝ) ≤ b := by exact_mod_cast h1
  have h3' : (b : ℝ) ^ n < 1 := by exact_mod_cast h3
  have hb0 : 0 ≤ (b : ℝ) ^ n := by positivity
  have hle : f.Tc.val * (1 - (b : ℝ) ^ n) ≤ f.Tc.val := by nlinarith
  refine ⟨f.Tc.val * (1 - (b : ℝ) ^ n), ?_, hle, ?_, ?_⟩
  · rw [F.t20.1, F.t20.2.1]
    have h9' : (sc20 f.Tt : ℝ) * 99 ≤ sc20 f.Tc * (1 - (b : ℝ) ^ n) * 100 := by exact_mod_cast h9
    rw [div_mul_eq_mul_div, div_mul_eq_mul_div]
    refine div_le_div_of_nonneg_right ?_ (by positivity)
    linarith
  · rw [ps_eq hf hle, mul_div_cancel_left₀ _ hc.ne', sub_sub_cancel]
    dsimp only
    rw [sumT_pow h1 h6, F.ps.scale20, sc20_val h4]
    have h7' : (sumP n (flat f.ps.coef) b : ℝ) ≤ -(k + r) * (1 - (b : ℝ) ^ n) := by exact_mod_cast h7
    have h8' : (sc20 f.ps.scale : ℝ) ≤ sc20 f.pt * (expLow k r : ℝ) := by exact_mod_cast h8
    have h5' : (0 : ℝ) < sc20 f.pt := by exact_mod_cast h5
    have e : (sumP n (flat f.ps.coef) b : ℝ) / (1 - (b : ℝ) ^ n) ≤ -(k + r) := by
      rw [div_le_iff₀ (by linarith)]; exact h7'
    have he := Real.exp_le_exp.mpr e
    rw [Real.exp_neg] at he
    have hl := expLow_le k h2
    have hp := Real.exp_pos ((k : ℝ) + r)
    have hs : (0 : ℝ) < sc20 f.ps.scale := by
      have := F.ps.scale
      rw [F.ps.scale20] at this
      exact (div_pos_iff_of_pos_right (by positivity)).mp this
    rw [div_mul_eq_mul_div]
    refine div_le_div_of_nonneg_right ?_ (by positivity)
    calc (sc20 f.ps.scale : ℝ) * Real.exp ((sumP n (flat f.ps.coef) b : ℝ) / (1 - (b : ℝ) ^ n))
        ≤ sc20 f.ps.scale * (Real.exp ((k : ℝ) + r))⁻¹ := mul_le_mul_of_nonneg_left he hs.le
      _ ≤ sc20 f.pt := by
        rw [mul_inv_le_iff₀ hp]
        nlinarith
  · rw [sc20_val h4]
    exact div_pos (by exact_mod_cast h5) (by positivity)

theorem lowEnd (f : MpFile) (hf : f ∈ shippedMp) :
    ∃ T, f.Tt.val * 0.99 ≤ T ∧ T ≤ f.Tc.val ∧ f.sub.ps T ≤ f.pt.val ∧ 0 < f.pt.val := by
  have hm := hf
  simp only [shippedMp, List.mem_cons, List.not_mem_nil, or_false] at hf
  rcases hf with rfl | rfl | rfl | rfl | rfl | rfl | rfl
  · exact lowPoint_spec (n := 2) (b := (7414 / 10000)) (k := 9) (r := (32 / 100)) hm (by decide +kernel)
  · exact lowPoint_spec (n := 10) (b := (94396 / 100000)) (k := 9) (r := (78 / 100)) hm (by decide +kernel)
  · exact lowPoint_spec (n := 2) (b := (7266 / 10000)) (k := 6) (r := (2 / 100)) hm (by decide +kernel)
  · exact lowPoint_spec (n := 2) (b := (5418 / 10000)) (k := 2) (r := (69 / 100)) hm (by decide +kernel)
  · exact lowPoint_spec (n := 2) (b := (7624 / 10000)) (k := 10) (r := (57 / 100)) hm (by decide +kernel)
  · exact lowPoint_spec (n := 2) (b := (7096 / 10000)) (k := 5) (r := (65 / 100)) hm (by decide +kernel)
  · exact lowPoint_spec (n := 2) (b := (8069 / 10000)) (k := 10) (r := (52 / 100)) hm (by decide +kernel)

theorem ps_critical {f : MpFile} (hf : f ∈ shippedMp) : f.sub.ps f.Tc.val = f.ps.scale.val := by
  have F := facts hf
  have hc : 0 < f.Tc.val := F.Tt.trans F.Tc
  rw [ps_eq hf le_rfl, div_self hc.ne', sub_self]
  dsimp only
  rw [sumT_zero F.ps0]
  simp

theorem sumT_at_zero (gs : List G1) (h : (flat gs).all (fun t => decide (0 ≤ t.1)) = true) :
    sumT (flat gs) 0 = const gs / 10 ^ 20 := by
  unfold const
  generalize flat gs = ts at *
  simp only [List.all_eq_true, decide_eq_true_eq] at h
  induction ts with
  | nil => simp [sumT]
  | cons t ts ih =>
    have ih := ih fun s hs => h s (by simp [hs])
    by_cases hc : t.1 = 0
    · rw [List.filter_cons_of_pos (by simp [hc])]
      simp only [sumT, List.map_cons, List.sum_cons] at ih ⊢
      rw [ih]
      simp only [cf, xp, hc]
      push_cast
      simp only [zero_div, Real.rpow_zero]
      ring
    · rw [List.filter_cons_of_neg (by simp [hc])]
      simp only [sumT, List.map_cons, List.sum_cons] at ih ⊢
      rw [ih]
      have : xp t ≠ 0 := by
        unfold xp
        have h0 := h t (by simp)
        have : (0 : ℝ) < t.1 := by exact_mod_cast lt_of_le_of_ne h0 (Ne.symm hc)
        positivity
      rw [Real.zero_rpow this]
      ring

theorem dsl_critical {f : MpFile} (hf : f ∈ shippedMp) : 0 < f.sub.dsl f.Tc.val := by
  have F := facts hf
  have hc : 0 < f.Tc.val := F.Tt.trans F.Tc
  have e : f.sub.dsl f.Tc.val = _ := satVal_eq F.dsl f.Tc.val
  have hx : 1 - f.Tc.val / f.Tc.val = 0 := by rw [div_self hc.ne', sub_self]
  rw [e]
  rcases F.dslfn with ⟨e1, e2, e3⟩ | ⟨e1, e3⟩
  · rw [e1]
    exact mul_pos F.dsl.scale (Real.exp_pos _)
  · have hpos : (0 : ℝ) < f.dsl.scale.val * (const f.dsl.coef / 10 ^ 20) := F.dsv.scale.trans_le e3
    refine hpos.trans_le (le_of_eq ?_)
    rw [e1]
    simp only [satAt]
    rw [hx, poly1At_flat _ F.dsl.ok le_rfl, sumT_at_zero]
    have hb := (curves f hf).basics
    simp only [basics, okSat, Bool.and_eq_true] at hb
    exact hb.1.1.1.1.1.1.1.1.1.1.1.1.1.1.1.2.2

/-- The saturation pressure at the critical temperature is not below the critical pressure, except for
R-134a. -/
theorem scale_ge {f : MpFile} (hf : f ∈ shippedMp) {p : ℝ} (h : p ≤ f.pc.val) (h' : f.id = "mp.C2H2F4" → p ≤ 4056290) :
    p ≤ f.ps.scale.val := by
  have hc : shippedMp.all (fun f => decide (f.pc.e ≤ 20) &&
      (decide (sc20 f.pc ≤ sc20 f.ps.scale) || decide (f.id = "mp.C2H2F4" ∧ sc20 f.ps.scale = 4056290 * 10 ^ 20))) = true := by
    decide +kernel
  have := List.all_eq_true.mp hc f hf
  simp only [Bool.and_eq_true, Bool.or_eq_true, decide_eq_true_eq] at this
  obtain ⟨h1, h2⟩ := this
  rw [(facts hf).ps.scale20]
  rcases h2 with h2 | ⟨h2, h3⟩
  · refine h.trans ?_
    rw [sc20_val h1]
    exact div_le_div_of_nonneg_right (by exact_mod_cast h2) (by positivity)
  · rw [h3]
    refine (h' h2).trans (le_of_eq ?_)
    push_cast
    field_simp
    norm_num

/-- An upper bound of `exp (j/n)`. -/
theorem exp_le_of_pow {j n : Nat} {B : ℚ} (hB : 0 ≤ B) (hn : n ≠ 0) (h : (27182818286 / 10000000000 : ℚ) ^ j ≤ B ^ n) :
    Real.exp ((j : ℝ) / n) ≤ B := by
  have h' : (27182818286 / 10000000000 : ℝ) ^ j ≤ (B : ℝ) ^ n := by
    have := (Rat.cast_le (K := ℝ)).mpr h
    push_cast at this
    exact this
  have hB' : (0 : ℝ) ≤ B := by exact_mod_cast hB
  refine le_of_pow_le_pow_left₀ hn hB' (le_trans ?_ h')
  have hn' : (n : ℝ) ≠ 0 := by exact_mod_cast hn
  rw [← Real.exp_nat_mul, mul_div_cancel₀ _ hn', ← Real.exp_one_pow]
  refine pow_le_pow_left₀ (Real.exp_pos _).le (Real.exp_one_lt_d9.le.trans ?_) j
  norm_num

/-- A point of the saturation curve at or below the triple temperature whose pressure is at least `r` times
the triple pressure. -/
def highPoint (f : MpFile) (n : Nat) (b : ℚ) (j m : Nat) (B r : ℚ) : Bool :=
  decide (0 ≤ b) && decide (b ^ n < 1) && decide (f.pt.e ≤ 20) && decide (0 < B) && decide (m ≠ 0) &&
    (flat f.ps.coef).all (fun t => decide (0 ≤ t.1 ∧ (t.1.toNat * n) % 10 ^ 20 = 0)) &&
    decide (-(j : ℚ) / m * (1 - b ^ n) ≤ sumP n (flat f.ps.coef) b) &&
    decide ((27182818286 / 10000000000 : ℚ) ^ j ≤ B ^ m) &&
    decide (r * sc20 f.pt * B ≤ sc20 f.ps.scale) &&
    decide (sc20 f.Tc * (1 - b ^ n) ≤ sc20 f.Tt) &&
    decide ((sc20 f.Tt : ℚ) * 99 ≤ sc20 f.Tc * (1 - b ^ n) * 100)

theorem highPoint_spec {f : MpFile} (hf : f ∈ shippedMp) {n : Nat} {b : ℚ} {j m : Nat} {B r : ℚ}
    (h : highPoint f n b j m B r = true) : (r : ℝ) * f.pt.val ≤ f.sub.ps f.Tt.val := by
  simp only [highPoint, Bool.and_eq_true, decide_eq_true_eq] at h
  obtain ⟨⟨⟨⟨⟨⟨⟨⟨⟨⟨h1, h2⟩, h3⟩, h4⟩, h5⟩, h6⟩, h7⟩, h8⟩, h9⟩, h10⟩, h11⟩ := h
  have F := facts hf
  have hc : 0 < f.Tc.val := F.Tt.trans F.Tc
  have h1' : (0 : ℝ) ≤ b := by exact_mod_cast h1
  have h2' : (b : ℝ) ^ n < 1 := by exact_mod_cast h2
  have hb0 : 0 ≤ (b : ℝ) ^ n := by positivity
  have hle : f.Tc.val * (1 - (b : ℝ) ^ n) ≤ f.Tc.val := by nlinarith
  have hT : f.Tc.val * (1 - (b : ℝ) ^ n) ≤ f.Tt.val := by
    rw [F.t20.1, F.t20.2.1, div_mul_eq_mul_div]
    exact div_le_div_of_nonneg_right (by exact_mod_cast h10) (by positivity)
  have hm : f.Tmin ≤ f.Tc.val * (1 - (b : ℝ) ^ n) := by
    refine (min_le_left _ _).trans ?_
    rw [F.t20.1, F.t20.2.1]
    have h9' : (sc20 f.Tt : ℝ) * 99 ≤ sc20 f.Tc * (1 - (b : ℝ) ^ n) * 100 := by exact_mod_cast h11
    rw [div_mul_eq_mul_div, div_mul_eq_mul_div]
    refine div_le_div_of_nonneg_right ?_ (by positivity)
    linarith
  refine le_trans ?_ ((ps_mono hf).monotoneOn ⟨hm, hle⟩ ⟨hm.trans hT, F.Tc.le⟩ hT)
  rw [ps_eq hf hle, mul_div_cancel_left₀ _ hc.ne', sub_sub_cancel]
  dsimp only
  rw [sumT_pow h1 h6, F.ps.scale20, sc20_val h3]
  have h7' : -(j : ℝ) / m * (1 - (b : ℝ) ^ n) ≤ (sumP n (flat f.ps.coef) b : ℝ) := by exact_mod_cast h7
  have h9' : (r : ℝ) * sc20 f.pt * B ≤ sc20 f.ps.scale := by exact_mod_cast h9
  have h4' : (0 : ℝ) < B := by exact_mod_cast h4
  have e : -((j : ℝ) / m) ≤ (sumP n (flat f.ps.coef) b : ℝ) / (1 - (b : ℝ) ^ n) := by
    rw [le_div_iff₀ (by linarith), ← neg_div]; exact h7'
  have he := Real.exp_le_exp.mpr e
  rw [Real.exp_neg] at he
  have hl := exp_le_of_pow h4.le h5 h8
  have hp := Real.exp_pos ((j : ℝ) / m)
  have hs : (0 : ℝ) < sc20 f.ps.scale := by
    have := F.ps.scale
    rw [F.ps.scale20] at this
    exact (div_pos_iff_of_pos_right (by positivity)).mp this
  rw [div_mul_eq_mul_div, mul_div_assoc']
  refine div_le_div_of_nonneg_right ?_ (by positivity)
  calc (r : ℝ) * sc20 f.pt ≤ sc20 f.ps.scale / B := by rw [le_div_iff₀ h4']; exact h9'
    _ ≤ sc20 f.ps.scale * (Real.exp ((j : ℝ) / m))⁻¹ := by
      rw [div_eq_mul_inv]
      exact mul_le_mul_of_nonneg_left (inv_anti₀ hp hl) hs.le
    _ ≤ _ := mul_le_mul_of_nonneg_left he hs.le

theorem triple_gap {f : MpFile} {r : ℝ} (h : f = C2H2F4 ∧ r = 1.01 ∨ f = C3H2F41 ∧ r = 1.04) :
    r * f.pt.val ≤ f.sub.ps f.Tt.val ∧ f.pt.val ≤ f.pc.val := by
  rcases h with ⟨rfl, rfl⟩ | ⟨rfl, rfl⟩
  · refine ⟨?_, by norm_num [C2H2F4, Dec.val, Dec.p]⟩
    have := highPoint_spec (f := C2H2F4) (n := 2) (b := 73897 / 100000) (j := 1847) (m := 200) (B := 10250) (r := 101 / 100)
      (by simp [shippedMp]) (by decide +kernel)
    push_cast at this
    convert this using 2
    norm_num
  · refine ⟨?_, by norm_num [C3H2F41, Dec.val, Dec.p]⟩
    have := highPoint_spec (f := C3H2F41) (n := 10) (b := 94337 / 100000) (j := 4839) (m := 500) (B := 15965) (r := 104 / 100)
      (by simp [shippedMp]) (by decide +kernel)
    push_cast at this
    convert this using 2
    norm_num

theorem ps_cont {f : MpFile} (hf : f ∈ shippedMp) : ContinuousOn f.sub.ps (Set.Icc (f.Tt.val * 0.99) f.Tc.val) := by
  have F := facts hf
  have hc : 0 < f.Tc.val := F.Tt.trans F.Tc
  have hg : ContinuousOn (fun T : ℝ => f.ps.scale.val *
      Real.exp (sumT (flat f.ps.coef) (1 - T / f.Tc.val) / (1 - (1 - T / f.Tc.val)))) (Set.Icc (f.Tt.val * 0.99) f.Tc.val) := by
    intro T hT
    have h0 : 0 < f.Tt.val * 0.99 := mul_pos F.Tt (by norm_num)
    have hT0 : 0 < T := h0.trans_le hT.1
    have hx : ContinuousAt (fun T : ℝ => 1 - T / f.Tc.val) T :=
      continuousAt_const.sub (continuousAt_id.div_const _)
    have hs := (continuousAt_sumT F.ps0 (1 - T / f.Tc.val)).comp (f := fun T : ℝ => 1 - T / f.Tc.val) hx
    refine (continuousAt_const.mul (Real.continuous_exp.continuousAt.comp (hs.div (continuousAt_const.sub hx) ?_))).continuousWithinAt
    show 1 - (1 - T / f.Tc.val) ≠ 0
    rw [sub_sub_cancel]
    positivity
  exact hg.congr fun T hT => ps_eq hf hT.2

/-- Every pressure from the triple pressure to that of the curve at the critical temperature is the
saturation pressure of exactly one temperature. -/
theorem ps_solve {f : MpFile} (hf : f ∈ shippedMp) {p : ℝ} (h1 : f.pt.val ≤ p) (h2 : p ≤ f.ps.scale.val) :
    ∃! T, (f.Tt.val * 0.99 ≤ T ∧ T ≤ f.Tc.val) ∧ f.sub.ps T = p := by
  have F := facts hf
  obtain ⟨T0, a1, a2, a3, -⟩ := lowEnd f hf
  have hsub : Set.Icc T0 f.Tc.val ⊆ Set.Icc (f.Tt.val * 0.99) f.Tc.val := Set.Icc_subset_Icc_left a1
  obtain ⟨T, hT, e⟩ := intermediate_value_Icc a2 ((ps_cont hf).mono hsub)
    (show p ∈ Set.Icc (f.sub.ps T0) (f.sub.ps f.Tc.val) from ⟨a3.trans h1, by rw [ps_critical hf]; exact h2⟩)
  refine ⟨T, ⟨hsub hT, e⟩, ?_⟩
  rintro T' ⟨hT', e'⟩
  have hm := (ps_mono hf).mono (Set.Icc_subset_Icc_left (show f.Tmin ≤ f.Tt.val * 0.99 from min_le_left _ _))
  exact hm.injOn hT' (hsub hT) (e'.trans e.symm)

end PyroMat.Shipped
