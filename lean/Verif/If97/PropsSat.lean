import Mathlib.Topology.Order.IntermediateValue
import Mathlib.Analysis.SpecialFunctions.Pow.Continuity
import Mathlib.Tactic.Linarith
import Mathlib.Tactic.NormNum
import Mathlib.Tactic.FieldSimp
import Mathlib.Tactic.LinearCombination
import Verif.If97.Spec

/-!
# Steam: the saturation line (C61)
-/

set_option linter.unusedSimpArgs false

namespace PyroMat.If97.Props

open PyroMat PyroMat.Mp PyroMat.Gas PyroMat.If97 PyroMat.If97.Spec Filter Topology

theorem sqrtN_ok {x : ℝ} (h : 0 ≤ x) : sqrtN x = some (Real.sqrt x) := by
  simp [sqrtN, not_lt.mpr h]

theorem quad_root {a b c r : ℝ} (hr : r ^ 2 = b ^ 2 - 4 * a * c) (h : -b + r ≠ 0) :
    a * (2 * c / (-b + r)) ^ 2 + b * (2 * c / (-b + r)) + c = 0 := by
  field_simp
  linear_combination c * hr

variable {W : Water} {lo hi : ℝ}

theorem ps_eq (h : SatPressure W lo hi) {T : ℝ} (h1 : lo ≤ T) (h2 : T ≤ hi) :
    ps W T = some (rootB W T ^ 4 * 10) := by
  have hd := h.disc T h1 h2
  simp only [inB] at hd
  unfold ps rootB
  simp only [inB]
  change (sqrtN (((W.r4 2 * scaled W T + W.r4 3) * scaled W T + W.r4 4) *
    ((W.r4 2 * scaled W T + W.r4 3) * scaled W T + W.r4 4) - _)).map _ = _
  rw [← pow_two, sqrtN_ok (by exact hd.1)]
  rfl

theorem rootB_pos (h : SatPressure W lo hi) {T : ℝ} (h1 : lo ≤ T) (h2 : T ≤ hi) : 0 < rootB W T := by
  have hd := h.disc T h1 h2
  unfold rootB
  exact div_pos (by linarith [hd.2.2]) hd.2.1

/-- The pair satisfies the saturation equation. -/
theorem rootB_root (h : SatPressure W lo hi) {T : ℝ} (h1 : lo ≤ T) (h2 : T ≤ hi) :
    satEq W (rootB W T) (scaled W T) = 0 := by
  have hd := h.disc T h1 h2
  have := quad_root (a := (inB W (scaled W T)).1) (b := (inB W (scaled W T)).2.1)
    (c := (inB W (scaled W T)).2.2) (Real.sq_sqrt hd.1) hd.2.1.ne'
  have hB : rootB W T = 2 * (inB W (scaled W T)).2.2 / (-(inB W (scaled W T)).2.1 +
    Real.sqrt ((inB W (scaled W T)).2.1 ^ 2 - 4 * (inB W (scaled W T)).1 * (inB W (scaled W T)).2.2)) :=
    rfl
  rw [← hB] at this
  simp only [inB] at this
  unfold satEq
  linear_combination this

theorem fourth_root {B : ℝ} (h : 0 ≤ B) : (B ^ 4 * 10 / 10) ^ (0.25 : ℝ) = B := by
  rw [mul_div_assoc, div_self (by norm_num : (10 : ℝ) ≠ 0), mul_one,
    show (0.25 : ℝ) = ((4 : ℕ) : ℝ)⁻¹ by norm_num, Real.pow_rpow_inv_natCast h (by norm_num)]

/-- The temperature equation gives back the temperature. -/
theorem Ts_ps (h : SatLine W lo hi) {T : ℝ} (h1 : lo ≤ T) (h2 : T ≤ hi) :
    Ts W (rootB W T ^ 4 * 10) = some T := by
  have hB := rootB_pos h.toSatPressure h1 h2
  have hroot := rootB_root h.toSatPressure h1 h2
  obtain ⟨hw, hG⟩ := h.branch T h1 h2
  have hT : T - W.r4 9 < 0 := by linarith [h.n10]
  have hn9 := h.n9
  set B := rootB W T with hBdef
  set th := scaled W T with hth
  have hthe : th = T + W.r4 8 / (T - W.r4 9) := rfl
  simp only [inTh] at hw hG
  unfold Ts
  rw [if_neg (by have : 0 ≤ B ^ 4 * 10 := by positivity
                 linarith), fourth_root hB.le]
  simp only []
  set a := (B + W.r4 2) * B + W.r4 5 with ha
  set b := (W.r4 0 * B + W.r4 3) * B + W.r4 6 with hb
  set c := (W.r4 1 * B + W.r4 4) * B + W.r4 7 with hc
  have hq : a * th ^ 2 + b * th + c = 0 := by
    rw [ha, hb, hc]; unfold satEq at hroot; linear_combination hroot
  have hdisc : b * b - 4 * a * c = (2 * a * th + b) ^ 2 := by linear_combination (-4 * a) * hq
  have hcc : c = -th * (a * th + b) := by linear_combination hq
  have hne : a * th + b ≠ 0 := by
    intro h0; rw [h0] at hcc; exact hG (by rw [hcc]; ring)
  rw [hdisc, sqrtN_ok (sq_nonneg _), Real.sqrt_sq hw]
  simp only [Option.bind_some]
  have ht : 2 * c / (-b - (2 * a * th + b)) = th := by
    rw [show -b - (2 * a * th + b) = -2 * (a * th + b) by ring,
      div_eq_iff (mul_ne_zero (by norm_num) hne)]
    linear_combination 2 * hcc
  rw [ht]
  have hd2 : (W.r4 9 + th) * (W.r4 9 + th) - 4 * (W.r4 8 + W.r4 9 * th) =
      (W.r4 9 + W.r4 8 / (T - W.r4 9) - T) ^ 2 := by
    have hT' := hT.ne
    rw [hthe]; field_simp; ring
  have hpos : 0 ≤ W.r4 9 + W.r4 8 / (T - W.r4 9) - T := by
    have : 0 ≤ W.r4 8 / (T - W.r4 9) := div_nonneg_of_nonpos hn9 hT.le
    linarith
  rw [hd2, sqrtN_ok (sq_nonneg _), Real.sqrt_sq hpos]
  simp only [Option.map_some, Option.some.injEq]
  rw [hthe]; ring

/-- The pressure equation is continuous along the line. -/
theorem rootB_cont (h : SatPressure W lo hi) : ContinuousOn (rootB W) (Set.Icc lo hi) := by
  have hs : ContinuousOn (scaled W) (Set.Icc lo hi) := by
    unfold scaled
    refine continuousOn_id.add (continuousOn_const.div (continuousOn_id.sub continuousOn_const) ?_)
    intro T hT
    have := h.n10
    have := hT.2
    exact ne_of_lt (by linarith)
  have hq : ContinuousOn (fun T => inB W (scaled W T)) (Set.Icc lo hi) := by
    have : Continuous (inB W) := by
      unfold inB; fun_prop
    exact this.comp_continuousOn hs
  have hb := (continuous_fst.comp continuous_snd).comp_continuousOn hq
  have ha := continuous_fst.comp_continuousOn hq
  have hc := (continuous_snd.comp continuous_snd).comp_continuousOn hq
  unfold rootB
  refine ContinuousOn.div (continuousOn_const.mul hc) (hb.neg.add (ContinuousOn.sqrt
    ((hb.pow 2).sub ((continuousOn_const.mul ha).mul hc)))) ?_
  intro T hT
  exact (h.disc T hT.1 hT.2).2.1.ne'

/-- **C61.** Between the ends of the line the saturation temperature at the saturation pressure is the
temperature one started from. -/
theorem line_T (h : SatLine W lo hi) {T : ℝ} (h1 : lo ≤ T) (h2 : T ≤ hi) :
    ∃ p, ps W T = some p ∧ Ts W p = some T :=
  ⟨_, ps_eq h.toSatPressure h1 h2, Ts_ps h h1 h2⟩

/-- For pressures between those of the ends, the saturation pressure at the saturation
temperature is the pressure one started from. -/
theorem line_p (h : SatLine W lo hi) {p p0 p1 : ℝ} (e0 : ps W lo = some p0) (e1 : ps W hi = some p1)
    (h0 : p0 ≤ p) (h1 : p ≤ p1) : ∃ T, lo ≤ T ∧ T ≤ hi ∧ Ts W p = some T ∧ ps W T = some p := by
  have hc : ContinuousOn (fun T => rootB W T ^ 4 * 10) (Set.Icc lo hi) :=
    ((rootB_cont h.toSatPressure).pow 4).mul continuousOn_const
  rw [ps_eq h.toSatPressure (le_refl _) h.ordered, Option.some.injEq] at e0
  rw [ps_eq h.toSatPressure h.ordered (le_refl _), Option.some.injEq] at e1
  obtain ⟨T, hT, hp⟩ := intermediate_value_Icc h.ordered hc (show p ∈ Set.Icc _ _ from
    ⟨by simpa only [e0] using h0, by simpa only [e1] using h1⟩)
  simp only at hp
  refine ⟨T, hT.1, hT.2, ?_, ?_⟩
  · rw [← hp]; exact Ts_ps h hT.1 hT.2
  · rw [ps_eq h.toSatPressure hT.1 hT.2, hp]

/-! ## The coefficients of the report -/

section
variable (hW : W.r4 = iapws)
include hW

theorem n0 : W.r4 0 = 1167.0521452767 := by rw [hW]; rfl
theorem n1 : W.r4 1 = -724213.16703206 := by rw [hW]; rfl
theorem n2 : W.r4 2 = -17.073846940092 := by rw [hW]; rfl
theorem n3 : W.r4 3 = 12020.824702470 := by rw [hW]; rfl
theorem n4 : W.r4 4 = -3232555.0322333 := by rw [hW]; rfl
theorem n5 : W.r4 5 = 14.915108613530 := by rw [hW]; rfl
theorem n6 : W.r4 6 = -4823.2657361591 := by rw [hW]; rfl
theorem n7 : W.r4 7 = 405113.40542057 := by rw [hW]; rfl
theorem n8 : W.r4 8 = -0.23855557567849 := by rw [hW]; rfl
theorem n9 : W.r4 9 = 650.17534844798 := by rw [hW]; rfl

theorem scaled_range {T : ℝ} (h1 : 273.16 ≤ T) (h2 : T ≤ 647.096) :
    273.16 ≤ scaled W T ∧ scaled W T ≤ 647.2 := by
  unfold scaled
  rw [n8 hW, n9 hW]
  have hT : 0 < 650.17534844798 - T := by linarith
  have e : -0.23855557567849 / (T - 650.17534844798) = 0.23855557567849 / (650.17534844798 - T) := by
    rw [← neg_sub, div_neg, neg_div, neg_neg]
  rw [e]
  constructor
  · have : 0 ≤ 0.23855557567849 / (650.17534844798 - T) := by positivity
    linarith
  · rw [← sub_nonneg]
    have : 647.2 - (T + 0.23855557567849 / (650.17534844798 - T)) =
        ((647.2 - T) * (650.17534844798 - T) - 0.23855557567849) / (650.17534844798 - T) := by
      field_simp; ring
    rw [this]
    refine div_nonneg ?_ hT.le
    nlinarith [mul_nonneg (sub_nonneg.mpr h2) hT.le, h1]

theorem coef_signs {t : ℝ} (h1 : 273.16 ≤ t) (h2 : t ≤ 647.2) :
    0 < (inB W t).2.2 ∧ (inB W t).2.1 < 0 ∧
      0 < (inB W t).2.1 ^ 2 - 4 * (inB W t).1 * (inB W t).2.2 := by
  simp only [inB]
  rw [n0 hW, n1 hW, n2 hW, n3 hW, n4 hW, n5 hW, n6 hW, n7 hW]
  refine ⟨by nlinarith, by nlinarith [sq_nonneg (t - 352)], ?_⟩
  obtain ⟨u, rfl⟩ : ∃ u, t = 648 - u := ⟨648 - t, by ring⟩
  have hu0 : 0 ≤ u := by linarith
  have hu1 : u ≤ 375 := by linarith
  nlinarith [mul_nonneg (mul_nonneg hu0 hu0) (sq_nonneg (u - 302)), mul_nonneg hu0 (sub_nonneg.mpr hu1),
    sq_nonneg u]

theorem disc_B {B : ℝ} (h : 0.13 ≤ B) :
    0 < (inTh W B).2.1 ^ 2 - 4 * (inTh W B).1 * (inTh W B).2.2 := by
  simp only [inTh]
  rw [n0 hW, n1 hW, n2 hW, n3 hW, n4 hW, n5 hW, n6 hW, n7 hW]
  have hB : 0 ≤ B := by linarith
  by_cases hs : B ≤ 0.4
  · nlinarith [mul_nonneg hB (sub_nonneg.mpr hs), mul_nonneg (mul_nonneg hB hB) (sub_nonneg.mpr hs),
      mul_nonneg (sub_nonneg.mpr h) (sub_nonneg.mpr hs), sq_nonneg (B * B)]
  · push Not at hs
    nlinarith [mul_nonneg (mul_nonneg hB (by linarith : (0 : ℝ) ≤ B + 3.35)) (sq_nonneg (B - 2.67)), sq_nonneg (B - 2.67)]

/-- A lower bound on the root. -/
theorem rootB_ge {T : ℝ} (h1 : 273.16 ≤ T) (h2 : T ≤ 647.096) : 0.13 ≤ rootB W T := by
  obtain ⟨s1, s2⟩ := scaled_range hW h1 h2
  obtain ⟨c1, c2, c3⟩ := coef_signs hW s1 s2
  unfold rootB
  have hden : 0 < -(inB W (scaled W T)).2.1 + Real.sqrt ((inB W (scaled W T)).2.1 ^ 2 -
      4 * (inB W (scaled W T)).1 * (inB W (scaled W T)).2.2) := by
    have := Real.sqrt_nonneg ((inB W (scaled W T)).2.1 ^ 2 -
      4 * (inB W (scaled W T)).1 * (inB W (scaled W T)).2.2)
    linarith
  rw [le_div_iff₀ hden]
  have h1' : 0 ≤ (inB W (scaled W T)).2.2 + 0.13 * (inB W (scaled W T)).2.1 +
      0.13 ^ 2 * (inB W (scaled W T)).1 := by
    simp only [inB]
    rw [n0 hW, n1 hW, n2 hW, n3 hW, n4 hW, n5 hW, n6 hW, n7 hW]
    nlinarith
  have h2' : 0 ≤ 2 * (inB W (scaled W T)).2.2 + 0.13 * (inB W (scaled W T)).2.1 := by
    simp only [inB]
    rw [n2 hW, n3 hW, n4 hW, n5 hW, n6 hW, n7 hW]
    nlinarith
  have := Real.sqrt_le_sqrt (show (0.13 : ℝ) ^ 2 * ((inB W (scaled W T)).2.1 ^ 2 -
      4 * (inB W (scaled W T)).1 * (inB W (scaled W T)).2.2) ≤
      (2 * (inB W (scaled W T)).2.2 + 0.13 * (inB W (scaled W T)).2.1) ^ 2 by
    nlinarith [mul_nonneg c1.le h1'])
  rw [Real.sqrt_sq h2', Real.sqrt_mul (by norm_num), Real.sqrt_sq (by norm_num)] at this
  linarith

/-- An upper bound on the root at the lower end. -/
theorem rootB_le : rootB W 273.16 ≤ 0.2 := by
  obtain ⟨s1, s2⟩ := scaled_range hW (T := 273.16) (le_refl _) (by norm_num)
  obtain ⟨c1, c2, c3⟩ := coef_signs hW s1 s2
  have s3 : scaled W 273.16 ≤ 273.17 := by
    unfold scaled; rw [n8 hW, n9 hW]; norm_num
  unfold rootB
  have hden : 0 < -(inB W (scaled W 273.16)).2.1 + Real.sqrt ((inB W (scaled W 273.16)).2.1 ^ 2 -
      4 * (inB W (scaled W 273.16)).1 * (inB W (scaled W 273.16)).2.2) := by
    have := Real.sqrt_nonneg ((inB W (scaled W 273.16)).2.1 ^ 2 -
      4 * (inB W (scaled W 273.16)).1 * (inB W (scaled W 273.16)).2.2)
    linarith
  rw [div_le_iff₀ hden]
  have h1' : (inB W (scaled W 273.16)).2.2 + 0.2 * (inB W (scaled W 273.16)).2.1 +
      0.2 ^ 2 * (inB W (scaled W 273.16)).1 ≤ 0 := by
    simp only [inB]
    rw [n0 hW, n1 hW, n2 hW, n3 hW, n4 hW, n5 hW, n6 hW, n7 hW]
    nlinarith
  have h2' : 0 ≤ 2 * (inB W (scaled W 273.16)).2.2 + 0.2 * (inB W (scaled W 273.16)).2.1 := by
    simp only [inB]
    rw [n2 hW, n3 hW, n4 hW, n5 hW, n6 hW, n7 hW]
    nlinarith
  have := Real.sqrt_le_sqrt (show (2 * (inB W (scaled W 273.16)).2.2 +
      0.2 * (inB W (scaled W 273.16)).2.1) ^ 2 ≤ (0.2 : ℝ) ^ 2 * ((inB W (scaled W 273.16)).2.1 ^ 2 -
      4 * (inB W (scaled W 273.16)).1 * (inB W (scaled W 273.16)).2.2) by
    nlinarith [mul_nonneg c1.le (neg_nonneg.mpr h1')])
  rw [Real.sqrt_sq h2', Real.sqrt_mul (by norm_num), Real.sqrt_sq (by norm_num)] at this
  linarith

theorem iapws_pre {T : ℝ} (h1 : 273.16 ≤ T) (h2 : T ≤ 647.096) :
    let q := inB W (scaled W T)
    0 ≤ q.2.1 ^ 2 - 4 * q.1 * q.2.2 ∧ 0 < -q.2.1 + Real.sqrt (q.2.1 ^ 2 - 4 * q.1 * q.2.2) ∧
      0 < q.2.2 := by
  obtain ⟨s1, s2⟩ := scaled_range hW h1 h2
  obtain ⟨c1, c2, c3⟩ := coef_signs hW s1 s2
  exact ⟨c3.le, by linarith [Real.sqrt_nonneg ((inB W (scaled W T)).2.1 ^ 2 -
      4 * (inB W (scaled W T)).1 * (inB W (scaled W T)).2.2)], c1⟩

theorem iapws_pressure : SatPressure W 273.16 647.096 where
  ordered := by norm_num
  n9 := by rw [n8 hW]; norm_num
  n10 := by rw [n9 hW]; norm_num
  disc := fun _ h1 h2 => iapws_pre hW h1 h2

/-- With the coefficients of the IAPWS report the conditions hold from the triple point to the
critical point. -/
theorem iapws_line : SatLine W 273.16 647.096 where
  toSatPressure := iapws_pressure hW
  branch := by
    have hP := iapws_pressure hW
    let w : ℝ → ℝ := fun T => 2 * (inTh W (rootB W T)).1 * scaled W T + (inTh W (rootB W T)).2.1
    have hsc : ContinuousOn (scaled W) (Set.Icc 273.16 647.096) := by
      unfold scaled
      refine continuousOn_id.add (continuousOn_const.div (continuousOn_id.sub continuousOn_const) ?_)
      intro T hT
      have := hP.n10
      have := hT.2
      exact ne_of_lt (by linarith)
    have hc : ContinuousOn w (Set.Icc 273.16 647.096) := by
      have hq : Continuous (inTh W) := by unfold inTh; fun_prop
      have h1 := hq.comp_continuousOn (rootB_cont hP)
      exact ((continuousOn_const.mul (continuous_fst.comp_continuousOn h1)).mul hsc).add
        ((continuous_fst.comp continuous_snd).comp_continuousOn h1)
    have hne : ∀ T, 273.16 ≤ T → T ≤ 647.096 → w T ≠ 0 := by
      intro T h1 h2 h0
      have hr := rootB_root hP h1 h2
      have hd := disc_B hW (rootB_ge hW h1 h2)
      have : (w T) ^ 2 = (inTh W (rootB W T)).2.1 ^ 2 -
          4 * (inTh W (rootB W T)).1 * (inTh W (rootB W T)).2.2 := by
        simp only [w, inTh]
        unfold satEq at hr
        linear_combination (4 * ((rootB W T + W.r4 2) * rootB W T + W.r4 5)) * hr
      rw [← this, h0] at hd
      norm_num at hd
    have h0 : 0 < w 273.16 := by
      have b1 := rootB_ge hW (T := 273.16) (le_refl _) (by norm_num)
      have b2 := rootB_le hW
      obtain ⟨s1, -⟩ := scaled_range hW (T := 273.16) (le_refl _) (by norm_num)
      simp only [w, inTh]
      rw [n0 hW, n2 hW, n3 hW, n5 hW, n6 hW]
      have hE : (11 : ℝ) ≤ (rootB W 273.16 + -17.073846940092) * rootB W 273.16 + 14.915108613530 := by
        nlinarith
      have hF : (-3500 : ℝ) ≤ (1167.0521452767 * rootB W 273.16 + 12020.824702470) * rootB W 273.16 +
          -4823.2657361591 := by nlinarith
      nlinarith
    intro T h1 h2
    refine ⟨?_, ?_⟩
    · by_contra hn
      push Not at hn
      have hc' : ContinuousOn w (Set.Icc 273.16 T) := hc.mono (Set.Icc_subset_Icc_right h2)
      obtain ⟨z, hz, hz0⟩ := intermediate_value_Icc' h1 hc' (show (0 : ℝ) ∈ Set.Icc (w T) (w 273.16) from
        ⟨hn.le, h0.le⟩)
      exact hne z hz.1 (hz.2.trans h2) hz0
    · have b1 := rootB_ge hW h1 h2
      simp only [inTh]
      rw [n1 hW, n4 hW, n7 hW]
      exact ne_of_lt (by nlinarith)

end

end PyroMat.If97.Props
