import Verif.Gas.PropsInverse
import Mathlib.Analysis.SpecialFunctions.Log.Basic

/-!
# Inversion of functions that grow like a logarithm of the temperature

The entropy of a gas has the slope `cp / T`, so that over a wide range its least and greatest slope are far
apart.  Measured against the logarithm of the temperature they are as close as those of the enthalpy.
-/

set_option linter.unusedSimpArgs false

namespace PyroMat.Gas.Props

open PyroMat PyroMat.Gas PyroMat.Gas.Spec

/-- Over `[lo, hi]` the slope is at least `m / x`, values differ by at most `M` times the difference of the
logarithms and `J`, and no value is larger than `B`. -/
structure LogRegular (f : ℝ → Option (ℝ × ℝ)) (lo hi m M J B : ℝ) : Prop where
  lo_pos : 0 < lo
  m_pos : 0 < m
  M_nonneg : 0 ≤ M
  J_nonneg : 0 ≤ J
  slope : ∀ x, lo ≤ x → x ≤ hi → ∃ y y', f x = some (y, y') ∧ m / x ≤ |y'| ∧ |y| ≤ B
  lipschitz : ∀ x x' y y', lo ≤ x → x ≤ hi → lo ≤ x' → x' ≤ hi → (f x).map (·.1) = some y →
    (f x').map (·.1) = some y' → |y - y'| ≤ M * |Real.log x - Real.log x'| + J

theorem log_apart {x v a δ : ℝ} (hx : 0 < x) (h : |v - x| ≤ a * x) (ha : a ≤ δ) (hδ : δ < 1) :
    |Real.log v - Real.log x| ≤ a / (1 - δ) := by
  have ha0 : 0 ≤ a := by
    by_contra hc
    have : a * x < 0 := mul_neg_of_neg_of_pos (by linarith) hx
    linarith [abs_nonneg (v - x)]
  have hd : 0 < 1 - δ := by linarith
  obtain ⟨h1, h2⟩ := abs_le.mp h
  have hv : (1 - δ) * x ≤ v := by nlinarith
  have hv0 : 0 < v := lt_of_lt_of_le (mul_pos hd hx) hv
  rw [abs_le]
  constructor
  · have := Real.log_le_sub_one_of_pos (div_pos hx hv0)
    rw [Real.log_div hx.ne' hv0.ne'] at this
    have e : x / v - 1 ≤ a / (1 - δ) := by
      rw [div_sub_one hv0.ne', div_le_div_iff₀ hv0 hd]
      nlinarith
    linarith
  · have := Real.log_le_sub_one_of_pos (div_pos hv0 hx)
    rw [Real.log_div hv0.ne' hx.ne'] at this
    have e : v / x - 1 ≤ a / (1 - δ) := by
      rw [div_sub_one hx.ne', div_le_div_iff₀ hx hd]
      nlinarith
    linarith

theorem inverts_log {f : ℝ → Option (ℝ × ℝ)} {lo hi m M J B : ℝ} (hlh : lo ≤ hi)
    (hR : LogRegular f lo hi m M J B) (δ : ℝ) (hδ : δ < 1) (hB : 1e-6 * B ≤ δ * m * (1 - 1e-6)) :
    Inverts f lo hi (1 + M / m / (1 - δ)) J := by
  intro y v h
  have h0 : lo ≤ 0.5 * (lo + hi) := by linarith
  have h1 : 0.5 * (lo + hi) ≤ hi := by linarith
  have hv : v ≠ none := by
    rintro rfl
    refine C35_never_nan [(f, y)] _ lo hi 1e-6 20 h0 h1 ?_ _ _ h (by simp)
    intro q hq x hx1 hx2
    simp only [List.mem_singleton] at hq
    subst hq
    obtain ⟨a, b, hab, hm, -⟩ := hR.slope x hx1 hx2
    refine ⟨a, b, hab, ?_⟩
    rintro rfl
    have : 0 < m / x := div_pos hR.m_pos (hR.lo_pos.trans_le hx1)
    simp at hm; linarith
  obtain ⟨t, rfl⟩ := Option.ne_none_iff_exists'.mp hv
  obtain ⟨-, hb⟩ := C35_in_bounds _ _ _ _ _ _ h0 h1 _ _ h
  obtain ⟨b1, b2⟩ := hb t (by simp)
  obtain ⟨z, z', hz, -⟩ := hR.slope t b1 b2
  refine ⟨t, z, rfl, b1, b2, by rw [hz]; rfl, ?_⟩
  obtain ⟨x, yy, yyx, x1, x2, fx, near, -, step⟩ :=
    C35_accurate [(f, y)] _ lo hi 1e-6 20 h0 h1 _ h 0 f y t (by simp) (by simp)
  obtain ⟨a, a', ha, hs, hab⟩ := hR.slope x x1 x2
  rw [fx] at ha
  simp only [Option.some.injEq, Prod.mk.injEq] at ha
  obtain ⟨rfl, rfl⟩ := ha
  have x0 := hR.lo_pos.trans_le x1
  have m0 := hR.m_pos
  have hd : 0 < 1 - δ := by linarith
  rw [abs_mul, abs_of_pos (by norm_num : (0:ℝ) < 1e-6)] at near
  have hy : (1 - 1e-6) * |y| ≤ B := by
    have : |y| - |yy| ≤ |y - yy| := abs_sub_abs_le_abs_sub y yy
    linarith
  have hE : 1e-6 * |y| / m ≤ δ := by
    rw [div_le_iff₀ m0]
    have : 1e-6 * |y| * (1 - 1e-6) ≤ δ * m * (1 - 1e-6) := by nlinarith
    exact le_of_mul_le_mul_right this (by norm_num)
  have hp : 0 < |yyx| := lt_of_lt_of_le (div_pos m0 x0) hs
  have st : |t - x| ≤ 1e-6 * |y| / m * x := by
    refine step.trans ?_
    rw [abs_div, div_le_iff₀ hp]
    refine near.trans ?_
    have h1 : 1e-6 * |y| / m * x * (m / x) = 1e-6 * |y| := by field_simp
    have h2 : 1e-6 * |y| / m * x * (m / x) ≤ 1e-6 * |y| / m * x * |yyx| :=
      mul_le_mul_of_nonneg_left hs (by positivity)
    linarith
  have hlog := log_apart x0 st hE hδ
  have hL := hR.lipschitz t x z yy b1 b2 x1 x2 (by rw [hz]; rfl) (by rw [fx]; rfl)
  have tri : |z - y| ≤ |z - yy| + |y - yy| := by
    rw [abs_sub_comm y yy]
    exact abs_sub_le z yy y
  have hM : M * |Real.log t - Real.log x| ≤ M * (1e-6 * |y| / m / (1 - δ)) :=
    mul_le_mul_of_nonneg_left hlog hR.M_nonneg
  have e : M * (1e-6 * |y| / m / (1 - δ)) = M / m / (1 - δ) * (1e-6 * |y|) := by ring
  rw [e] at hM
  linarith

end PyroMat.Gas.Props
