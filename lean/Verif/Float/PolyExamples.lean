import Verif.Float.PropsPoly2

/-!
# The hypotheses of C112 are met
-/

set_option linter.unusedSimpArgs false

namespace PyroMat.Float.Props

open PyroMat PyroMat.Mp PyroMat.Float PyroMat.Float.Spec PyroMat.Mp.Spec

/-- Powers rounded to 53 binary digits. -/
noncomputable def pow53 (x y : ℝ) : ℝ := round53 (x ^ y)

theorem pow53_powers : Powers (2 ^ (-53 : ℤ)) pow53 := fun _ _ _ => round53_within _

/-- In double precision: `2 x^(-3/2) - x^(1/2)` (the documented example, as `x^(-3/2) (2 - (x^(1/2))^4)`) at any positive argument
is off by no more than 2e-15 of `2 x^(-3/2) + x^(1/2)`, although the two terms cancel near 2^(1/2). -/
example (x : ℝ) (hx : 0 < x) :
    ∃ j, poly1 double pow53 x [⟨1 / 2, -3 / 2, [(4, -1), (0, 2)]⟩] 2 = .ok j ∧
      |j.p - (2 * x ^ (-3 / 2 : ℝ) - x ^ (1 / 2 : ℝ))| ≤ 2.1e-15 * (2 * x ^ (-3 / 2 : ℝ) + x ^ (1 / 2 : ℝ)) := by
  obtain ⟨j, hj, h, -, -⟩ := C112_poly1 (by positivity) double_accurate pow53_powers x hx 4
    [⟨1 / 2, -3 / 2, [(4, -1), (0, 2)]⟩] (by simp [Sorted1]) (by simp; omega) (by norm_num [zpow_neg])
  refine ⟨j, hj, ?_⟩
  have e4 : (x ^ (1 / 2 : ℝ)) ^ 4 = x ^ (2 : ℝ) := by
    rw [← Real.rpow_natCast, ← Real.rpow_mul hx.le]; norm_num
  have e : x ^ (-3 / 2 : ℝ) * x ^ (2 : ℝ) = x ^ (1 / 2 : ℝ) := by
    rw [← Real.rpow_add hx]; norm_num
  have hv : poly1At [⟨1 / 2, -3 / 2, [(4, -1), (0, 2)]⟩] x = 2 * x ^ (-3 / 2 : ℝ) - x ^ (1 / 2 : ℝ) := by
    simp only [poly1At, List.map_cons, List.map_nil, List.sum_cons, List.sum_nil, pow_zero]
    rw [e4]
    linear_combination -e
  have hs : size0 [⟨1 / 2, -3 / 2, [(4, -1), (0, 2)]⟩] x = 2 * x ^ (-3 / 2 : ℝ) + x ^ (1 / 2 : ℝ) := by
    simp only [size0, List.map_cons, List.map_nil, List.sum_cons, List.sum_nil, pow_zero]
    rw [e4, abs_neg, abs_one, abs_of_pos (by norm_num : (0 : ℝ) < 2)]
    linear_combination e
  rw [hv, hs] at h
  refine h.trans (mul_le_mul_of_nonneg_right ?_ (by positivity))
  norm_num [zpow_neg]

/-- In double precision: `0.5 + 1.2 y + 0.2 y² + 0.1 x y` (the documented example) at any positive arguments. -/
example (x y : ℝ) (hx : 0 < x) (hy : 0 < y) :
    ∃ j, poly2 double pow53 x y [⟨1, 1, 0, 0, [(1, 1, 0.1), (0, 2, 0.2), (0, 1, 1.2), (0, 0, 0.5)]⟩] 2 = .ok j ∧
      |j.p - (0.5 + 1.2 * y + 0.2 * y ^ 2 + 0.1 * x * y)| ≤ 2.3e-15 * (0.5 + 1.2 * y + 0.2 * y ^ 2 + 0.1 * x * y) ∧
      |j.pxy - 0.1| ≤ 3.5e-16 * 10 := by
  have hs : Sorted2 ⟨1, 1, 0, 0, [(1, 1, 0.1), (0, 2, 0.2), (0, 1, 1.2), (0, 0, 0.5)]⟩ := ⟨by simp, by simp⟩
  obtain ⟨j, hj, h, -, -, -, h', -⟩ := C112_poly2 (by positivity) double_accurate pow53_powers x y hx hy 1 2
    [⟨1, 1, 0, 0, [(1, 1, 0.1), (0, 2, 0.2), (0, 1, 1.2), (0, 0, 0.5)]⟩] (by simpa using hs) (by simp) (by simp; omega)
    (by norm_num [zpow_neg])
  have hv : ∀ x y : ℝ, poly2At [⟨1, 1, 0, 0, [(1, 1, 0.1), (0, 2, 0.2), (0, 1, 1.2), (0, 0, 0.5)]⟩] x y =
      0.5 + 1.2 * y + 0.2 * y ^ 2 + 0.1 * x * y := by
    intro x y
    simp only [poly2At, List.map_cons, List.map_nil, List.sum_cons, List.sum_nil, pow_zero, Real.rpow_zero, Real.rpow_one]
    ring
  have hz : sizeAt 0 0 [⟨1, 1, 0, 0, [(1, 1, 0.1), (0, 2, 0.2), (0, 1, 1.2), (0, 0, 0.5)]⟩] x y =
      0.5 + 1.2 * y + 0.2 * y ^ 2 + 0.1 * x * y := by
    simp only [sizeAt, weight, List.map_cons, List.map_nil, List.sum_cons, List.sum_nil, pow_zero, Real.rpow_zero,
      Real.rpow_one]
    norm_num [abs_of_pos]
    ring
  have hz' : sizeAt 1 1 [⟨1, 1, 0, 0, [(1, 1, 0.1), (0, 2, 0.2), (0, 1, 1.2), (0, 0, 0.5)]⟩] x y = 0.1 := by
    simp only [sizeAt, weight, List.map_cons, List.map_nil, List.sum_cons, List.sum_nil, pow_zero, Real.rpow_zero,
      Real.rpow_one]
    norm_num [abs_of_pos]
    field_simp
  have hd : ∀ s, deriv (fun u => poly2At [⟨1, 1, 0, 0, [(1, 1, 0.1), (0, 2, 0.2), (0, 1, 1.2), (0, 0, 0.5)]⟩] u s) x =
      0.1 * s := by
    intro s
    simp only [hv]
    have : HasDerivAt (fun u : ℝ => 0.5 + 1.2 * s + 0.2 * s ^ 2 + 0.1 * u * s) (0.1 * s) x := by
      have := (((hasDerivAt_id x).const_mul (0.1 : ℝ)).mul_const s).const_add (0.5 + 1.2 * s + 0.2 * s ^ 2)
      simpa using this
    exact this.deriv
  have hd' : deriv (fun s : ℝ => 0.1 * s) y = 0.1 := by
    have := ((hasDerivAt_id y).const_mul (0.1 : ℝ)).deriv
    simpa using this
  refine ⟨j, hj, ?_, ?_⟩
  · rw [hv, hz] at h
    refine h.trans (mul_le_mul_of_nonneg_right ?_ (by positivity))
    norm_num [zpow_neg]
  · simp only [hd, hd', hz'] at h'
    refine h'.trans ?_
    norm_num [zpow_neg]

end PyroMat.Float.Props
