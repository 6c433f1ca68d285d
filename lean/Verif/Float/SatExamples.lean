import Verif.Float.ShippedSat

/-!
# The hypotheses of C115 are met
-/

set_option linter.unusedSimpArgs false

namespace PyroMat.Shipped

open PyroMat.Gas PyroMat.Mp PyroMat.Mp.Spec PyroMat.Shipped.Data PyroMat.Float PyroMat.Float.Spec PyroMat.Float.Props

/-- Water at 373 K, where the digits lost in `1 - T/Tc` make up a factor of less than 3. -/
example : ∃ f ∈ shippedMp, f.id = "mp.H2O" ∧
    ∃ p, satCurve double pow53 exp53 f.ps.group 373 = .ok p ∧ |p - f.sub.ps 373| ≤ 6.3e-11 * f.sub.ps 373 := by
  have h : shippedMp.any (fun f => decide (f.id = "mp.H2O") && decide ((f.Tt.m, f.Tt.e) = (27316, 2)) &&
      decide ((f.Tc.m, f.Tc.e) = (647096, 3))) = true := by decide +kernel
  obtain ⟨f, hf, h⟩ := List.any_eq_true.mp h
  simp only [Bool.and_eq_true, decide_eq_true_eq, Prod.mk.injEq] at h
  obtain ⟨⟨h1, h2⟩, h3⟩ := h
  replace h2 : f.Tt.val = 273.16 := by rw [Dec.val, h2.1, h2.2]; norm_num
  replace h3 : f.Tc.val = 647.096 := by rw [Dec.val, h3.1, h3.2]; norm_num
  obtain ⟨⟨p, hp, e⟩, -⟩ := C115_shipped f hf 373 (by rw [h2]; norm_num) (by rw [h3]; norm_num)
  refine ⟨f, hf, h1, p, hp, e.trans ?_⟩
  have hps : 0 ≤ f.sub.ps 373 := by
    rw [h3] at e
    have := (abs_nonneg _).trans e
    norm_num at this
    linarith
  refine mul_le_mul_of_nonneg_right ?_ hps
  rw [h3]
  norm_num

/-- A liquid density of the shipped shape, `1 + 2 x^(1/3) + x^(2/3)` with `x = 1 - T/500`, from 100 to 400 kelvin. -/
example (T : ℝ) (hT : 100 ≤ T) (hT' : T ≤ 400) :
    let g : SatGroup := ⟨500, 300, 1, [⟨1 / 3, 0, [(2, 1), (1, 2), (0, 1)]⟩]⟩
    g.fn ≤ 3 ∧ (∀ q ∈ g.coef, Sorted1 q) ∧ 0 < g.scale ∧ (∀ q ∈ g.coef, ∀ t ∈ q.terms, t.1 ≤ 2) ∧
      (∀ q ∈ g.coef, |q.pre| ≤ (1 : ℕ) ∧ |q.post| ≤ (1 : ℕ)) ∧ 0 < T ∧ T < g.Tscale ∧
      g.Tscale + T ≤ (9 : ℕ) * (g.Tscale - T) ∧ argSize g.fn g.coef (T / g.Tscale) ≤ (0 : ℕ) ∧
      (satRoundings 2 1 9 0 g.coef.length : ℝ) * 2 ^ (-53 : ℤ) ≤ 1e-3 := by
  refine ⟨by norm_num, by simp [Sorted1], by norm_num, by simp; omega, by simp [abs_of_pos]; norm_num, by linarith, ?_, ?_,
    by simp [argSize], ?_⟩
  · show T < 500
    linarith
  · show 500 + T ≤ (9 : ℕ) * (500 - T)
    push_cast
    linarith
  · norm_num [satRoundings, zpow_neg]

end PyroMat.Shipped
