import Verif.Float.ShippedResidual

/-!
# The hypotheses of C113 are met
-/

set_option linter.unusedSimpArgs false

namespace PyroMat.Shipped

open PyroMat.Gas PyroMat.Mp PyroMat.Mp.Spec PyroMat.Shipped.Data PyroMat.Float PyroMat.Float.Spec PyroMat.Float.Props

/-- Nitrogen, which has Gaussian terms, at 300 K and 1000 kg/m³. -/
example : ∃ f ∈ shippedMp, f.id = "mp.N2" ∧ f.ar.coef1 ≠ [] ∧
    ∃ p, pressure double pow53 exp53 f.R.val f.ar.Tscale.val f.ar.dscale.val f.ar.group.coef0 f.ar.group.coef1 300 1000 = .ok p ∧
      |p - (f.sub.F.p 300 1000).v| ≤ 1.1e-10 * (300 * 1000 * f.R.val * (1 + 1000 / f.ar.dscale.val *
        arSizeD f.ar.group.coef0 f.ar.group.coef1 (f.ar.Tscale.val / 300) (1000 / f.ar.dscale.val))) := by
  have h : shippedMp.any (fun f => decide (f.id = "mp.N2") && !f.ar.coef1.isEmpty && decide (f.Tlim.1.m ≤ 300 * 10 ^ f.Tlim.1.e) &&
      decide (1000 * 10 ^ f.dlim.2.e ≤ f.dlim.2.m)) = true := by decide +kernel
  obtain ⟨f, hf, h⟩ := List.any_eq_true.mp h
  simp only [Bool.and_eq_true, decide_eq_true_eq, Bool.not_eq_true', List.isEmpty_eq_false_iff] at h
  obtain ⟨⟨⟨h1, h2⟩, h3⟩, h4⟩ := h
  refine ⟨f, hf, h1, h2, C113_shipped f hf (by rw [h1]; decide) (by rw [h1]; decide) 300 1000 ?_ (by norm_num) ?_⟩
  · unfold Dec.val
    rw [div_le_iff₀ (by positivity)]
    exact_mod_cast h3
  · unfold Dec.val
    rw [le_div_iff₀ (by positivity)]
    exact_mod_cast h4

/-- The equation `1 + d exp(-d)` with one Gaussian term meets the conditions of `C113_pressure` for densities up to 10. -/
example (t d : ℝ) (ht : 0 < t) (ht' : t ≤ 2) (hd : 0 < d) (hd' : d ≤ 10) :
    Bounded [[⟨1, 1, 0, 0, [(0, 0, 1)]⟩], [⟨1, 1, 0, 0, [(0, 1, 1)]⟩]] [⟨1, 2, 1, 1, 1, 1, -0.5⟩] 0 1 1 2 ∧
      Moderate [[⟨1, 1, 0, 0, [(0, 0, 1)]⟩], [⟨1, 1, 0, 0, [(0, 1, 1)]⟩]] [⟨1, 2, 1, 1, 1, 1, -0.5⟩] 200 t d := by
  refine ⟨⟨by simp, ?_, by simp, by simp +contextual, by simp, by simp, by norm_num⟩, ⟨?_, ?_⟩⟩
  · simp [Sorted2]
  · intro k hk
    simp only [List.length_cons, List.length_nil] at hk
    have : k = 0 ∨ k = 1 := by omega
    rcases this with rfl | rfl
    · norm_num
    · simpa using hd'.trans (by norm_num)
  · intro r hr
    simp only [List.mem_singleton] at hr
    subst hr
    simp only [gaussArg, abs_one, one_mul]
    push_cast
    nlinarith

end PyroMat.Shipped
