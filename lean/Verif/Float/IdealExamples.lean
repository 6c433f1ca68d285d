import Verif.Float.ShippedIdeal

/-!
# The hypotheses of C114 are met
-/

set_option linter.unusedSimpArgs false

namespace PyroMat.Shipped

open PyroMat.Gas PyroMat.Mp PyroMat.Mp.Spec PyroMat.Shipped.Data PyroMat.Float PyroMat.Float.Spec PyroMat.Float.Props

/-- Methane, which has five log/exp terms, at 300 K and 100 kg/m³. -/
example : ∃ f ∈ shippedMp, f.id = "mp.CH4" ∧ f.ao.coef1.length = 5 ∧
    ∃ s, start double pow53 exp53 f.ao.Tscale.val f.ao.dscale.val f.ar.Tscale.val f.ar.dscale.val f.ao.group f.ar.group.coef0
        f.ar.group.coef1 300 100 = .ok s ∧
      |entropy double f.R.val s - (f.sub.F.s 300 100).v| ≤ 1.1e-10 * (partsAt f.ao.Tscale.val f.ao.dscale.val f.ar.Tscale.val
        f.ar.dscale.val f.ao.group f.ar.group.coef0 f.ar.group.coef1 300 100).s f.R.val := by
  have h : shippedMp.any (fun f => decide (f.id = "mp.CH4") && decide (f.ao.coef1.length = 5) &&
      decide (f.Tlim.1.m ≤ 300 * 10 ^ f.Tlim.1.e) && decide (300 * 10 ^ f.Tlim.2.e ≤ f.Tlim.2.m) &&
      decide (100 * 10 ^ f.dlim.2.e ≤ f.dlim.2.m)) = true := by decide +kernel
  obtain ⟨f, hf, h⟩ := List.any_eq_true.mp h
  simp only [Bool.and_eq_true, decide_eq_true_eq] at h
  obtain ⟨⟨⟨⟨h1, h2⟩, h3⟩, h4⟩, h5⟩ := h
  have low : ∀ (x : Dec) (n : Nat), x.m ≤ n * 10 ^ x.e → x.val ≤ n := by
    intro x n h
    unfold Dec.val
    rw [div_le_iff₀ (by positivity)]
    exact_mod_cast h
  have high : ∀ (x : Dec) (n : Nat), n * 10 ^ x.e ≤ x.m → (n : ℝ) ≤ x.val := by
    intro x n h
    unfold Dec.val
    rw [le_div_iff₀ (by positivity)]
    exact_mod_cast h
  obtain ⟨s, hs, -, -, a, -⟩ := C114_shipped f hf (by rw [h1]; decide) (by rw [h1]; decide) 300 100
    (by exact_mod_cast low f.Tlim.1 300 (by exact_mod_cast h3)) (by exact_mod_cast high f.Tlim.2 300 (by exact_mod_cast h4))
    (by norm_num) (by exact_mod_cast high f.dlim.2 100 (by exact_mod_cast h5))
  exact ⟨f, hf, h1, h2, s, hs, a⟩

/-- The ideal part `log d + 3/2 log t + 2 - t + log(1 - exp(-5 t))` meets the conditions of `C114_ideal` at reduced temperatures
from 1/5 to 20. -/
example (t : ℝ) (ht : 1 / 5 ≤ t) (ht' : t ≤ 20) :
    Tame ⟨some 1.5, none, some [⟨1, 0, [(1, -1), (0, 2)]⟩], [(5, 1)]⟩ 1 1 1 100 3 t := by
  refine ⟨by simp [Sorted1], by simp; omega, by simp, by simp, by simp, ?_, ?_⟩
  · intro r hr
    simp only [List.mem_singleton] at hr
    subst hr
    push_cast
    linarith
  · intro r hr
    simp only [List.mem_singleton] at hr
    subst hr
    have he : Real.exp (-5 * t) ≤ 1 / 2 := by
      rw [neg_mul, Real.exp_neg, inv_le_comm₀ (Real.exp_pos _) (by norm_num)]
      have := Real.add_one_le_exp (5 * t)
      norm_num
      linarith
    push_cast
    linarith

end PyroMat.Shipped
