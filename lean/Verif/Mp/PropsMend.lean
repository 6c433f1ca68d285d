import Verif.Mp.PropsThermo

/-!
# Single-phase properties with non-analytic terms (C50)

Data with non-analytic terms, as carbon dioxide and water have, get a wrong mixed derivative
(`C49_mixed_defect`).  Pressure, energies, entropy and the isochoric heat capacity do not use it.
-/

set_option linter.unusedSimpArgs false

namespace PyroMat.Mp.Props

open PyroMat.Mp PyroMat.Mp.Spec

/-- Reduced densities off the critical one: above it, or more than 1e-6 below it. -/
def OffCritical (y : ℝ) : Prop := 1 < y ∨ y < 1 - 1 / 1000000

/-- The fluid with the mixed derivative of its residual part corrected. -/
noncomputable def mended (F : Fluid) (agr : ARgroup) : Fluid :=
  { F with r := fun t d => { F.r t d with pxy := (arF agr t d).pxy } }

theorem mended_isFluid (R To dso Tr dsr : ℝ) (hR : 0 < R) (hTo : 0 < To) (hdso : 0 < dso) (hTr : 0 < Tr)
    (hdsr : 0 < dsr) (ago : AOgroup) (ho : ∀ q ∈ ago.coef0.getD [], Sorted1 q)
    (ho1 : ∀ r ∈ ago.coef1, 0 < r.1) (agr : ARgroup) (hr : ArData agr) (hB : ∀ r ∈ agr.coef2, 0 < r.B) :
    IsFluid (mended (codeFluid R To dso Tr dsr ago agr) agr) (aoVal ago) (arVal agr) (aoPhi ago)
      {z : ℝ × ℝ | 0 < z.1 ∧ 0 < z.2} {z : ℝ × ℝ | (0 < z.1 ∧ 0 < z.2) ∧ OffCritical z.2} := by
  refine ⟨hR, hTo, hTr, hdso, hdsr, ?_, ?_, ?_⟩
  · intro x y _
    simp only [aoVal, aoPhi]
    ring
  · refine ⟨quadrant_open, fun x y hxy => ?_⟩
    obtain ⟨j, hj, hi⟩ := C48_ideal_part ago ho ho1 x y hxy.1 hxy.2
    simpa [mended, codeFluid, hj, orZero] using hi
  · refine ⟨quadrant_open.inter ?_, fun x y hxy => ?_⟩
    · exact (isOpen_lt continuous_const continuous_snd).union (isOpen_lt continuous_snd continuous_const)
    · obtain ⟨⟨hx, hy⟩, hc⟩ := hxy
      dsimp only at hx hy hc
      have h1 : y ≠ 1 := by
        rintro rfl
        rcases hc with hc | hc
        · exact lt_irrefl _ hc
        · norm_num at hc
      have hsmall : anySmall [(x, y)] = false ∨ 1 < y := by
        rcases hc with hc | hc
        · exact Or.inr hc
        · left
          simp only [anySmall, List.any_eq_false, decide_eq_true_eq, not_lt, List.mem_singleton]
          rintro z rfl
          dsimp only
          rw [abs_of_neg (by linarith)]
          linarith
      have e : (mended (codeFluid R To dso Tr dsr ago agr) agr).r x y = arF agr x y := by
        simp only [mended, codeFluid, arAt_eq agr hr.some hr.sorted, orZero]
        refine Same5.fix ((Same5.refl _).add (foldr_same _ _ _ fun r hr' => ?_))
        exact naTerm_same r x y (delta_pos r (hB r hr') x h1) _ _ hsmall
      rw [e]
      exact arF_is agr hr hB hx hy (fun _ => h1)

/-- **C50, partial.** With non-analytic terms, at every positive temperature and every density that is above
the critical density or more than 1e-6 (relative) below it: the free energy is the Helmholtz energy, pressure
is `d²` times its density derivative, entropy minus its temperature derivative, the other energies are the
usual combinations, and `cv` is the temperature derivative of the energy at constant density.  Missing:
what the mixed derivative enters (`C50_mixed_defect`), and densities within 1e-6 below critical. -/
theorem C50_nonanalytic_partial (R To dso dsr : ℝ) (hR : 0 < R) (hTo : 0 < To) (hdso : 0 < dso)
    (hdsr : 0 < dsr) (ago : AOgroup) (ho : ∀ q ∈ ago.coef0.getD [], Sorted1 q)
    (ho1 : ∀ r ∈ ago.coef1, 0 < r.1) (agr : ARgroup) (hr : ArData agr) (hB : ∀ r ∈ agr.coef2, 0 < r.B)
    (T d : ℝ) (hT : 0 < T) (hd : 0 < d) (hc : OffCritical (d / dsr)) :
    let F := codeFluid R To dso To dsr ago agr
    let A := helmholtz F (aoVal ago) (arVal agr)
    (F.f T d).v = A T d ∧
    HasDerivAt (fun u => A T u) ((F.p T d).v / d ^ 2) d ∧
    HasDerivAt (fun u => A u d) (-(F.s T d).v) T ∧
    (F.e T d).v = (F.f T d).v + T * (F.s T d).v ∧
    (F.h T d).v = (F.e T d).v + (F.p T d).v / d ∧
    (F.g T d).v = (F.h T d).v - T * (F.s T d).v ∧
    HasDerivAt (fun u => (F.e u d).v) (F.cv T d) T ∧
    HasDerivAt (fun u => (F.s u d).v) (F.cv T d / T) T := by
  intro F A
  have hF := mended_isFluid R To dso To dsr hR hTo hdso hTo hdsr ago ho ho1 agr hr hB
  have h : InRange (mended (codeFluid R To dso To dsr ago agr) agr) {z : ℝ × ℝ | 0 < z.1 ∧ 0 < z.2}
      {z : ℝ × ℝ | (0 < z.1 ∧ 0 < z.2) ∧ OffCritical z.2} T d :=
    ⟨hT, hd, ⟨div_pos hTo hT, div_pos hd hdso⟩, ⟨div_pos hTo hT, div_pos hd hdsr⟩, hc⟩
  obtain ⟨a1, a2, a3⟩ := C50_pressure_entropy hF h
  obtain ⟨-, b2, b3⟩ := C50_combinations hF h
  obtain ⟨b4, b5⟩ := b3 rfl
  obtain ⟨c1, c2⟩ := C50_cv hF h
  exact ⟨a1, a2, a3, b4, b5, b2, c2 rfl, c1⟩

end PyroMat.Mp.Props
