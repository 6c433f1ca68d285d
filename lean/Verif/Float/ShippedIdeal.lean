import Verif.Float.PropsIdeal
import Verif.Float.ShippedResidual

/-!
# The energies and entropies of the shipped substances in double precision
-/

set_option linter.unusedSimpArgs false

namespace PyroMat.Shipped

open PyroMat.Gas PyroMat.Mp PyroMat.Mp.Spec PyroMat.Shipped.Data PyroMat.Float PyroMat.Float.Spec PyroMat.Float.Props

/-- The checks: polynomials, and arguments of exponentials between 1 and 170 within the temperature limits. -/
def okIdeal (f : MpFile) : Bool :=
  decide ((f.ao.coef0.getD []).length ≤ 1) &&
    (f.ao.coef0.getD []).all (fun g => atMost 3 g.pre && atMost 3 g.post && g.terms.all fun t => decide (t.1 ≤ 7)) &&
    decide (f.ao.Tscale.e ≤ 20) && decide (f.Tlim.1.e ≤ 20) && decide (f.Tlim.2.e ≤ 20) &&
    f.ao.coef1.all (fun r => decide (r.1.e ≤ 20) &&
      decide (sc20 r.1 * sc20 f.ao.Tscale ≤ 170 * 10 ^ 20 * sc20 f.Tlim.1) &&
      decide (10 ^ 20 * sc20 f.Tlim.2 ≤ sc20 r.1 * sc20 f.ao.Tscale)) &&
    decide (idealRoundings 7 1 3 170 3 f.ao.coef1.length ≤ 10000)

theorem ideals_ok : shippedMp.all (fun f => !f.ar.coef2.isEmpty || okIdeal f) = true := by decide +kernel

theorem group_getD (a : AoFile) : a.group.coef0.getD [] = (a.coef0.getD []).map G1.group := by
  unfold AoFile.group
  cases a.coef0 <;> rfl

/-- The ideal data are tame. -/
theorem shipped_ideal (f : MpFile) (hf : f ∈ shippedMp) (h2 : f.ar.coef2 = []) (T : ℝ) (hT0 : 0 < T) (hT : f.Tlim.1.val ≤ T)
    (hT' : T ≤ f.Tlim.2.val) :
    Tame f.ao.group 7 1 3 170 3 (f.ao.Tscale.val / T) ∧ idealRoundings 7 1 3 170 3 f.ao.group.coef1.length ≤ 10000 := by
  have hr := List.all_eq_true.mp ideals_ok f hf
  rw [h2] at hr
  simp only [List.isEmpty_nil, Bool.not_true, Bool.false_or, okIdeal, Bool.and_eq_true, decide_eq_true_eq] at hr
  obtain ⟨⟨⟨⟨⟨⟨r1, r2⟩, r3⟩, r4⟩, r5⟩, r6⟩, r7⟩ := hr
  have ok := fluidOk hf
  have hgrp : ∀ q ∈ f.ao.group.coef0.getD [], (|q.pre| ≤ 3 ∧ |q.post| ≤ 3) ∧ ∀ u ∈ q.terms, u.1 ≤ 7 := by
    intro q hq
    rw [group_getD, List.mem_map] at hq
    obtain ⟨g, hg, rfl⟩ := hq
    have h := List.all_eq_true.mp r2 g hg
    simp only [Bool.and_eq_true] at h
    refine ⟨⟨by exact_mod_cast atMost_abs h.1.1, by exact_mod_cast atMost_abs h.1.2⟩, ?_⟩
    intro t ht
    simp only [G1.group, List.mem_map] at ht
    obtain ⟨t, ht, rfl⟩ := ht
    simpa using List.all_eq_true.mp h.2 t ht
  have hrow : ∀ r ∈ f.ao.group.coef1, r.1 * (f.ao.Tscale.val / T) ≤ 170 ∧ 1 ≤ r.1 * (f.ao.Tscale.val / T) := by
    intro r hr
    simp only [AoFile.group, List.mem_map] at hr
    obtain ⟨r, hr, rfl⟩ := hr
    have h := List.all_eq_true.mp r6 r hr
    simp only [Bool.and_eq_true, decide_eq_true_eq] at h
    obtain ⟨⟨e1, e2⟩, e3⟩ := h
    simp only [← mul_div_assoc]
    rw [div_le_iff₀ hT0, le_div_iff₀ hT0, one_mul]
    have e2' : ((sc20 r.1 * sc20 f.ao.Tscale : Int) : ℝ) ≤ ((170 * 10 ^ 20 * sc20 f.Tlim.1 : Int) : ℝ) := by exact_mod_cast e2
    have e3' : ((10 ^ 20 * sc20 f.Tlim.2 : Int) : ℝ) ≤ ((sc20 r.1 * sc20 f.ao.Tscale : Int) : ℝ) := by exact_mod_cast e3
    push_cast at e2' e3'
    have p : (0 : ℝ) < 10 ^ 20 := by positivity
    constructor
    · refine le_trans ?_ (mul_le_mul_of_nonneg_left hT (by norm_num))
      rw [sc20_val e1, sc20_val r3, sc20_val r4, div_mul_div_comm, div_le_iff₀ (by positivity)]
      refine e2'.trans (le_of_eq ?_)
      field_simp
      ring
    · refine hT'.trans ?_
      rw [sc20_val e1, sc20_val r3, sc20_val r5, div_mul_div_comm, le_div_iff₀ (by positivity)]
      refine le_trans (le_of_eq ?_) e3'
      field_simp
      ring
  refine ⟨⟨ok.ao0, fun q hq => (hgrp q hq).2, ?_, fun q hq => by simpa using (hgrp q hq).1, ok.ao1, fun r hr => by
    simpa using (hrow r hr).1, ?_⟩, by simpa [AoFile.group] using r7⟩
  · rw [group_getD, List.length_map]; exact r1
  · intro r hr
    have h1 := (hrow r hr).2
    have he : Real.exp (-r.1 * (f.ao.Tscale.val / T)) ≤ 1 / 2 := by
      rw [neg_mul, Real.exp_neg, inv_le_comm₀ (Real.exp_pos _) (by norm_num)]
      have := Real.add_one_le_exp (r.1 * (f.ao.Tscale.val / T))
      norm_num
      linarith
    push_cast
    linarith

/-- **C114.** In double precision, for each shipped substance without non-analytic terms (all but water and carbon dioxide),
every temperature and density within its limits: internal energy, enthalpy, entropy, free energy and Gibbs energy are those of
the documented equation to within 1.1e-10 of the sizes of their terms. -/
theorem C114_shipped (f : MpFile) (hf : f ∈ shippedMp) (hw : f.id ≠ "mp.H2O") (hco : f.id ≠ "mp.CO2") (T d : ℝ)
    (hT : f.Tlim.1.val ≤ T) (hT' : T ≤ f.Tlim.2.val) (hd : 0 < d) (hd' : d ≤ f.dlim.2.val) :
    let S := partsAt f.ao.Tscale.val f.ao.dscale.val f.ar.Tscale.val f.ar.dscale.val f.ao.group f.ar.group.coef0 f.ar.group.coef1 T d
    ∃ s, start double pow53 exp53 f.ao.Tscale.val f.ao.dscale.val f.ar.Tscale.val f.ar.dscale.val f.ao.group f.ar.group.coef0
        f.ar.group.coef1 T d = .ok s ∧
      |energy double f.R.val f.ar.Tscale.val s - (f.sub.F.e T d).v| ≤ 1.1e-10 * S.e f.R.val f.ar.Tscale.val ∧
      |enthalpy double f.R.val T s - (f.sub.F.h T d).v| ≤ 1.1e-10 * S.h f.R.val T ∧
      |entropy double f.R.val s - (f.sub.F.s T d).v| ≤ 1.1e-10 * S.s f.R.val ∧
      |freeEnergy double f.R.val T s - (f.sub.F.f T d).v| ≤ 1.1e-10 * S.f f.R.val T ∧
      |gibbs double f.R.val T s - (f.sub.F.g T d).v| ≤ 1.1e-10 * S.g f.R.val T := by
  obtain ⟨hT0, h2, hb, hm, hN⟩ := shipped_residual f hf hw hco T d hT hd hd'
  obtain ⟨hg, hN'⟩ := shipped_ideal f hf h2 T hT0 hT hT'
  have ok := fluidOk hf
  have hTs : 0 < f.ar.Tscale.val := by rw [ok.one]; exact ok.To
  have he : (2 : ℝ) ^ (-53 : ℤ) ≤ 1.1103e-16 := by norm_num [zpow_neg]
  have he0 : (0 : ℝ) ≤ 2 ^ (-53 : ℤ) := by positivity
  set N := idealRoundings 7 1 3 170 3 f.ao.group.coef1.length +
    roundings 50 10 5 3 7000 f.ar.group.coef0.length f.ar.group.coef1.length with hNd
  have hNr : (N : ℝ) ≤ 960000 := by exact_mod_cast (by omega : N ≤ 960000)
  have hN1 : (1 : ℝ) ≤ N := by
    have : 1 ≤ N := by rw [hNd]; unfold roundings; omega
    exact_mod_cast this
  obtain ⟨s, hs, a, b, c, e, g⟩ := C114_energies he0 double_accurate pow53_powers exp53_exps f.R.val T d f.ao.Tscale.val
    f.ao.dscale.val f.ar.Tscale.val f.ar.dscale.val ok.R hT0 hd ok.To ok.dso hTs ok.dsr f.ao.group f.ar.group.coef0
    f.ar.group.coef1 7 1 3 170 3 50 10 5 3 7000 N hg hb hm rfl (by nlinarith)
  have hF : f.sub.F = codeFluid f.R.val f.ao.Tscale.val f.ao.dscale.val f.ar.Tscale.val f.ar.dscale.val f.ao.group
      ⟨f.ar.group.coef0, f.ar.group.coef1, []⟩ := by
    show codeFluid _ _ _ _ _ _ _ = _
    congr 1
    simp [ArFile.group, h2]
  rw [← hF] at a b c e g
  have cut : ∀ {x S : ℝ}, |x| ≤ 1.01 * N * 2 ^ (-53 : ℤ) * S → |x| ≤ 1.1e-10 * S := by
    intro x S h
    have S0 : 0 ≤ S := nonneg_of_mul_nonneg_right ((abs_nonneg _).trans h) (by positivity)
    exact h.trans (mul_le_mul_of_nonneg_right (by nlinarith) S0)
  exact ⟨s, hs, cut a, cut b, cut c, cut e, cut g⟩

end PyroMat.Shipped
