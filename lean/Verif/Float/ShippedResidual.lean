import Verif.Float.PropsResidual
import Verif.Float.PolyExamples
import Verif.Shipped.MpFluid

/-!
# The pressures of the shipped substances in double precision
-/

set_option linter.unusedSimpArgs false

namespace PyroMat.Shipped

open PyroMat.Gas PyroMat.Mp PyroMat.Mp.Spec PyroMat.Shipped.Data PyroMat.Float PyroMat.Float.Spec PyroMat.Float.Props

/-- Not above `n` in magnitude. -/
def atMost (n : Int) (d : Dec) : Bool := decide (d.e ≤ 20) && decide (|sc20 d| ≤ n * 10 ^ 20)

theorem atMost_abs {n : Int} {d : Dec} (h : atMost n d = true) : |d.val| ≤ n := by
  simp only [atMost, Bool.and_eq_true, decide_eq_true_eq] at h
  rw [sc20_val h.1, abs_div, abs_of_pos (by positivity : (0 : ℝ) < 10 ^ 20), div_le_iff₀ (by positivity)]
  exact_mod_cast h.2

/-- A Gaussian row has moderate arguments for reduced densities up to 5 and reduced temperatures up to 3. -/
def rowOk (r : List Dec) : Bool :=
  atMost 3 (cof r 0) && atMost 3 (cof r 1) && decide ((cof r 2).e ≤ 20) && decide ((cof r 3).e ≤ 20) &&
    decide ((cof r 4).e ≤ 20) && decide ((cof r 5).e ≤ 20) &&
    decide (|sc20 (cof r 3)| * (5 * 10 ^ 20 + |sc20 (cof r 5)|) ^ 2 + |sc20 (cof r 2)| * (3 * 10 ^ 20 + |sc20 (cof r 4)|) ^ 2 ≤
      7000 * 10 ^ 60)

/-- The checks. -/
def okRound (f : MpFile) : Bool :=
  f.ar.coef0.all (fun gs => decide (gs.length ≤ 5) && gs.all fun g =>
    atMost 3 g.prex && atMost 3 g.postx && atMost 3 g.prey && atMost 3 g.posty &&
      g.terms.all fun t => decide (t.1 ≤ 50) && decide (t.2.1 ≤ 10)) &&
    f.ar.coef1.all rowOk && decide (f.ar.coef0.length ≤ 5) &&
    decide (roundings 50 10 5 3 7000 f.ar.coef0.length f.ar.coef1.length ≤ 950000) &&
    decide (f.dlim.2.e ≤ 20) && decide (f.ar.dscale.e ≤ 20) && decide (f.ar.Tscale.e ≤ 20) && decide (f.Tlim.1.e ≤ 20) &&
    decide (sc20 f.dlim.2 ≤ 5 * sc20 f.ar.dscale) && decide (sc20 f.ar.Tscale ≤ 3 * sc20 f.Tlim.1) &&
    decide (0 < f.Tlim.1.m)

theorem rounds_ok : shippedMp.all (fun f => !f.ar.coef2.isEmpty || okRound f) = true := by decide +kernel

/-- Exponentials rounded to 53 binary digits. -/
noncomputable def exp53 (x : ℝ) : ℝ := round53 (Real.exp x)

theorem exp53_exps : Exps (2 ^ (-53 : ℤ)) exp53 := fun _ => round53_within _

/-- The data are bounded and the state moderate. -/
theorem shipped_residual (f : MpFile) (hf : f ∈ shippedMp) (hw : f.id ≠ "mp.H2O") (hco : f.id ≠ "mp.CO2") (T d : ℝ)
    (hT : f.Tlim.1.val ≤ T) (hd : 0 < d) (hd' : d ≤ f.dlim.2.val) :
    0 < T ∧ f.ar.coef2 = [] ∧ Bounded f.ar.group.coef0 f.ar.group.coef1 50 10 5 3 ∧
      Moderate f.ar.group.coef0 f.ar.group.coef1 7000 (f.ar.Tscale.val / T) (d / f.ar.dscale.val) ∧
      roundings 50 10 5 3 7000 f.ar.group.coef0.length f.ar.group.coef1.length ≤ 950000 := by
  have h2 : f.ar.coef2 = [] := (analytic_iff f hf).mpr ⟨hco, hw⟩
  have hr := List.all_eq_true.mp rounds_ok f hf
  rw [h2] at hr
  simp only [List.isEmpty_nil, Bool.not_true, Bool.false_or, okRound, Bool.and_eq_true, decide_eq_true_eq] at hr
  obtain ⟨⟨⟨⟨⟨⟨⟨⟨⟨⟨r1, r2⟩, r3⟩, r4⟩, r5⟩, r6⟩, r7⟩, r8⟩, r9⟩, r10⟩, r11⟩ := hr
  have ok := fluidOk hf
  have hTs : 0 < f.ar.Tscale.val := by rw [ok.one]; exact ok.To
  have hT0 : 0 < T := (val_pos r11).trans_le hT
  have hdd0 : 0 < d / f.ar.dscale.val := div_pos hd ok.dsr
  have htt0 : 0 < f.ar.Tscale.val / T := div_pos hTs hT0
  have hdd : d / f.ar.dscale.val ≤ 5 := by
    rw [div_le_iff₀ ok.dsr]
    refine hd'.trans ?_
    rw [sc20_val r5, sc20_val r6, ← mul_div_assoc]
    have : ((sc20 f.dlim.2 : Int) : ℝ) ≤ 5 * (sc20 f.ar.dscale : Int) := by exact_mod_cast r9
    gcongr
  have htt : f.ar.Tscale.val / T ≤ 3 := by
    rw [div_le_iff₀ hT0]
    refine le_trans ?_ (mul_le_mul_of_nonneg_left hT (by norm_num))
    rw [sc20_val r7, sc20_val r8, ← mul_div_assoc]
    have : ((sc20 f.ar.Tscale : Int) : ℝ) ≤ 3 * (sc20 f.Tlim.1 : Int) := by exact_mod_cast r10
    gcongr
  have hlen0 : f.ar.group.coef0.length = f.ar.coef0.length := by simp [ArFile.group]
  have hlen1 : f.ar.group.coef1.length = f.ar.coef1.length := by simp [ArFile.group]
  have hgrp : ∀ gs ∈ f.ar.group.coef0, gs.length ≤ 5 ∧ ∀ g ∈ gs, ((|g.prex| ≤ 3 ∧ |g.postx| ≤ 3) ∧ |g.prey| ≤ 3 ∧ |g.posty| ≤ 3) ∧
      ∀ t ∈ g.terms, t.1 ≤ 50 ∧ t.2.1 ≤ 10 := by
    intro gs hgs
    simp only [ArFile.group, List.mem_map] at hgs
    obtain ⟨gs, hgs, rfl⟩ := hgs
    have h := List.all_eq_true.mp r1 gs hgs
    simp only [Bool.and_eq_true, decide_eq_true_eq] at h
    refine ⟨by simpa using h.1, ?_⟩
    intro q hq
    obtain ⟨g, hg, rfl⟩ := List.mem_map.mp hq
    have h := List.all_eq_true.mp h.2 g hg
    simp only [Bool.and_eq_true] at h
    obtain ⟨⟨⟨⟨a1, a2⟩, a3⟩, a4⟩, a5⟩ := h
    refine ⟨⟨⟨by exact_mod_cast atMost_abs a1, by exact_mod_cast atMost_abs a2⟩, by exact_mod_cast atMost_abs a3,
      by exact_mod_cast atMost_abs a4⟩, ?_⟩
    intro t ht
    simp only [G2.group, List.mem_map] at ht
    obtain ⟨t, ht, rfl⟩ := ht
    have h := List.all_eq_true.mp a5 t ht
    simpa using h
  have hrow : ∀ r ∈ f.ar.group.coef1, (|r.t| ≤ 3 ∧ |r.d| ≤ 3) ∧ |r.a| * (5 + |r.ep|) ^ 2 + |r.b| * (3 + |r.gam|) ^ 2 ≤ 7000 := by
    intro r hr
    simp only [ArFile.group, List.mem_map] at hr
    obtain ⟨r, hr, rfl⟩ := hr
    have h := List.all_eq_true.mp r2 r hr
    simp only [rowOk, Bool.and_eq_true, decide_eq_true_eq] at h
    obtain ⟨⟨⟨⟨⟨⟨a1, a2⟩, a3⟩, a4⟩, a5⟩, a6⟩, a7⟩ := h
    refine ⟨⟨by exact_mod_cast atMost_abs a1, by exact_mod_cast atMost_abs a2⟩, ?_⟩
    show |(cof r 3).val| * (5 + |(cof r 5).val|) ^ 2 + |(cof r 2).val| * (3 + |(cof r 4).val|) ^ 2 ≤ 7000
    rw [sc20_val a3, sc20_val a4, sc20_val a5, sc20_val a6]
    simp only [abs_div, abs_of_pos (by positivity : (0 : ℝ) < 10 ^ 20)]
    have h7 : ((|sc20 (cof r 3)| * (5 * 10 ^ 20 + |sc20 (cof r 5)|) ^ 2 +
        |sc20 (cof r 2)| * (3 * 10 ^ 20 + |sc20 (cof r 4)|) ^ 2 : Int) : ℝ) ≤ ((7000 * 10 ^ 60 : Int) : ℝ) := by
      exact_mod_cast a7
    push_cast at h7
    rw [← sub_nonneg]
    rw [← sub_nonneg] at h7
    refine le_of_mul_le_mul_right (a := (10 : ℝ) ^ 60) ?_ (by positivity)
    rw [zero_mul]
    refine h7.trans (le_of_eq ?_)
    ring
  have hb : Bounded f.ar.group.coef0 f.ar.group.coef1 50 10 5 3 :=
    ⟨ok.ar.some, ok.ar.sorted, ok.ar.pre, fun gs hgs g hg => ((hgrp gs hgs).2 g hg).2, fun gs hgs => (hgrp gs hgs).1,
      fun gs hgs g hg => by simpa using ((hgrp gs hgs).2 g hg).1, fun r hr => by simpa using (hrow r hr).1⟩
  have hm : Moderate f.ar.group.coef0 f.ar.group.coef1 7000 (f.ar.Tscale.val / T) (d / f.ar.dscale.val) := by
    refine ⟨?_, ?_⟩
    · intro k hk
      rw [hlen0] at hk
      have hk4 : k ≤ 4 := by omega
      calc (d / f.ar.dscale.val) ^ k ≤ 5 ^ k := pow_le_pow_left₀ hdd0.le hdd k
        _ ≤ 5 ^ 4 := pow_le_pow_right₀ (by norm_num) hk4
        _ ≤ ((7000 : ℕ) : ℝ) := by norm_num
    · intro r hr
      refine le_trans ?_ (by exact_mod_cast (hrow r hr).2)
      unfold gaussArg
      gcongr
  have hN : roundings 50 10 5 3 7000 f.ar.group.coef0.length f.ar.group.coef1.length ≤ 950000 := by
    rw [hlen0, hlen1]; exact r4
  exact ⟨hT0, h2, hb, hm, hN⟩

/-- **C113.** In double precision, for each shipped substance without non-analytic terms (all but water and carbon dioxide),
every temperature and density within its limits: the pressure evaluated at the density is the one of the documented
equation to within 1.1e-10 of the size of its terms. -/
theorem C113_shipped (f : MpFile) (hf : f ∈ shippedMp) (hw : f.id ≠ "mp.H2O") (hco : f.id ≠ "mp.CO2") (T d : ℝ)
    (hT : f.Tlim.1.val ≤ T) (hd : 0 < d) (hd' : d ≤ f.dlim.2.val) :
    ∃ p, pressure double pow53 exp53 f.R.val f.ar.Tscale.val f.ar.dscale.val f.ar.group.coef0 f.ar.group.coef1 T d = .ok p ∧
      |p - (f.sub.F.p T d).v| ≤ 1.1e-10 * (T * d * f.R.val * (1 + d / f.ar.dscale.val *
        arSizeD f.ar.group.coef0 f.ar.group.coef1 (f.ar.Tscale.val / T) (d / f.ar.dscale.val))) := by
  obtain ⟨hT0, h2, hb, hm, hN⟩ := shipped_residual f hf hw hco T d hT hd hd'
  have ok := fluidOk hf
  have hTs : 0 < f.ar.Tscale.val := by rw [ok.one]; exact ok.To
  have hdd0 : 0 < d / f.ar.dscale.val := div_pos hd ok.dsr
  have htt0 : 0 < f.ar.Tscale.val / T := div_pos hTs hT0
  have hNr : ((roundings 50 10 5 3 7000 f.ar.group.coef0.length f.ar.group.coef1.length : ℕ) : ℝ) ≤ 950000 := by
    exact_mod_cast hN
  have he : (2 : ℝ) ^ (-53 : ℤ) ≤ 1.1103e-16 := by norm_num [zpow_neg]
  have he0 : (0 : ℝ) ≤ 2 ^ (-53 : ℤ) := by positivity
  obtain ⟨p, hp, h⟩ := C113_pressure he0 double_accurate pow53_powers exp53_exps f.R.val T d f.ar.Tscale.val f.ar.dscale.val
    ok.R hT0 hd hTs ok.dsr f.ar.group.coef0 f.ar.group.coef1 50 10 5 3 7000 _ hb hm rfl (by nlinarith)
  refine ⟨p, hp, ?_⟩
  have hg : f.ar.group = ⟨f.ar.group.coef0, f.ar.group.coef1, []⟩ := by simp [ArFile.group, h2]
  have hv : (f.sub.F.p T d).v = T * d * f.R.val * (1 + d / f.ar.dscale.val *
      deriv (fun s => arVal ⟨f.ar.group.coef0, f.ar.group.coef1, []⟩ (f.ar.Tscale.val / T) s) (d / f.ar.dscale.val)) := by
    rw [← hg]
    have hi := Mp.Props.arF_is f.ar.group ok.ar ok.B htt0 hdd0 (by rw [hg]; simp)
    rw [hi.dy.deriv]
    have ha := Mp.Props.arAt_eq f.ar.group ok.ar.some ok.ar.sorted [(f.ar.Tscale.val / T, d / f.ar.dscale.val)]
      (f.ar.Tscale.val / T) (d / f.ar.dscale.val)
    show T * d * f.R.val * (1 + d / f.ar.dscale.val *
      (orZero (arAt f.ar.group 2 [(f.ar.Tscale.val / T, d / f.ar.dscale.val)] (f.ar.Tscale.val / T) (d / f.ar.dscale.val))).py) = _
    rw [ha]
    have e2 : f.ar.group.coef2 = [] := by rw [hg]
    simp [orZero, Mp.Props.arF, e2]
  rw [hv]
  refine h.trans (mul_le_mul_of_nonneg_right ?_ ?_)
  · nlinarith
  · have hN1 : 1 ≤ roundings 50 10 5 3 7000 f.ar.group.coef0.length f.ar.group.coef1.length := by unfold roundings; omega
    have hN1 : (1 : ℝ) ≤ (roundings 50 10 5 3 7000 f.ar.group.coef0.length f.ar.group.coef1.length : ℕ) := by exact_mod_cast hN1
    exact nonneg_of_mul_nonneg_right ((abs_nonneg _).trans h) (by positivity)

end PyroMat.Shipped
