import Verif.Shipped.PropsMp
import Verif.Shipped.MpDilute
import Verif.Shipped.SpecDilute

/-!
# The shipped multi-phase substances at vanishing density (C101)
-/

set_option linter.unusedSimpArgs false

namespace PyroMat.Shipped.Props

open PyroMat.Gas.Props (size_lookup exOk)
open PyroMat PyroMat.Units PyroMat.Units.Spec PyroMat.Units.Props PyroMat.Gas PyroMat.Gas.Spec PyroMat.Mp
  PyroMat.Mp.Spec PyroMat.Mp.Props PyroMat.Shipped PyroMat.Shipped.Data PyroMat.Shipped.Spec Filter Topology

/-- **C101**, gas constant.  The gas constant of a shipped multi-phase substance, per kg, is the universal one over
its molecular weight to the relative accuracy 10⁻⁶. -/
theorem C101_gas_constant (f : MpFile) (hf : f ∈ shippedMp) :
    |f.sub.F.R * f.sub.mw / (1000 * const_Ru) - 1| ≤ 1e-6 := by
  show |f.R.val * f.mw.val / (1000 * const_Ru) - 1| ≤ 1e-6
  simp only [shippedMp, List.mem_cons, List.not_mem_nil, or_false] at hf
  rcases hf with rfl | rfl | rfl | rfl | rfl | rfl | rfl <;>
    norm_num [C2H2F4, C3H2F41, CH4, CO2, H2O, N2, O2, Dec.val, Dec.p, const_Ru, const_k, const_Na, abs_le]

theorem eventually_zero {P : ℝ → Prop} (h : ∀ᶠ y in 𝓝[>] (0 : ℝ), P y) : ∃ δ, 0 < δ ∧ ∀ y, 0 < y → y < δ → P y := by
  obtain ⟨δ, h0, h1⟩ := mem_nhdsGT_iff_exists_Ioo_subset.mp h
  exact ⟨δ, h0, fun y a b => h1 ⟨a, b⟩⟩

theorem near_of {F : ℝ → ℝ} {l ε : ℝ} (h : Tendsto F (𝓝[>] 0) (𝓝 l)) (hε : 0 < ε) : ∀ᶠ d in 𝓝[>] 0, Near ε (F d) l := by
  filter_upwards [(Metric.tendsto_nhds.mp h) ε hε] with d hd
  rw [Real.dist_eq] at hd
  exact hd.le

section

variable {f : MpFile} (hf : f ∈ shippedMp) {E : Env} {U : Sys} (hU : Uses E U)
include hf hU

theorem density_zero : Tendsto (fun y => internalKg E.a U f.sub.mw .density y) (𝓝[>] 0) (𝓝[>] 0) := by
  have hmw : 0 < f.sub.mw := (facts hf).mw
  have h1 := PyroMat.Gas.Props.msize_pos hU hmw
  have h3 : 0 < size (volume : Conv ℝ) U.v :=
    C04_factors_positive E.a hU.pos _ (by simp [allConvs]) _ (lookup_mem (size_lookup hU hU.valid.v))
  have e : ∀ y, internalKg E.a U f.sub.mw .density y = y / (size (volume : Conv ℝ) U.v / msize E.a f.sub.mw U.m / f.sub.mw) := by
    intro y
    simp only [internalKg, perKg, internal]
    field_simp
  simp only [e]
  exact scale_zero (by positivity)

end

/-- **C101.**  For every shipped multi-phase substance there are three functions of temperature — an energy, an
entropy and a heat capacity, the slope of the energy and `T` times the slope of the entropy, at least twice the
gas constant — such that in every unit system, at every temperature strictly inside the limits and to any
accuracy, the methods called with that temperature and any small enough positive density answer as the ideal gas
with these functions does. -/
theorem C101_ideal_gas_limit (f : MpFile) (hf : f ∈ shippedMp) :
    ∃ e s c : ℝ → ℝ,
      (∀ T, 0 < T → HasDerivAt e (c T) T ∧ HasDerivAt s (c T / T) T) ∧
      (∀ T, f.sub.Tlo ≤ T → T ≤ f.sub.Thi → 2 * f.sub.F.R ≤ c T) ∧
      ∀ (E : Env) (U : Sys) (_ : Uses E U) (l sec : String) (_ : SpeedUnits E l sec) (S : Sol) (t : ℝ),
        f.sub.Tlo < toKelvin U.T.name t → toKelvin U.T.name t < f.sub.Thi → ∀ ε, 0 < ε →
          ∃ δ, 0 < δ ∧ ∀ y, 0 < y → y < δ → IdealGasWithin E U l sec f.sub S f.sub.F.R ε
            (e (toKelvin U.T.name t)) (s (toKelvin U.T.name t)) (c (toKelvin U.T.name t)) t y := by
  have D := diluteFluid hf
  have F := facts hf
  have hmw : f.sub.mw ≠ 0 := F.mw.ne'
  have eF : f.sub.F = _ := sub_fluid hf
  have eR : f.sub.F.R = f.R.val := by rw [eF]; rfl
  rw [eR]
  set To := f.ao.Tscale.val with hTo
  set q := idealF f.ao.group f.ar.group with hq
  refine ⟨fun T => f.R.val * To * (q (To / T)).px,
    fun T => f.R.val * (To / T * (q (To / T)).px - (q (To / T)).p + Real.log f.ao.dscale.val),
    fun T => -f.R.val * (To / T * (To / T) * (q (To / T)).pxx), fun T hT => fluid_dilute_slopes D hT, ?_, ?_⟩
  · intro T hlo hhi
    have := cap_shipped hf hlo hhi
    have hR := D.R
    nlinarith
  · intro E U hU l sec hs S t hlo hhi ε hε
    have hT : 0 < toKelvin U.T.name t := F.Tlo.trans hlo
    set T := toKelvin U.T.name t with eT
    have hc : -f.R.val * (To / T * (To / T) * (q (To / T)).pxx) ≠ 0 := by
      have := cap_shipped hf hlo.le hhi.le
      have hR := D.R
      nlinarith
    obtain ⟨l1, l2, l3, l4, l5, l6, l7⟩ := fluid_dilute D hT
    have l7 := l7 hc
    rw [← eF] at l1 l2 l3 l4 l5 l6 l7
    have off : ∀ᶠ d in 𝓝[>] 0, satTD f.sub (satDensStrict f.sub) (some T) d = none := by
      by_cases hTc : T < f.sub.Tc
      · have hv : 0 < f.sub.dsv T := dsv_pos hf hTc.le
        filter_upwards [nhdsWithin_le_nhds (eventually_lt_nhds hv)] with d hd
        simp only [satTD, Option.bind_some, satDensStrict]
        rw [if_neg (c := _ < f.sub.dsl T ∧ _) (fun h => absurd h.2 (not_lt.mpr hd.le))]
        simp
      · exact Eventually.of_forall fun d => by simp only [satTD, Option.bind_some, if_neg hTc]
    have all := (density_zero hf hU).eventually ((near_of l1 hε).and ((near_of l2 hε).and ((near_of l3 hε).and
      ((near_of l4 hε).and ((near_of l5 hε).and ((near_of l6 hε).and ((near_of l7 hε).and off)))))))
    obtain ⟨δ, h0, h1⟩ := eventually_zero all
    refine ⟨δ, h0, fun y hy hy' => ?_⟩
    obtain ⟨n1, n2, n3, n4, n5, n6, n7, hn⟩ := h1 y hy hy'
    obtain ⟨o1, o2, hr⟩ := td_call E U hU f.sub hmw S (y := y) hlo hhi
    rw [← eT, hn] at hr
    have back : ∀ (k : Kind) (x : ℝ), internalKg E.a U f.sub.mw k (inUnitsKg E.a U f.sub.mw k x) = x :=
      fun k x => internalKg_inUnitsKg hU hmw k x
    set d := internalKg E.a U f.sub.mw .density y with ed
    refine ⟨inUnitsKg E.a U f.sub.mw .pressure (f.sub.F.p T d).v, inUnitsKg E.a U f.sub.mw .energy (f.sub.F.e T d).v,
      inUnitsKg E.a U f.sub.mw .energy (f.sub.F.h T d).v, inUnitsKg E.a U f.sub.mw .entropy (f.sub.F.s T d).v,
      inUnitsKg E.a U f.sub.mw .entropy (f.sub.F.cv T d), inUnitsKg E.a U f.sub.mw .entropy (f.sub.F.cp T d),
      f.sub.F.a T d / size length l * size time sec, ?_, ?_, ?_, ?_, ?_, ?_, ?_, ?_, ?_, ?_, ?_, ?_, ?_, ?_⟩
    · exact (gives_iff hU hmw hr (by simp) (i := 0) rfl _).mpr rfl
    · rw [back]; exact n1
    · exact (gives_iff hU hmw hr (by simp) (i := 0) rfl _).mpr rfl
    · rw [back]; exact n2
    · exact (gives_iff hU hmw hr (by simp) (i := 0) rfl _).mpr rfl
    · rw [back]; exact n3
    · exact (gives_iff hU hmw hr (by simp) (i := 0) rfl _).mpr rfl
    · rw [back]
      unfold Near at n4 ⊢
      rwa [show (f.sub.F.s T d).v - (f.R.val * (To / T * (q (To / T)).px - (q (To / T)).p + Real.log f.ao.dscale.val)
        - f.R.val * Real.log d) = (f.sub.F.s T d).v + f.R.val * Real.log d
          - f.R.val * (To / T * (q (To / T)).px - (q (To / T)).p + Real.log f.ao.dscale.val) by ring]
    · exact cv_gives E U hU f.sub hmw S hr rfl
    · rw [back]; exact n5
    · rw [mpCp_eq hU hmw, hr, exOk]
      rfl
    · rw [back]; exact n6
    · unfold mpA
      rw [hr, exOk, convOut_speed hU hs]
      rfl
    · rw [siSpeed_out E U hU f.sub hmw hs]
      have : (-f.R.val * (To / T * (To / T) * (q (To / T)).pxx) + f.R.val) / (-f.R.val * (To / T * (To / T) * (q (To / T)).pxx))
        = 1 + f.R.val / (-f.R.val * (To / T * (To / T) * (q (To / T)).pxx)) := by
        rw [add_div, div_self hc]
      unfold Near at n7 ⊢
      dsimp only
      rwa [this]

/-- **C101**, stability.  At every temperature within the limits and every small enough positive density, pressure
rises with density and entropy with temperature: the hypotheses of `C98_cp` and `C98_sound` are met there. -/
theorem C101_stable (f : MpFile) (hf : f ∈ shippedMp) (T : ℝ) (hlo : f.sub.Tlo ≤ T) (hhi : T ≤ f.sub.Thi) :
    ∃ δ, 0 < δ ∧ ∀ d, 0 < d → d < δ → 0 < (f.sub.F.p T d).vd ∧ 0 < (f.sub.F.s T d).vT := by
  have D := diluteFluid hf
  have hT : 0 < T := (facts hf).Tlo.trans_le hlo
  have hR := D.R
  obtain ⟨h1, h2⟩ := fluid_dilute_partials D hT
  rw [← sub_fluid hf] at h1 h2
  have hc : 0 < -f.R.val * (f.ao.Tscale.val / T * (f.ao.Tscale.val / T) *
      (idealF f.ao.group f.ar.group (f.ao.Tscale.val / T)).pxx) / T := by
    have := cap_shipped hf hlo hhi
    refine div_pos ?_ hT
    nlinarith
  exact eventually_zero ((h1.eventually (eventually_gt_nhds (mul_pos hR hT))).and (h2.eventually (eventually_gt_nhds hc)))

end PyroMat.Shipped.Props
