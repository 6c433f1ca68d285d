import Mathlib.Analysis.Calculus.ImplicitFunction.ProdDomain
import Mathlib.Analysis.Calculus.ContDiff.RCLike
import Mathlib.Analysis.SpecialFunctions.Log.Deriv
import Verif.Mp.PropsCv
import Verif.Mp.PropsUnits
import Verif.Mp.SpecHeat

/-!
# C75: heat capacity at constant pressure, heat capacity ratio and speed of sound
-/

set_option linter.unusedSimpArgs false

namespace PyroMat.Mp.Props

open PyroMat PyroMat.Units PyroMat.Units.Spec PyroMat.Units.Props PyroMat.Gas PyroMat.Gas.Spec
open PyroMat.Gas.Props PyroMat.Mp PyroMat.Mp.Spec PyroMat.Config.Defaults Filter Topology

/-! ## Differentiability in both variables -/

theorem right_diff {U : Set (ℝ × ℝ)} {V : ℝ → ℝ → ℝ} {F : ℝ → ℝ → J6} (h : Right U V F)
    (hs : ContDiffOn ℝ 2 (fun z : ℝ × ℝ => V z.1 z.2) U) {x y : ℝ} (hxy : (x, y) ∈ U) :
    DifferentiableAt ℝ (fun z : ℝ × ℝ => (F z.1 z.2).p) (x, y) ∧
    DifferentiableAt ℝ (fun z : ℝ × ℝ => (F z.1 z.2).px) (x, y) ∧
    DifferentiableAt ℝ (fun z : ℝ × ℝ => (F z.1 z.2).py) (x, y) := by
  let W : ℝ × ℝ → ℝ := fun z => V z.1 z.2
  have hd : ∀ z ∈ U, DifferentiableAt ℝ W z := fun z hz =>
    (hs.differentiableOn (by norm_num) z hz).differentiableAt (h.isOpen.mem_nhds hz)
  have nb : ∀ᶠ z in 𝓝 (x, y), z ∈ U := h.isOpen.mem_nhds hxy
  refine ⟨(hd _ hxy).congr_of_eventuallyEq (nb.mono fun z hz => (h.is z.1 z.2 hz).val),
    (px_fderiv h hs hxy).differentiableAt, ?_⟩
  have ey : ∀ a b : ℝ, HasFDerivAt (fun s : ℝ => (a, s)) (ContinuousLinearMap.inr ℝ ℝ ℝ) b := fun a b => by
    have h1 : HasFDerivAt (fun s : ℝ => s) (ContinuousLinearMap.id ℝ ℝ) b := hasFDerivAt_id b
    have h2 : HasFDerivAt (fun _ : ℝ => a) (0 : ℝ →L[ℝ] ℝ) b := hasFDerivAt_const a b
    exact h2.prodMk h1
  have hpy : ∀ z ∈ U, (F z.1 z.2).py = fderiv ℝ W z (0, 1) := by
    rintro ⟨a, b⟩ hz
    have h1 := (h.is a b hz).dy
    have h2 := (HasFDerivAt.comp b (hd _ hz).hasFDerivAt (ey a b)).hasDerivAt
    have := h1.unique h2
    simpa using this
  have hdd : DifferentiableAt ℝ (fun z => fderiv ℝ W z (0, 1)) (x, y) := by
    have := ((hs.fderiv_of_isOpen h.isOpen (m := 1) (by norm_num)).differentiableOn (by norm_num) _ hxy).differentiableAt
      (h.isOpen.mem_nhds hxy)
    exact this.clm_apply (differentiableAt_const _)
  exact hdd.congr_of_eventuallyEq (nb.mono hpy)

section
variable {F : Fluid} {Vo Vr : ℝ → ℝ → ℝ} {phi : ℝ → ℝ} {Uo U : Set (ℝ × ℝ)}

theorem ideal_diff (hF : IsFluid F Vo Vr phi Uo U) {x y : ℝ} (hy : 0 < y) (h : (x, y) ∈ Uo) :
    DifferentiableAt ℝ (fun z : ℝ × ℝ => (F.o z.1 z.2).p) (x, y) ∧
    DifferentiableAt ℝ (fun z : ℝ × ℝ => (F.o z.1 z.2).px) (x, y) := by
  have hphi : ∀ x y, (x, y) ∈ Uo → 0 < y → HasDerivAt phi (F.o x y).px x := by
    intro x y hxy hy
    have h1 := (hF.o.is x y hxy).dx
    have : (fun s => Vo s y) = fun s => Real.log y + phi s := funext fun s => hF.ideal s y hy
    rw [this] at h1
    simpa using h1.sub_const (Real.log y) |>.congr_of_eventuallyEq (Eventually.of_forall fun s => by simp)
  have nb : ∀ᶠ z in 𝓝 (x, y), z ∈ Uo ∧ 0 < z.2 := by
    have a1 : ∀ᶠ z in 𝓝 (x, y), z ∈ Uo := hF.o.isOpen.mem_nhds h
    have a2 : ∀ᶠ z : ℝ × ℝ in 𝓝 (x, y), 0 < z.2 := continuousAt_snd.eventually (eventually_gt_nhds hy)
    exact a1.and a2
  constructor
  · have h1 : DifferentiableAt ℝ (fun z : ℝ × ℝ => Real.log z.2 + phi z.1) (x, y) :=
      (differentiableAt_snd.log hy.ne').add ((hphi x y h hy).differentiableAt.comp (x, y) differentiableAt_fst)
    refine h1.congr_of_eventuallyEq (nb.mono fun z hz => ?_)
    show (F.o z.1 z.2).p = _
    rw [(hF.o.is z.1 z.2 hz.1).val, hF.ideal _ _ hz.2]
  · have h2 : HasDerivAt (deriv phi) (F.o x y).pxx x := by
      have h1 := (hF.o.is _ _ h).dxx
      refine h1.congr_of_eventuallyEq ?_
      have : (fun s => Vo s y) = fun s => Real.log y + phi s := funext fun s => hF.ideal s _ hy
      rw [this]
      exact Eventually.of_forall fun s => by simp [deriv_const_add]
    have h3 : DifferentiableAt ℝ (fun z : ℝ × ℝ => deriv phi z.1) (x, y) :=
      DifferentiableAt.comp (g := deriv phi) (x, y) h2.differentiableAt differentiableAt_fst
    exact h3.congr_of_eventuallyEq (nb.mono fun z hz => ((hphi _ _ hz.1 hz.2).deriv).symm)

/-- Pressure, enthalpy and entropy are differentiable functions of temperature and density together. -/
theorem fluid_diff (hF : IsFluid F Vo Vr phi Uo U) (hs : ContDiffOn ℝ 2 (fun z : ℝ × ℝ => Vr z.1 z.2) U)
    {T d : ℝ} (h : InRange F Uo U T d) :
    DifferentiableAt ℝ (fun z : ℝ × ℝ => (F.p z.1 z.2).v) (T, d) ∧
    DifferentiableAt ℝ (fun z : ℝ × ℝ => (F.h z.1 z.2).v) (T, d) ∧
    DifferentiableAt ℝ (fun z : ℝ × ℝ => (F.s z.1 z.2).v) (T, d) := by
  have hT : (T, d).1 ≠ 0 := h.Tpos.ne'
  have hdo : 0 < d / F.dso := div_pos h.dpos hF.dso
  have dT : DifferentiableAt ℝ (fun z : ℝ × ℝ => z.1) (T, d) := differentiableAt_fst
  have dd : DifferentiableAt ℝ (fun z : ℝ × ℝ => z.2) (T, d) := differentiableAt_snd
  have tt : ∀ a : ℝ, DifferentiableAt ℝ (fun z : ℝ × ℝ => a / z.1) (T, d) := fun a => by
    have h1 : DifferentiableAt ℝ (fun u : ℝ => a / u) T := by
      have h2 : DifferentiableAt ℝ (fun _ : ℝ => a) T := differentiableAt_const a
      have h3 : DifferentiableAt ℝ (fun u : ℝ => u) T := differentiableAt_id
      exact h2.div h3 hT
    exact DifferentiableAt.comp (g := fun u : ℝ => a / u) (T, d) h1 dT
  have dc : ∀ a : ℝ, DifferentiableAt ℝ (fun z : ℝ × ℝ => z.2 / a) (T, d) := fun a => by
    simp only [div_eq_mul_inv]; exact dd.mul_const _
  have co : DifferentiableAt ℝ (fun z : ℝ × ℝ => (F.To / z.1, z.2 / F.dso)) (T, d) := (tt _).prodMk (dc _)
  have cr : DifferentiableAt ℝ (fun z : ℝ × ℝ => (F.Tr / z.1, z.2 / F.dsr)) (T, d) := (tt _).prodMk (dc _)
  obtain ⟨o1, o2⟩ := ideal_diff hF hdo h.o
  obtain ⟨r1, r2, r3⟩ := right_diff hF.r hs h.r
  have a1 : DifferentiableAt ℝ (fun z : ℝ × ℝ => (F.ao z.1 z.2).p) (T, d) :=
    DifferentiableAt.comp (g := fun z : ℝ × ℝ => (F.o z.1 z.2).p) (T, d) o1 co
  have a2 : DifferentiableAt ℝ (fun z : ℝ × ℝ => (F.ao z.1 z.2).px) (T, d) :=
    DifferentiableAt.comp (g := fun z : ℝ × ℝ => (F.o z.1 z.2).px) (T, d) o2 co
  have b1 : DifferentiableAt ℝ (fun z : ℝ × ℝ => (F.ar z.1 z.2).p) (T, d) :=
    DifferentiableAt.comp (g := fun z : ℝ × ℝ => (F.r z.1 z.2).p) (T, d) r1 cr
  have b2 : DifferentiableAt ℝ (fun z : ℝ × ℝ => (F.ar z.1 z.2).px) (T, d) :=
    DifferentiableAt.comp (g := fun z : ℝ × ℝ => (F.r z.1 z.2).px) (T, d) r2 cr
  have b3 : DifferentiableAt ℝ (fun z : ℝ × ℝ => (F.ar z.1 z.2).py) (T, d) :=
    DifferentiableAt.comp (g := fun z : ℝ × ℝ => (F.r z.1 z.2).py) (T, d) r3 cr
  have hd' : DifferentiableAt ℝ (fun z : ℝ × ℝ => z.2 / F.dsr) (T, d) := dc _
  refine ⟨?_, ?_, ?_⟩
  · exact ((dT.mul dd).mul_const F.R).mul ((hd'.mul b3).const_add 1)
  · exact ((((tt F.To).mul a2).const_add 1).add ((hd'.mul b3).add ((tt F.Tr).mul b2))).mul (dT.const_mul F.R)
  · exact ((((tt F.To).mul a2).sub a1).add (((tt F.Tr).mul b2).sub b1)).mul_const F.R

/-- The derivative along a curve. -/
theorem along {G : ℝ → ℝ → Q3} {T d : ℝ → ℝ} {T' d' u : ℝ}
    (hG : DifferentiableAt ℝ (fun z : ℝ × ℝ => (G z.1 z.2).v) (T u, d u)) (hp : HasPartials G (T u) (d u))
    (hT : HasDerivAt T T' u) (hd : HasDerivAt d d' u) :
    HasDerivAt (fun w => (G (T w) (d w)).v) ((G (T u) (d u)).vT * T' + (G (T u) (d u)).vd * d') u := by
  have hL := hG.hasFDerivAt
  generalize fderiv ℝ (fun z : ℝ × ℝ => (G z.1 z.2).v) (T u, d u) = L at hL
  have ex : HasFDerivAt (fun s : ℝ => (s, d u)) (ContinuousLinearMap.inl ℝ ℝ ℝ) (T u) := by
    have h1 : HasFDerivAt (fun s : ℝ => s) (ContinuousLinearMap.id ℝ ℝ) (T u) := hasFDerivAt_id _
    have h2 : HasFDerivAt (fun _ : ℝ => d u) (0 : ℝ →L[ℝ] ℝ) (T u) := hasFDerivAt_const _ _
    exact h1.prodMk h2
  have ey : HasFDerivAt (fun s : ℝ => (T u, s)) (ContinuousLinearMap.inr ℝ ℝ ℝ) (d u) := by
    have h1 : HasFDerivAt (fun s : ℝ => s) (ContinuousLinearMap.id ℝ ℝ) (d u) := hasFDerivAt_id _
    have h2 : HasFDerivAt (fun _ : ℝ => T u) (0 : ℝ →L[ℝ] ℝ) (d u) := hasFDerivAt_const _ _
    exact h2.prodMk h1
  have l1 : L (1, 0) = (G (T u) (d u)).vT := by
    have h1 := (HasFDerivAt.comp (T u) hL ex).hasDerivAt
    have := h1.unique hp.dT
    simpa using this
  have l2 : L (0, 1) = (G (T u) (d u)).vd := by
    have h1 := (HasFDerivAt.comp (d u) hL ey).hasDerivAt
    have := h1.unique hp.dd
    simpa using this
  have h1 : HasDerivAt (fun w => (T w, d w)) (T', d') u := hT.prodMk hd
  have h2 := HasFDerivAt.comp_hasDerivAt u hL h1
  refine h2.congr_deriv ?_
  have : (T', d') = T' • ((1 : ℝ), (0 : ℝ)) + d' • ((0 : ℝ), (1 : ℝ)) := by simp
  rw [this, map_add, map_smul, map_smul, l1, l2, smul_eq_mul, smul_eq_mul]
  ring

end

/-! ## In the user's units -/

theorem density_slope (E : Env) (U : Sys) (mw y : ℝ) :
    ∃ k, HasDerivAt (fun u => internalKg E.a U mw .density u) k y := by
  have h : HasDerivAt (fun u : ℝ => u) 1 y := hasDerivAt_id y
  exact ⟨_, ((h.mul_const (msize E.a mw U.m)).div_const (size volume U.v)).mul_const mw⟩

theorem energy_slope {E : Env} {U : Sys} {mw : ℝ} {f : ℝ → ℝ} {c t : ℝ}
    (h : HasDerivAt f (c * (size (temperature : Conv ℝ) U.T.name / 1.8)) t) :
    HasDerivAt (fun u => inUnitsKg E.a U mw .energy (f u)) (inUnitsKg E.a U mw .entropy c) t := by
  simp only [inUnitsKg, perKmol, inUnits]
  refine ((((h.mul_const mw).div_const 1000).mul_const _).mul_const _).congr_deriv ?_
  ring

section
variable (E : Env) (U : Sys) (hU : Uses E U) (B : Sub) (hmw : B.mw ≠ 0) (S : Sol)
include hU hmw

/-- Calls along a curve of single-phase states. -/
theorem curve_calls {t y : ℝ → ℝ} {w : ℝ} (ht : ContinuousAt t w) (hy : ContinuousAt y w)
    (hlo : B.Tlo < toKelvin U.T.name (t w)) (hhi : toKelvin U.T.name (t w) < B.Thi)
    (h : OnePhase B (toKelvin U.T.name (t w)) (internalKg E.a U B.mw .density (y w))) :
    ∀ᶠ v in 𝓝 w, ∃ o1 o2, mpArgparse E B S [] [("T", .scalar (t v)), ("d", .scalar (y v))] = .ok
      { pts := [onePt (some (toKelvin U.T.name (t v))) (some (internalKg E.a U B.mw .density (y v)))],
        callerT := o1, callerD := o2 } := by
  have hk : ContinuousAt (fun v => toKelvin U.T.name (t v)) w :=
    ContinuousAt.comp (g := fun u : ℝ => toKelvin U.T.name u) (toKelvin_slope U.T (t w)).continuousAt ht
  obtain ⟨k, hD⟩ := density_slope E U B.mw (y w)
  have hD : ContinuousAt (fun v => internalKg E.a U B.mw .density (y v)) w :=
    ContinuousAt.comp (g := fun u : ℝ => internalKg E.a U B.mw .density u) hD.continuousAt hy
  have hsat : ∀ᶠ v in 𝓝 w, satTD B (satDensStrict B) (some (toKelvin U.T.name (t v)))
      (internalKg E.a U B.mw .density (y v)) = none := by
    cases h with
    | super h1 =>
      filter_upwards [hk.eventually (eventually_gt_nhds h1)] with u hu
      simp only [satTD, Option.bind_some, if_neg (not_lt.mpr hu.le)]
    | gas h1 h2 h3 =>
      have c : ContinuousAt (fun v => B.dsv (toKelvin U.T.name (t v))) w :=
        ContinuousAt.comp (g := B.dsv) h2 hk
      filter_upwards [hD.eventually_lt c h3] with u hu
      simp only [satTD, Option.bind_some, satDensStrict]
      rw [if_neg (c := _ < B.dsl (toKelvin U.T.name (t u)) ∧ _) (fun h => absurd h.2 (not_lt.mpr hu.le))]
      simp
    | fluid h1 h2 h3 =>
      have c : ContinuousAt (fun v => B.dsl (toKelvin U.T.name (t v))) w :=
        ContinuousAt.comp (g := B.dsl) h2 hk
      filter_upwards [c.eventually_lt hD h3] with u hu
      simp only [satTD, Option.bind_some, satDensStrict]
      rw [if_neg (c := _ < B.dsl (toKelvin U.T.name (t u)) ∧ _) (fun h => absurd h.1 (not_lt.mpr hu.le))]
      simp
  filter_upwards [hk.eventually (eventually_gt_nhds hlo), hk.eventually (eventually_lt_nhds hhi), hsat] with u a b c
  obtain ⟨o1, o2, hr⟩ := td_call E U hU B hmw S (y := y u) a b
  refine ⟨o1, o2, ?_⟩
  rw [hr, c]
  rfl

/-- **C75**, heat capacity at constant pressure: along single-phase states of one pressure, `cp` returns the
derivative by temperature of the enthalpy that `h` returns. -/
theorem C75_cp {Vo Vr : ℝ → ℝ → ℝ} {phi : ℝ → ℝ} {Uo W : Set (ℝ × ℝ)}
    (hF : IsFluid B.F Vo Vr phi Uo W) (hs : ContDiffOn ℝ 2 (fun z : ℝ × ℝ => Vr z.1 z.2) W)
    (t : ℝ) (y : ℝ → ℝ) (T d P : ℝ) (hT : toKelvin U.T.name t = T)
    (hd : internalKg E.a U B.mw .density (y t) = d) (hlo : B.Tlo < T) (hhi : T < B.Thi)
    (hr : InRange B.F Uo W T d) (h : OnePhase B T d) (hpd : (B.F.p T d).vd ≠ 0)
    (hy : DifferentiableAt ℝ y t)
    (hP : ∀ᶠ u in 𝓝 t, MpGives E B S [] [("T", .scalar u), ("d", .scalar (y u))] .p 0 P) :
    CpIsSlope E B S t y := by
  subst hT
  subst hd
  obtain ⟨k, hk⟩ := density_slope E U B.mw (y t)
  have hD : HasDerivAt (fun u => internalKg E.a U B.mw .density (y u)) (k * deriv y t) t :=
    HasDerivAt.comp (h₂ := fun u => internalKg E.a U B.mw .density u) t hk hy.hasDerivAt
  have hK := toKelvin_slope U.T t
  have calls := curve_calls E U hU B hmw S (t := fun u => u) (w := t) continuousAt_id hy.continuousAt hlo hhi h
  obtain ⟨fp, fh, -⟩ := fluid_diff hF hs hr
  obtain ⟨hp, hh, -⟩ := C50_derivatives hF hr
  have dp := along fp hp hK hD
  have dh := along fh hh hK hD
  have const : ∀ᶠ u in 𝓝 t, (B.F.p (toKelvin U.T.name u) (internalKg E.a U B.mw .density (y u))).v
      = internalKg E.a U B.mw .pressure P := by
    filter_upwards [calls, hP] with u hu hPu
    obtain ⟨o1, o2, hr⟩ := hu
    have e := (gives_iff hU hmw hr (by simp) (i := 0) rfl P).mp hPu
    simp only [ptValue, Pt.at, onePt, nan2, Option.bind_some, Option.map_some, Option.some.injEq] at e
    rw [← e, internalKg_inUnitsKg hU hmw]
  have zero := dp.unique ((hasDerivAt_const t (internalKg E.a U B.mw .pressure P)).congr_of_eventuallyEq const)
  have hcp := C50_cp hF hr hpd
  refine ⟨fun u => inUnitsKg E.a U B.mw .energy (B.F.h (toKelvin U.T.name u) (internalKg E.a U B.mw .density (y u))).v,
    inUnitsKg E.a U B.mw .entropy (B.F.cp (toKelvin U.T.name t) (internalKg E.a U B.mw .density (y t))), ?_, ?_,
    energy_slope (dh.congr_deriv ?_)⟩
  · filter_upwards [calls] with u hu
    obtain ⟨o1, o2, hr⟩ := hu
    exact (gives_iff hU hmw hr (by simp) (i := 0) rfl _).mpr rfl
  · obtain ⟨o1, o2, hr⟩ := calls.self_of_nhds
    rw [mpCp_eq hU hmw, hr, exOk]
    rfl
  · rw [hcp]
    generalize B.F.p (toKelvin U.T.name t) (internalKg E.a U B.mw .density (y t)) = p at *
    generalize B.F.h (toKelvin U.T.name t) (internalKg E.a U B.mw .density (y t)) = g at *
    generalize size (temperature : Conv ℝ) U.T.name / 1.8 = c at *
    have : k * deriv y t = -(p.vT * c) / p.vd := by field_simp; linarith
    rw [this]
    field_simp
    ring

theorem siSpeed_out {l s : String} (hs : SpeedUnits E l s) (x : ℝ) :
    siSpeed l s (x / size length l * size time s) = x := by
  have hl : size (length : Conv ℝ) l ≠ 0 := nonZero_of_mem hU.pos (c := length) (by simp [allConvs]) _ (lookup_mem (size_lookup hU hs.hasl))
  have ht : size (time : Conv ℝ) s ≠ 0 := nonZero_of_mem hU.pos (c := time) (by simp [allConvs]) _ (lookup_mem (size_lookup hU hs.hast))
  unfold siSpeed
  field_simp

/-- **C75**, speed of sound: along single-phase states of one entropy, the square of the speed `a` returns
is the derivative by density of the pressure that `p` returns. -/
theorem C75_sound {Vo Vr : ℝ → ℝ → ℝ} {phi : ℝ → ℝ} {Uo W : Set (ℝ × ℝ)}
    (hF : IsFluid B.F Vo Vr phi Uo W) (hs : ContDiffOn ℝ 2 (fun z : ℝ × ℝ => Vr z.1 z.2) W)
    (l sec : String) (hu : SpeedUnits E l sec) (t : ℝ → ℝ) (r T s0 : ℝ) (hT : toKelvin U.T.name (t r) = T)
    (hlo : B.Tlo < T) (hhi : T < B.Thi)
    (hr : InRange B.F Uo W T r) (h : OnePhase B T r) (hsT : (B.F.s T r).vT ≠ 0)
    (ht : DifferentiableAt ℝ t r)
    (hS : ∀ᶠ q in 𝓝 r, MpGives E B S []
      [("T", .scalar (t q)), ("d", .scalar (inUnitsKg E.a U B.mw .density q))] .s 0 s0) :
    SoundIsSlope E U l sec B S t r := by
  subst hT
  have back : ∀ q, internalKg E.a U B.mw .density (inUnitsKg E.a U B.mw .density q) = q :=
    internalKg_inUnitsKg hU hmw .density
  have hK : HasDerivAt (fun q => toKelvin U.T.name (t q)) (size (temperature : Conv ℝ) U.T.name / 1.8 * deriv t r) r :=
    HasDerivAt.comp r (toKelvin_slope U.T (t r)) ht.hasDerivAt
  have hy : ContinuousAt (fun q => inUnitsKg E.a U B.mw .density q) r := by
    simp only [inUnitsKg, perKmol, inUnits]
    exact ((continuousAt_id.div_const _).div_const _).mul_const _
  have hD : HasDerivAt (fun q : ℝ => q) 1 r := hasDerivAt_id r
  have calls := curve_calls E U hU B hmw S (t := t) (y := fun q => inUnitsKg E.a U B.mw .density q) ht.continuousAt hy hlo hhi
    (by rw [back]; exact h)
  simp only [back] at calls
  obtain ⟨fp, -, fs⟩ := fluid_diff hF hs hr
  obtain ⟨hp, -, hh, -⟩ := C50_derivatives hF hr
  have dp := along (u := r) (d := fun q => q) fp hp hK hD
  have ds := along (u := r) (d := fun q => q) fs hh hK hD
  have const : ∀ᶠ q in 𝓝 r, (B.F.s (toKelvin U.T.name (t q)) q).v = internalKg E.a U B.mw .entropy s0 := by
    filter_upwards [calls, hS] with u hu hPu
    obtain ⟨o1, o2, hr⟩ := hu
    have e := (gives_iff hU hmw hr (by simp) (i := 0) rfl s0).mp hPu
    simp only [ptValue, Pt.mix, Pt.at, onePt, nan2, Option.bind_some, Option.map_some, Option.some.injEq,
      Bool.false_eq_true, if_false] at e
    rw [← e, internalKg_inUnitsKg hU hmw]
  have zero := ds.unique ((hasDerivAt_const r (internalKg E.a U B.mw .entropy s0)).congr_of_eventuallyEq const)
  have ha := C50_sound hF hr hsT
  refine ⟨fun q => inUnitsKg E.a U B.mw .pressure (B.F.p (toKelvin U.T.name (t q)) q).v,
    (B.F.p (toKelvin U.T.name (t r)) r).vT * (size (temperature : Conv ℝ) U.T.name / 1.8 * deriv t r)
      + (B.F.p (toKelvin U.T.name (t r)) r).vd * 1,
    B.F.a (toKelvin U.T.name (t r)) r / size length l * size time sec, ?_, ?_, ?_, ?_⟩
  · filter_upwards [calls] with u hu
    obtain ⟨o1, o2, hr⟩ := hu
    exact (gives_iff hU hmw hr (by simp) (i := 0) rfl _).mpr rfl
  · obtain ⟨o1, o2, hr⟩ := calls.self_of_nhds
    unfold mpA
    rw [hr, exOk, convOut_speed hU hu]
    rfl
  · simp only [internalKg_inUnitsKg hU hmw]
    exact dp
  · rw [siSpeed_out E U hU B hmw hu, ha]
    congr 1
    generalize B.F.p (toKelvin U.T.name (t r)) r = p at *
    generalize B.F.s (toKelvin U.T.name (t r)) r = g at *
    generalize size (temperature : Conv ℝ) U.T.name / 1.8 * deriv t r = c at *
    have : c = -g.vd / g.vT := by field_simp; linarith
    rw [this]
    field_simp
    ring

end

/-! ## Lines of constant pressure and of constant entropy -/

theorem right_C1 {U : Set (ℝ × ℝ)} {V : ℝ → ℝ → ℝ} {F : ℝ → ℝ → J6} (h : Right U V F)
    (hs : ContDiffOn ℝ 2 (fun z : ℝ × ℝ => V z.1 z.2) U) {x y : ℝ} (hxy : (x, y) ∈ U) :
    ContDiffAt ℝ 1 (fun z : ℝ × ℝ => (F z.1 z.2).p) (x, y) ∧
    ContDiffAt ℝ 1 (fun z : ℝ × ℝ => (F z.1 z.2).px) (x, y) ∧
    ContDiffAt ℝ 1 (fun z : ℝ × ℝ => (F z.1 z.2).py) (x, y) := by
  let W : ℝ × ℝ → ℝ := fun z => V z.1 z.2
  have hd : ∀ z ∈ U, HasFDerivAt W (fderiv ℝ W z) z := fun z hz =>
    ((hs.differentiableOn (by norm_num) z hz).differentiableAt (h.isOpen.mem_nhds hz)).hasFDerivAt
  have nb : ∀ᶠ z in 𝓝 (x, y), z ∈ U := h.isOpen.mem_nhds hxy
  have ex : ∀ a b : ℝ, HasFDerivAt (fun s : ℝ => (s, b)) (ContinuousLinearMap.inl ℝ ℝ ℝ) a := fun a b => by
    have h1 : HasFDerivAt (fun s : ℝ => s) (ContinuousLinearMap.id ℝ ℝ) a := hasFDerivAt_id a
    have h2 : HasFDerivAt (fun _ : ℝ => b) (0 : ℝ →L[ℝ] ℝ) a := hasFDerivAt_const b a
    exact h1.prodMk h2
  have ey : ∀ a b : ℝ, HasFDerivAt (fun s : ℝ => (a, s)) (ContinuousLinearMap.inr ℝ ℝ ℝ) b := fun a b => by
    have h1 : HasFDerivAt (fun s : ℝ => s) (ContinuousLinearMap.id ℝ ℝ) b := hasFDerivAt_id b
    have h2 : HasFDerivAt (fun _ : ℝ => a) (0 : ℝ →L[ℝ] ℝ) b := hasFDerivAt_const a b
    exact h2.prodMk h1
  have hpx : ∀ z ∈ U, (F z.1 z.2).px = fderiv ℝ W z (1, 0) := by
    rintro ⟨a, b⟩ hz
    have h2 := (HasFDerivAt.comp a (hd _ hz) (ex a b)).hasDerivAt
    have := ((h.is a b hz).dx).unique h2
    simpa using this
  have hpy : ∀ z ∈ U, (F z.1 z.2).py = fderiv ℝ W z (0, 1) := by
    rintro ⟨a, b⟩ hz
    have h2 := (HasFDerivAt.comp b (hd _ hz) (ey a b)).hasDerivAt
    have := ((h.is a b hz).dy).unique h2
    simpa using this
  have c1 : ContDiffAt ℝ 1 (fderiv ℝ W) (x, y) :=
    (hs.fderiv_of_isOpen h.isOpen (m := 1) (by norm_num)).contDiffAt (h.isOpen.mem_nhds hxy)
  refine ⟨((hs.contDiffAt (h.isOpen.mem_nhds hxy)).of_le (by norm_num)).congr_of_eventuallyEq
      (nb.mono fun z hz => (h.is z.1 z.2 hz).val),
    (c1.clm_apply contDiffAt_const).congr_of_eventuallyEq (nb.mono hpx),
    (c1.clm_apply contDiffAt_const).congr_of_eventuallyEq (nb.mono hpy)⟩

section
variable {F : Fluid} {Vo Vr : ℝ → ℝ → ℝ} {phi : ℝ → ℝ} {Uo U : Set (ℝ × ℝ)}

theorem fluid_C1 (hF : IsFluid F Vo Vr phi Uo U) (hso : ContDiffOn ℝ 2 (fun z : ℝ × ℝ => Vo z.1 z.2) Uo)
    (hs : ContDiffOn ℝ 2 (fun z : ℝ × ℝ => Vr z.1 z.2) U)
    {T d : ℝ} (h : InRange F Uo U T d) :
    ContDiffAt ℝ 1 (fun z : ℝ × ℝ => (F.p z.1 z.2).v) (T, d) ∧
    ContDiffAt ℝ 1 (fun z : ℝ × ℝ => (F.s z.1 z.2).v) (T, d) := by
  have hT : (T, d).1 ≠ 0 := h.Tpos.ne'
  have dT : ContDiffAt ℝ 1 (fun z : ℝ × ℝ => z.1) (T, d) := contDiffAt_fst
  have dd : ContDiffAt ℝ 1 (fun z : ℝ × ℝ => z.2) (T, d) := contDiffAt_snd
  have tt : ∀ a : ℝ, ContDiffAt ℝ 1 (fun z : ℝ × ℝ => a / z.1) (T, d) := fun a =>
    contDiffAt_const.div dT hT
  have dc : ∀ a : ℝ, ContDiffAt ℝ 1 (fun z : ℝ × ℝ => z.2 / a) (T, d) := fun a => dd.div_const a
  have co : ContDiffAt ℝ 1 (fun z : ℝ × ℝ => (F.To / z.1, z.2 / F.dso)) (T, d) := (tt _).prodMk (dc _)
  have cr : ContDiffAt ℝ 1 (fun z : ℝ × ℝ => (F.Tr / z.1, z.2 / F.dsr)) (T, d) := (tt _).prodMk (dc _)
  obtain ⟨o1, o2, -⟩ := right_C1 hF.o hso h.o
  obtain ⟨r1, r2, r3⟩ := right_C1 hF.r hs h.r
  have a1 : ContDiffAt ℝ 1 (fun z : ℝ × ℝ => (F.ao z.1 z.2).p) (T, d) :=
    ContDiffAt.comp (g := fun z : ℝ × ℝ => (F.o z.1 z.2).p) (T, d) o1 co
  have a2 : ContDiffAt ℝ 1 (fun z : ℝ × ℝ => (F.ao z.1 z.2).px) (T, d) :=
    ContDiffAt.comp (g := fun z : ℝ × ℝ => (F.o z.1 z.2).px) (T, d) o2 co
  have b1 : ContDiffAt ℝ 1 (fun z : ℝ × ℝ => (F.ar z.1 z.2).p) (T, d) :=
    ContDiffAt.comp (g := fun z : ℝ × ℝ => (F.r z.1 z.2).p) (T, d) r1 cr
  have b2 : ContDiffAt ℝ 1 (fun z : ℝ × ℝ => (F.ar z.1 z.2).px) (T, d) :=
    ContDiffAt.comp (g := fun z : ℝ × ℝ => (F.r z.1 z.2).px) (T, d) r2 cr
  have b3 : ContDiffAt ℝ 1 (fun z : ℝ × ℝ => (F.ar z.1 z.2).py) (T, d) :=
    ContDiffAt.comp (g := fun z : ℝ × ℝ => (F.r z.1 z.2).py) (T, d) r3 cr
  refine ⟨?_, ?_⟩
  · exact ((dT.mul dd).mul contDiffAt_const).mul (contDiffAt_const.add ((dc F.dsr).mul b3))
  · exact ((((tt F.To).mul a2).sub a1).add (((tt F.Tr).mul b2).sub b1)).mul contDiffAt_const

/-- The line of a constant value through a point, as a function of the first variable. -/
theorem level_line {f : ℝ × ℝ → ℝ} {x y b : ℝ} (hf : ContDiffAt ℝ 1 f (x, y))
    (hb : HasDerivAt (fun s => f (x, s)) b y) (hne : b ≠ 0) :
    ∃ g : ℝ → ℝ, g x = y ∧ DifferentiableAt ℝ g x ∧ ∀ᶠ u in 𝓝 x, f (u, g u) = f (x, y) := by
  have hs := hf.hasStrictFDerivAt (by norm_num)
  have ey : HasFDerivAt (fun s : ℝ => (x, s)) (ContinuousLinearMap.inr ℝ ℝ ℝ) y := by
    have h1 : HasFDerivAt (fun s : ℝ => s) (ContinuousLinearMap.id ℝ ℝ) y := hasFDerivAt_id y
    have h2 : HasFDerivAt (fun _ : ℝ => x) (0 : ℝ →L[ℝ] ℝ) y := hasFDerivAt_const x y
    exact h2.prodMk h1
  have e : fderiv ℝ f (x, y) ∘L ContinuousLinearMap.inr ℝ ℝ ℝ = b • ContinuousLinearMap.id ℝ ℝ := by
    ext
    have h1 := (HasFDerivAt.comp y hs.hasFDerivAt ey).hasDerivAt
    have := h1.unique hb
    simpa using this
  have inv : (fderiv ℝ f (x, y) ∘L ContinuousLinearMap.inr ℝ ℝ ℝ).IsInvertible := by
    rw [e]
    refine ⟨ContinuousLinearEquiv.smulLeft (Units.mk0 b hne), ?_⟩
    ext
    simp
  refine ⟨hs.implicitFunctionOfProdDomain inv, ?_, ?_, ?_⟩
  · exact (hs.eventually_apply_eq_iff_implicitFunctionOfProdDomain inv).self_of_nhds.mp rfl
  · exact (hs.hasStrictFDerivAt_implicitFunctionOfProdDomain inv).hasFDerivAt.differentiableAt
  · exact hs.eventually_apply_implicitFunctionOfProdDomain inv

end

theorem ao_contDiff (g : AOgroup) (h1 : ∀ r ∈ g.coef1, 0 < r.1) :
    ContDiffOn ℝ 2 (fun z : ℝ × ℝ => aoVal g z.1 z.2) quadrant := by
  unfold aoVal
  have lx : ContDiffOn ℝ 2 (fun z : ℝ × ℝ => Real.log z.1) quadrant := contDiffOn_fst.log fun z hz => hz.1.ne'
  have ly : ContDiffOn ℝ 2 (fun z : ℝ × ℝ => Real.log z.2) quadrant := contDiffOn_snd.log fun z hz => hz.2.ne'
  refine (((ly.add (contDiffOn_const.mul lx)).add ((contDiffOn_const.mul contDiffOn_fst).mul lx)).add ?_).add
    (list_contDiff g.coef1 _ _ fun r hr => ?_)
  · unfold poly1At
    refine list_contDiff _ _ _ fun g _ => (rpow_fst _).mul (list_contDiff g.terms _ _ fun t _ => ?_)
    exact contDiffOn_const.mul ((rpow_fst _).pow _)
  · refine contDiffOn_const.mul (ContDiffOn.log (contDiffOn_const.sub (contDiffOn_const.mul contDiffOn_fst).exp) ?_)
    intro z hz
    have : Real.exp (-r.1 * z.1) < 1 := by
      rw [← Real.exp_zero]
      exact Real.exp_lt_exp.mpr (by nlinarith [mul_pos (h1 r hr) hz.1])
    linarith

theorem fromKelvin_diff (c : Scale) (x : ℝ) : DifferentiableAt ℝ (fun u : ℝ => fromKelvin c.name u) x := by
  have h : DifferentiableAt ℝ (fun u : ℝ => u) x := differentiableAt_id
  cases c with
  | K =>
    have e : (fun u : ℝ => fromKelvin Scale.K.name u) = fun u => u := by funext u; simp [fromKelvin, Scale.name]
    rw [e]; exact h
  | C =>
    have e : (fun u : ℝ => fromKelvin Scale.C.name u) = fun u => u - 273.15 := by funext u; simp [fromKelvin, Scale.name]
    rw [e]; exact h.sub_const _
  | R =>
    have e : (fun u : ℝ => fromKelvin Scale.R.name u) = fun u => u * 1.8 := by funext u; simp [fromKelvin, Scale.name]
    rw [e]; exact h.mul_const _
  | F =>
    have e : (fun u : ℝ => fromKelvin Scale.F.name u) = fun u => (u - 255.3722222222222) * 1.8 := by funext u; simp [fromKelvin, Scale.name]
    rw [e]; exact (h.sub_const _).mul_const _
  | eV =>
    have e : (fun u : ℝ => fromKelvin Scale.eV.name u) = fun u => u / (const_q / const_k) := by funext u; simp [fromKelvin, Scale.name]
    rw [e]; exact h.div_const _

section
variable (E : Env) (U : Sys) (hU : Uses E U) (B : Sub) (hmw : B.mw ≠ 0) (S : Sol)
  (R To Tr dso dsr : ℝ) (hR : 0 < R) (hTo : 0 < To) (hTr : 0 < Tr) (hdso : 0 < dso) (hdsr : 0 < dsr)
  (ago : AOgroup) (ho : ∀ q ∈ ago.coef0.getD [], Sorted1 q) (ho1 : ∀ r ∈ ago.coef1, 0 < r.1)
  (agr : ARgroup) (hr : ArData agr) (h2 : agr.coef2 = []) (hB : B.F = codeFluid R To dso Tr dsr ago agr)
include hU hmw hR hTo hTr hdso hdsr ho ho1 hr h2 hB

/-- **C75** with the code's own Helmholtz routines, for data without non-analytic terms: through every
single-phase state at which pressure depends on density there is a line of constant pressure, and `cp`
is the slope of enthalpy along it. -/
theorem C75_code_cp (t y0 T d : ℝ) (hT : toKelvin U.T.name t = T)
    (hd : internalKg E.a U B.mw .density y0 = d) (hT0 : 0 < T) (hd0 : 0 < d) (hlo : B.Tlo < T)
    (hhi : T < B.Thi) (h : OnePhase B T d) (hpd : (B.F.p T d).vd ≠ 0) :
    ∃ (y : ℝ → ℝ) (P : ℝ), y t = y0 ∧
      (∀ᶠ u in 𝓝 t, MpGives E B S [] [("T", .scalar u), ("d", .scalar (y u))] .p 0 P) ∧
      CpIsSlope E B S t y := by
  have hF : IsFluid B.F (aoVal ago) (arVal agr) (aoPhi ago) quadrant quadrant := by
    rw [hB]
    exact code_isFluid R To dso Tr dsr hR hTo hdso hTr hdsr ago ho ho1 agr hr h2
  have hin : InRange B.F quadrant quadrant T d := by
    rw [hB]
    exact ⟨hT0, hd0, ⟨div_pos hTo hT0, div_pos hd0 hdso⟩, ⟨div_pos hTr hT0, div_pos hd0 hdsr⟩⟩
  obtain ⟨cp, -⟩ := fluid_C1 hF (ao_contDiff ago ho1) (ar_contDiff agr h2) hin
  obtain ⟨g, hg, hgd, hgc⟩ := level_line cp (C50_derivatives hF hin).1.dd hpd
  subst hT
  have hk := (toKelvin_slope U.T t)
  have hyd : DifferentiableAt ℝ (fun u => inUnitsKg E.a U B.mw .density (g (toKelvin U.T.name u))) t := by
    have h1 : DifferentiableAt ℝ (fun u => g (toKelvin U.T.name u)) t :=
      DifferentiableAt.comp (g := g) t hgd hk.differentiableAt
    simp only [inUnitsKg, perKmol, inUnits]
    exact ((h1.div_const _).div_const _).mul_const _
  have hy0 : inUnitsKg E.a U B.mw .density (g (toKelvin U.T.name t)) = y0 := by
    rw [hg, ← hd, inUnitsKg_internalKg hU hmw]
  have hd' : internalKg E.a U B.mw .density (inUnitsKg E.a U B.mw .density (g (toKelvin U.T.name t))) = d := by
    rw [hy0, hd]
  have calls := curve_calls E U hU B hmw S (t := fun u => u)
    (y := fun u => inUnitsKg E.a U B.mw .density (g (toKelvin U.T.name u))) (w := t) continuousAt_id
    hyd.continuousAt hlo hhi (by rw [hd']; exact h)
  have hP : ∀ᶠ u in 𝓝 t, MpGives E B S []
      [("T", .scalar u), ("d", .scalar (inUnitsKg E.a U B.mw .density (g (toKelvin U.T.name u))))] .p 0
      (inUnitsKg E.a U B.mw .pressure (B.F.p (toKelvin U.T.name t) d).v) := by
    filter_upwards [calls, hk.continuousAt.eventually hgc] with u hu hc
    obtain ⟨o1, o2, hr⟩ := hu
    rw [gives_iff hU hmw hr (by simp) (i := 0) rfl]
    simp only [ptValue, Pt.at, onePt, nan2, Option.bind_some, Option.map_some, internalKg_inUnitsKg hU hmw]
    exact congrArg (fun z => some (inUnitsKg E.a U B.mw .pressure z)) hc
  exact ⟨_, _, hy0, hP, C75_cp E U hU B hmw S hF (ar_contDiff agr h2) t _ _ d _ rfl hd' hlo hhi hin h hpd hyd hP⟩

/-- **C75** with the code's own Helmholtz routines: through every single-phase state at which entropy
depends on temperature there is a line of constant entropy, and the square of `a` is the slope of
pressure along it. -/
theorem C75_code_sound (l sec : String) (hu : SpeedUnits E l sec) (t0 T r : ℝ) (hT : toKelvin U.T.name t0 = T)
    (hT0 : 0 < T) (hr0 : 0 < r) (hlo : B.Tlo < T) (hhi : T < B.Thi) (h : OnePhase B T r)
    (hsT : (B.F.s T r).vT ≠ 0) :
    ∃ (t : ℝ → ℝ) (s0 : ℝ), t r = t0 ∧
      (∀ᶠ q in 𝓝 r, MpGives E B S []
        [("T", .scalar (t q)), ("d", .scalar (inUnitsKg E.a U B.mw .density q))] .s 0 s0) ∧
      SoundIsSlope E U l sec B S t r := by
  have hF : IsFluid B.F (aoVal ago) (arVal agr) (aoPhi ago) quadrant quadrant := by
    rw [hB]
    exact code_isFluid R To dso Tr dsr hR hTo hdso hTr hdsr ago ho ho1 agr hr h2
  have hin : InRange B.F quadrant quadrant T r := by
    rw [hB]
    exact ⟨hT0, hr0, ⟨div_pos hTo hT0, div_pos hr0 hdso⟩, ⟨div_pos hTr hT0, div_pos hr0 hdsr⟩⟩
  obtain ⟨-, cs⟩ := fluid_C1 hF (ao_contDiff ago ho1) (ar_contDiff agr h2) hin
  have swap : ContDiffAt ℝ 1 (fun z : ℝ × ℝ => (B.F.s z.2 z.1).v) (r, T) :=
    ContDiffAt.comp (g := fun z : ℝ × ℝ => (B.F.s z.1 z.2).v) (f := fun z : ℝ × ℝ => (z.2, z.1)) (r, T) cs
      (contDiffAt_snd.prodMk contDiffAt_fst)
  obtain ⟨g, hg, hgd, hgc⟩ := level_line swap (C50_derivatives hF hin).2.2.1.dT hsT
  have back : ∀ x, toKelvin U.T.name (fromKelvin U.T.name x) = x := fun x =>
    internalKg_inUnitsKg hU hmw .temperature x
  have ht0 : fromKelvin U.T.name (g r) = t0 := by
    rw [hg, ← hT]; exact inUnitsKg_internalKg hU hmw .temperature t0
  have htd : DifferentiableAt ℝ (fun q => fromKelvin U.T.name (g q)) r :=
    DifferentiableAt.comp (g := fun u : ℝ => fromKelvin U.T.name u) r (fromKelvin_diff U.T (g r)) hgd
  have hT' : toKelvin U.T.name (fromKelvin U.T.name (g r)) = T := by rw [back, hg]
  have hy : ContinuousAt (fun q => inUnitsKg E.a U B.mw .density q) r := by
    simp only [inUnitsKg, perKmol, inUnits]
    exact ((continuousAt_id.div_const _).div_const _).mul_const _
  have calls := curve_calls E U hU B hmw S (t := fun q => fromKelvin U.T.name (g q))
    (y := fun q => inUnitsKg E.a U B.mw .density q) (w := r) htd.continuousAt hy
    (by rw [hT']; exact hlo) (by rw [hT']; exact hhi) (by rw [hT', internalKg_inUnitsKg hU hmw]; exact h)
  have hS : ∀ᶠ q in 𝓝 r, MpGives E B S []
      [("T", .scalar (fromKelvin U.T.name (g q))), ("d", .scalar (inUnitsKg E.a U B.mw .density q))] .s 0
      (inUnitsKg E.a U B.mw .entropy (B.F.s T r).v) := by
    filter_upwards [calls, hgc] with u hu hc
    obtain ⟨o1, o2, hr⟩ := hu
    rw [gives_iff hU hmw hr (by simp) (i := 0) rfl]
    simp only [ptValue, Pt.mix, Pt.at, onePt, nan2, Option.bind_some, Option.map_some, Bool.false_eq_true, if_false,
      internalKg_inUnitsKg hU hmw, back]
    exact congrArg (fun z => some (inUnitsKg E.a U B.mw .entropy z)) hc
  exact ⟨_, _, ht0, hS, C75_sound E U hU B hmw S hF (ar_contDiff agr h2) l sec hu _ r T _ hT' hlo hhi hin h hsT htd hS⟩

end

/-! ## Under the dome -/

section
variable (E : Env) (U : Sys) (hU : Uses E U) (B : Sub) (Tmin : ℝ) (hB : Dome B Tmin) (S : Sol)
  (hS : Bounded S B Tmin) (hlo : Tmin ≤ B.Tlo) (varg : List (Val ℝ)) (kw : Kw) (i : Nat)
include hU hB hS hlo

/-- **C75**, two phases: at every element of quality 0 or more the methods return, as documented, NaN for the
speed of sound and infinity for `cp`, and infinity for `gam` where the liquid's `cv` is a number not
below 0. -/
theorem C75_dome (l sec : String) (hu : SpeedUnits E l sec) (t x : ℝ) (ht : MpGives E B S varg kw .T i t)
    (hx : MpGives E B S varg kw .x i x) (h0 : 0 ≤ x) :
    (∃ as, mpA E B S varg kw = .ok as ∧ as[i]? = some none) ∧
    (∃ cs, mpCp E B S varg kw = .ok cs ∧ cs[i]? = some .pinf) ∧
    (0 ≤ B.F.cv (toKelvin U.T.name t) (B.dsl (toKelvin U.T.name t)) →
      ∃ gs, mpGam E B S varg kw = .ok gs ∧ gs[i]? = some .pinf) := by
  have hmw := hB.mw.ne'
  obtain ⟨r, q, hr, hq⟩ := gives_pt hU hmw (by simp) ht
  have ht' := inner_of hU hmw ((gives_iff hU hmw hr (by simp) hq t).mp ht)
  have hx' := (gives_iff hU hmw hr (by simp) hq x).mp hx
  simp only [ptValue] at hx'
  have hg := argparse_good hB hS hU hlo hr q (List.mem_of_getElem? hq)
  have hI : q.I = true := by
    cases hI : q.I with
    | true => rfl
    | false => have := ((hg.one hI).2 x hx').2; linarith
  have hT : q.T = some (toKelvin U.T.name t) := ht'
  have hd : q.d1 = some (B.dsl (toKelvin U.T.name t)) := by rw [(hg.sat hI).1, hT]; rfl
  refine ⟨⟨_, (by unfold mpA; rw [hr, exOk, convOut_speed hU hu]), ?_⟩,
    ⟨_, (by rw [mpCp_eq hU hmw, hr, exOk]), ?_⟩, fun hcv => ⟨_, (by unfold mpGam; rw [hr, exOk]), ?_⟩⟩
  · simp [hq, hI]
  · simp [outsKg, hq, hI, List.getElem?_zipWith]
  · simp [hq, hI, hT, hd, Pt.at, nan2, infOver, not_lt.mpr hcv]

/-- **C75**, one phase: at every element of quality below 0, the numbers returned are `cp`, `cp/cv` and the
speed of sound of the temperature and density that the methods `T` and `d` return. -/
theorem C75_single (l sec : String) (hu : SpeedUnits E l sec) (t y x : ℝ) (ht : MpGives E B S varg kw .T i t)
    (hy : MpGives E B S varg kw .d i y) (hx : MpGives E B S varg kw .x i x) (h0 : x < 0) :
    let T := internalKg E.a U B.mw .temperature t
    let D := internalKg E.a U B.mw .density y
    (∃ as a, mpA E B S varg kw = .ok as ∧ as[i]? = some (some a) ∧ siSpeed l sec a = B.F.a T D) ∧
    (∃ cs c, mpCp E B S varg kw = .ok cs ∧ cs[i]? = some (.fin c) ∧
      internalKg E.a U B.mw .entropy c = B.F.cp T D) ∧
    (∃ gs, mpGam E B S varg kw = .ok gs ∧ gs[i]? = some (.fin (B.F.cp T D / B.F.cv T D))) ∧
    ∀ vs, mpCv E B S varg kw = .ok vs → ∃ v, vs[i]? = some (some v) ∧ internalKg E.a U B.mw .entropy v = B.F.cv T D := by
  intro T D
  have hmw := hB.mw.ne'
  obtain ⟨r, q, hr, hq⟩ := gives_pt hU hmw (by simp) ht
  have hT : q.T = some T := inner_of hU hmw ((gives_iff hU hmw hr (by simp) hq t).mp ht)
  have hD := inner_of hU hmw ((gives_iff hU hmw hr (by simp) hq y).mp hy)
  have hx' := (gives_iff hU hmw hr (by simp) hq x).mp hx
  simp only [ptValue] at hx'
  have hg := argparse_good hB hS hU hlo hr q (List.mem_of_getElem? hq)
  have hI : q.I = false := by
    cases hI : q.I with
    | false => rfl
    | true => have := ((hg.sat hI).2.2.1 x hx').1; linarith
  have hd : q.d1 = some D := by simpa [Pt.density, hI] using hD
  refine ⟨⟨r.pts.map (fun q => (if q.I then none else Pt.at B.F.a q.T q.d1).map (fun x => x / size length l * size time sec)),
    B.F.a T D / size length l * size time sec, ?_, ?_, siSpeed_out E U hU B hmw hu _⟩,
    ⟨_, inUnitsKg E.a U B.mw .entropy (B.F.cp T D), (by rw [mpCp_eq hU hmw, hr, exOk]), ?_, internalKg_inUnitsKg hU hmw _ _⟩,
    ⟨_, (by unfold mpGam; rw [hr, exOk]), ?_⟩, ?_⟩
  · unfold mpA; rw [hr, exOk, convOut_speed hU hu, List.map_map]; rfl
  · simp [hq, hI, hT, hd, Pt.at, nan2]
  · simp [outsKg, hq, hI, hT, hd, Pt.at, nan2, List.getElem?_zipWith, Cand.ofNan]
  · simp [hq, hI, hT, hd, Pt.at, nan2, Cand.ofNan]
  · intro vs hvs
    rw [mpCv_eq hU hmw, hr, exOk] at hvs
    split at hvs
    · cases hvs
    · cases hvs
      exact ⟨inUnitsKg E.a U B.mw .entropy (B.F.cv T D), by simp [outsKg, hq, Pt.cv, hI, hT, hd, Pt.at, nan2],
        internalKg_inUnitsKg hU hmw _ _⟩

end

/-! ## The hypotheses are met -/

/-- The example substance with a residual part `dd tt` and the ideal part of a monatomic gas. -/
noncomputable def heatSub : Sub :=
  { demoSub with F := codeFluid 461 647 322 647 322 ⟨some 1.5, none, none, []⟩ ⟨[[⟨1, 1, 0, 0, [(1, 1, 1)]⟩]], [], []⟩ }

theorem heat_data : ArData ⟨[[⟨1, 1, 0, 0, [(1, 1, 1)]⟩]], [], []⟩ := by
  refine ⟨by simp, ?_, ?_⟩
  · intro gs hgs q hq
    simp only [List.mem_singleton] at hgs
    subst hgs
    simp only [List.mem_singleton] at hq
    subst hq
    exact ⟨by simp, by simp⟩
  · intro gs hgs q hq
    simp only [List.mem_singleton] at hgs
    subst hgs
    simp only [List.mem_singleton] at hq
    subst hq
    exact fun _ => rfl

/-- At 700 K and 2 kg/m3 its pressure rises with density and its entropy with temperature; the state is above
the critical temperature and within the limits.  The units may be ft and ms. -/
example : heatSub.mw ≠ 0 ∧ OnePhase heatSub 700 2 ∧ heatSub.Tlo < 700 ∧ (700 : ℝ) < heatSub.Thi ∧
    (heatSub.F.p 700 2).vd ≠ 0 ∧ (heatSub.F.s 700 2).vT ≠ 0 ∧ Uses otherEnv otherSys ∧
    SpeedUnits otherEnv "ft" "ms" := by
  have hF := code_isFluid 461 647 322 647 322 (by norm_num) (by norm_num) (by norm_num) (by norm_num) (by norm_num)
    ⟨some 1.5, none, none, []⟩ (by simp) (by simp) _ heat_data rfl
  have ar : ∀ x y : ℝ, arVal ⟨[[⟨1, 1, 0, 0, [(1, 1, 1)]⟩]], [], []⟩ x y = x * y := by
    intro x y
    simp [arVal, poly2At, expsVal]
  have ao : ∀ x y : ℝ, aoVal ⟨some 1.5, none, none, []⟩ x y = Real.log y + 1.5 * Real.log x := by
    intro x y
    simp [aoVal, poly1At]
  have id1 : ∀ z : ℝ, HasDerivAt (fun u : ℝ => u) 1 z := fun z => hasDerivAt_id z
  have lin : ∀ c z : ℝ, HasDerivAt (fun s => c * s) c z := fun c z => by simpa using (id1 z).const_mul c
  have lin' : ∀ c z : ℝ, HasDerivAt (fun s => s * c) c z := fun c z => by simpa using (id1 z).mul_const c
  have hx : (0 : ℝ) < 647 / 700 := by norm_num
  have hy : (0 : ℝ) < 2 / 322 := by norm_num
  have hr := hF.r.is (647 / 700) (2 / 322) ⟨hx, hy⟩
  have hoo := hF.o.is (647 / 700) (2 / 322) ⟨hx, hy⟩
  have ar' : arVal ⟨[[⟨1, 1, 0, 0, [(1, 1, 1)]⟩]], [], []⟩ = fun x y => x * y := funext fun x => funext fun y => ar x y
  have ao' : aoVal ⟨some 1.5, none, none, []⟩ = fun x y => Real.log y + 1.5 * Real.log x :=
    funext fun x => funext fun y => ao x y
  rw [ar'] at hr
  rw [ao'] at hoo
  have py := hr.dy.unique (lin _ _)
  have pyy := hr.dyy.unique (by
    rw [show (fun s => deriv (fun u => (647 / 700 : ℝ) * u) s) = fun _ => 647 / 700 from
      funext fun s => (lin _ s).deriv]
    exact hasDerivAt_const _ _)
  have pxx := hr.dxx.unique (by
    rw [show (fun s => deriv (fun u => u * (2 / 322 : ℝ)) s) = fun _ => 2 / 322 from
      funext fun s => (lin' _ s).deriv]
    exact hasDerivAt_const _ _)
  have oxx := hoo.dxx.unique (f₁' := 1.5 * -((647 / 700 : ℝ) ^ 2)⁻¹) (by
    have : ∀ s : ℝ, deriv (fun u => Real.log (2 / 322) + 1.5 * Real.log u) s = 1.5 * s⁻¹ := by
      intro s
      simp
    rw [show (fun s => deriv (fun u => Real.log (2 / 322) + 1.5 * Real.log u) s) = fun s => 1.5 * s⁻¹ from funext this]
    exact (hasDerivAt_inv hx.ne').const_mul 1.5)
  refine ⟨demo_dome.mw.ne', .super (by norm_num [heatSub, demoSub]), by norm_num [heatSub, demoSub],
    by norm_num [heatSub, demoSub], ?_, ?_, otherEnv_uses, ⟨rfl, rfl, rfl, rfl⟩⟩
  · have p1 : (heatSub.F.r (647 / 700) (2 / 322)).py = 647 / 700 := py
    have p2 : (heatSub.F.r (647 / 700) (2 / 322)).pyy = 0 := pyy
    show 461 * 700 * (1 + 2 * (2 / 322) * (heatSub.F.r (647 / 700) (2 / 322)).py
      + 2 / 322 * (2 / 322) * (heatSub.F.r (647 / 700) (2 / 322)).pyy) ≠ (0 : ℝ)
    rw [p1, p2]; norm_num
  · have p1 : (heatSub.F.o (647 / 700) (2 / 322)).pxx = 1.5 * -((647 / 700 : ℝ) ^ 2)⁻¹ := oxx
    have p2 : (heatSub.F.r (647 / 700) (2 / 322)).pxx = 0 := pxx
    show (647 / 700 * (647 / 700) * (heatSub.F.o (647 / 700) (2 / 322)).pxx
      + 647 / 700 * (647 / 700) * (heatSub.F.r (647 / 700) (2 / 322)).pxx) * (-461 / 700) ≠ (0 : ℝ)
    rw [p1, p2]; norm_num

/-- At 500 K and quality 0.25 the two-phase statement applies. -/
example : ∃ t x, MpGives otherEnv demoSub demoSol [] [("T", .scalar 226.85), ("x", .scalar 0.25)] .T 0 t ∧
    MpGives otherEnv demoSub demoSol [] [("T", .scalar 226.85), ("x", .scalar 0.25)] .x 0 x ∧ 0 ≤ x ∧
    0 ≤ demoSub.F.cv (toKelvin otherSys.T.name t) (demoSub.dsl (toKelvin otherSys.T.name t)) := by
  have hU := otherEnv_uses
  have hmw : demoSub.mw ≠ 0 := demo_dome.mw.ne'
  obtain ⟨o1, o2, hr⟩ := demo_argparse hU (t := 226.85) (by
    show toKelvin "C" (226.85 : ℝ) = 500; rw [toK_C]; norm_num)
  have g := fun m (hm : m ≠ MQuantity.cv) y => (gives_iff hU hmw hr hm (i := 0) rfl y).mpr
  refine ⟨_, 0.25, g .T (by simp) _ rfl, g .x (by simp) _ rfl, by norm_num, ?_⟩
  simp [Fluid.cv, Fluid.ao, Fluid.ar, demoSub]

end PyroMat.Mp.Props
