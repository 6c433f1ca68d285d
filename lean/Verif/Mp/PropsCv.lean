import Mathlib.Analysis.Calculus.ContDiff.Operations
import Mathlib.Analysis.Calculus.FDeriv.Prod
import Mathlib.Analysis.SpecialFunctions.Pow.Deriv
import Mathlib.Analysis.SpecialFunctions.ExpDeriv
import Verif.Mp.PropsIdent
import Verif.Mp.PropsThermo
import Verif.Mp.SpecCv

/-!
# C74: the heat capacity at constant volume is the derivative of the energy
-/

set_option linter.unusedSimpArgs false

namespace PyroMat.Mp.Props

open PyroMat PyroMat.Units PyroMat.Units.Spec PyroMat.Units.Props PyroMat.Gas PyroMat.Gas.Spec
open PyroMat.Gas.Props PyroMat.Mp PyroMat.Mp.Spec PyroMat.Config.Defaults Filter Topology

/-- The first derivative of a twice differentiable function of two variables, as the routine returns it,
is differentiable, with the second derivatives the routine returns. -/
theorem px_fderiv {U : Set (ℝ × ℝ)} {V : ℝ → ℝ → ℝ} {F : ℝ → ℝ → J6} (h : Right U V F)
    (hs : ContDiffOn ℝ 2 (fun z : ℝ × ℝ => V z.1 z.2) U) {x y : ℝ} (hxy : (x, y) ∈ U) :
    HasFDerivAt (fun z : ℝ × ℝ => (F z.1 z.2).px)
      ((ContinuousLinearMap.fst ℝ ℝ ℝ).smulRight (F x y).pxx + (ContinuousLinearMap.snd ℝ ℝ ℝ).smulRight (F x y).pxy)
      (x, y) := by
  let W : ℝ × ℝ → ℝ := fun z => V z.1 z.2
  have hd : ∀ z ∈ U, HasFDerivAt W (fderiv ℝ W z) z := fun z hz =>
    ((hs.differentiableOn (by norm_num) z hz).differentiableAt (h.isOpen.mem_nhds hz)).hasFDerivAt
  have ex : ∀ a b : ℝ, HasFDerivAt (fun s : ℝ => (s, b)) (ContinuousLinearMap.inl ℝ ℝ ℝ) a := fun a b => by
    have h1 : HasFDerivAt (fun s : ℝ => s) (ContinuousLinearMap.id ℝ ℝ) a := hasFDerivAt_id a
    have h2 : HasFDerivAt (fun _ : ℝ => b) (0 : ℝ →L[ℝ] ℝ) a := hasFDerivAt_const b a
    exact h1.prodMk h2
  have ey : ∀ a b : ℝ, HasFDerivAt (fun s : ℝ => (a, s)) (ContinuousLinearMap.inr ℝ ℝ ℝ) b := fun a b => by
    have h1 : HasFDerivAt (fun s : ℝ => s) (ContinuousLinearMap.id ℝ ℝ) b := hasFDerivAt_id b
    have h2 : HasFDerivAt (fun _ : ℝ => a) (0 : ℝ →L[ℝ] ℝ) b := hasFDerivAt_const a b
    exact h2.prodMk h1
  have hpx : ∀ z ∈ U, (F z.1 z.2).px = fderiv ℝ W z (1, 0) := by
    rintro ⟨a, b⟩ hz
    have h1 := (h.is a b hz).dx
    have h2 := (HasFDerivAt.comp a (hd _ hz) (ex a b)).hasDerivAt
    have := h1.unique h2
    simpa using this
  have hev : ∀ᶠ z in 𝓝 (x, y), (F z.1 z.2).px = fderiv ℝ W z (1, 0) :=
    Filter.Eventually.mono (h.isOpen.mem_nhds hxy) hpx
  have hdd : DifferentiableAt ℝ (fun z => fderiv ℝ W z (1, 0)) (x, y) := by
    have := ((hs.fderiv_of_isOpen h.isOpen (m := 1) (by norm_num)).differentiableOn (by norm_num) _ hxy).differentiableAt
      (h.isOpen.mem_nhds hxy)
    exact this.clm_apply (differentiableAt_const _)
  have hP : DifferentiableAt ℝ (fun z : ℝ × ℝ => (F z.1 z.2).px) (x, y) := hdd.congr_of_eventuallyEq hev
  have hL := hP.hasFDerivAt
  generalize fderiv ℝ (fun z : ℝ × ℝ => (F z.1 z.2).px) (x, y) = L at hL
  have l1 : L (1, 0) = (F x y).pxx := by
    have h2 := (HasFDerivAt.comp x hL (ex x y)).hasDerivAt
    have h1 := (h.is x y hxy).dxx
    have : ∀ᶠ s in 𝓝 x, deriv (fun u => V u y) s = (F s y).px := by
      have : ∀ᶠ s in 𝓝 x, (s, y) ∈ U := (ex x y).continuousAt.eventually (h.isOpen.mem_nhds hxy)
      exact this.mono fun s hs => (h.is s y hs).dx.deriv
    have h3 := h1.congr_of_eventuallyEq (this.mono fun s hs => hs.symm)
    have := h2.unique h3
    simpa using this
  have l2 : L (0, 1) = (F x y).pxy := by
    have h2 := (HasFDerivAt.comp y hL (ey x y)).hasDerivAt
    have h1 := (h.is x y hxy).dxy
    have : ∀ᶠ s in 𝓝 y, deriv (fun u => V u s) x = (F x s).px := by
      have : ∀ᶠ s in 𝓝 y, (x, s) ∈ U := (ey x y).continuousAt.eventually (h.isOpen.mem_nhds hxy)
      exact this.mono fun s hs => (h.is x s hs).dx.deriv
    have h3 := h1.congr_of_eventuallyEq (this.mono fun s hs => hs.symm)
    have := h2.unique h3
    simpa using this
  have : L = (ContinuousLinearMap.fst ℝ ℝ ℝ).smulRight (F x y).pxx
      + (ContinuousLinearMap.snd ℝ ℝ ℝ).smulRight (F x y).pxy := by
    ext <;> simp [l1, l2]
  rw [← this]
  exact hL

section
variable {F : Fluid} {Vo Vr : ℝ → ℝ → ℝ} {phi : ℝ → ℝ} {Uo U : Set (ℝ × ℝ)}

/-- The energy along a differentiable curve of densities. -/
theorem e_along (hF : IsFluid F Vo Vr phi Uo U) (hs : ContDiffOn ℝ 2 (fun z : ℝ × ℝ => Vr z.1 z.2) U)
    (hsc : F.To = F.Tr) {T c' : ℝ} {c : ℝ → ℝ} (h : InRange F Uo U T (c T)) (hc : HasDerivAt c c' T) :
    HasDerivAt (fun u => (F.e u (c u)).v) ((F.e T (c T)).vT + (F.e T (c T)).vd * c') T := by
  have hT := h.Tpos.ne'
  have hd1 := hF.dso.ne'
  have hd2 := hF.dsr.ne'
  have hdo : 0 < c T / F.dso := div_pos h.dpos hF.dso
  have hinv : ∀ a : ℝ, HasDerivAt (fun u => a / u) (-a / T ^ 2) T := fun a => by
    have h1 : HasDerivAt (fun s : ℝ => s) 1 T := hasDerivAt_id T
    have h2 : HasDerivAt (fun _ : ℝ => a) 0 T := hasDerivAt_const T a
    exact (h2.div h1 hT).congr_deriv (by simp)
  -- ideal part
  have hcurve : ContinuousAt (fun u => (F.To / u, c u / F.dso)) T :=
    (hinv F.To).continuousAt.prodMk (hc.continuousAt.div_const _)
  have hphi : ∀ x y, (x, y) ∈ Uo → 0 < y → HasDerivAt phi (F.o x y).px x := by
    intro x y hxy hy
    have h1 := (hF.o.is x y hxy).dx
    have : (fun s => Vo s y) = fun s => Real.log y + phi s := funext fun s => hF.ideal s y hy
    rw [this] at h1
    simpa using h1.sub_const (Real.log y) |>.congr_of_eventuallyEq (Eventually.of_forall fun s => by simp)
  have hnear : ∀ᶠ u in 𝓝 T, (F.To / u, c u / F.dso) ∈ Uo ∧ 0 < c u := by
    have a1 := hcurve.eventually (hF.o.isOpen.mem_nhds h.o)
    have a2 := hc.continuousAt.eventually (eventually_gt_nhds h.dpos)
    exact a1.and a2
  have ho1 : ∀ᶠ u in 𝓝 T, (F.o (F.To / u) (c u / F.dso)).px = deriv phi (F.To / u) :=
    hnear.mono fun u hu => ((hphi _ _ hu.1 (div_pos hu.2 hF.dso)).deriv).symm
  have ho2 : HasDerivAt (deriv phi) (F.o (F.To / T) (c T / F.dso)).pxx (F.To / T) := by
    have h1 := (hF.o.is _ _ h.o).dxx
    refine h1.congr_of_eventuallyEq ?_
    have : (fun s => Vo s (c T / F.dso)) = fun s => Real.log (c T / F.dso) + phi s :=
      funext fun s => hF.ideal s _ hdo
    rw [this]
    refine Eventually.of_forall fun s => ?_
    simp [deriv_const_add]
  have ho : HasDerivAt (fun u => (F.o (F.To / u) (c u / F.dso)).px)
      ((F.o (F.To / T) (c T / F.dso)).pxx * (-F.To / T ^ 2)) T :=
    (HasDerivAt.comp T ho2 (hinv F.To)).congr_of_eventuallyEq ho1
  -- residual part
  have hr := px_fderiv hF.r hs h.r
  have hg : HasDerivAt (fun u => (F.Tr / u, c u / F.dsr)) (-F.Tr / T ^ 2, c' / F.dsr) T :=
    (hinv F.Tr).prodMk (hc.div_const _)
  have hr' := HasFDerivAt.comp_hasDerivAt T hr hg
  have hsum := (ho.add hr').mul_const (F.R * F.Tr)
  have i2 := (ideal_der hF hdo h.o).2.1
  rw [hsc] at i2
  refine (hsum.congr_of_eventuallyEq (Eventually.of_forall fun u => rfl)).congr_deriv ?_
  simp only [Fluid.e, Fluid.ao, Fluid.ar, i2, hsc]
  simp only [ContinuousLinearMap.add_apply, ContinuousLinearMap.smulRight_apply, ContinuousLinearMap.coe_fst',
    ContinuousLinearMap.coe_snd', smul_eq_mul]
  field_simp
  ring

end

/-- The quality of a mixture of density `d`. -/
noncomputable def qualityAt (B : Sub) (d T : ℝ) : ℝ := (B.dsl T / d - 1) / (B.dsl T / B.dsv T - 1)

/-- The energy of a mixture of density `d`. -/
noncomputable def mixtureE (B : Sub) (d T : ℝ) : ℝ :=
  (B.F.e T (B.dsl T)).v * (1 - qualityAt B d T) + (B.F.e T (B.dsv T)).v * qualityAt B d T

section
variable {B : Sub} {Vo Vr : ℝ → ℝ → ℝ} {phi : ℝ → ℝ} {Uo W : Set (ℝ × ℝ)}

theorem mixture_cv (hF : IsFluid B.F Vo Vr phi Uo W) (hs : ContDiffOn ℝ 2 (fun z : ℝ × ℝ => Vr z.1 z.2) W)
    (hsc : B.F.To = B.F.Tr) {T d : ℝ} (hd : d ≠ 0) (h : SmoothDome B Uo W T) :
    HasDerivAt (mixtureE B d) (satCv B T (B.dsl T) (B.dsv T) (qualityAt B d T)) T := by
  have hl := e_along hF hs hsc h.liquid h.dsl
  have hv := e_along hF hs hsc h.vapor h.dsv
  have hl0 := h.liquid.dpos.ne'
  have hv0 := h.vapor.dpos.ne'
  have hne : B.dsl T / B.dsv T - 1 ≠ 0 := by
    rw [div_sub_one hv0]
    exact div_ne_zero (sub_ne_zero.mpr h.lt.ne') hv0
  have hne' : B.dsl T - B.dsv T ≠ 0 := sub_ne_zero.mpr h.lt.ne'
  have hq : HasDerivAt (qualityAt B d)
      ((B.dslT T / B.dsl T * (1 - qualityAt B d T) +
        B.dsl T / B.dsv T * B.dsvT T / B.dsv T * qualityAt B d T) / (B.dsl T / B.dsv T - 1)) T := by
    have h2 : HasDerivAt (fun u => B.dsl u / B.dsv u)
        ((B.dslT T * B.dsv T - B.dsl T * B.dsvT T) / B.dsv T ^ 2) T := h.dsl.div h.dsv hv0
    have h3 : HasDerivAt (fun u => B.dsl u / B.dsv u - 1)
        ((B.dslT T * B.dsv T - B.dsl T * B.dsvT T) / B.dsv T ^ 2) T := h2.sub_const 1
    have h4 : HasDerivAt (fun u => B.dsl u / d - 1) (B.dslT T / d) T := (h.dsl.div_const d).sub_const 1
    have h1 := h4.div h3 hne
    refine h1.congr_deriv ?_
    simp only [qualityAt]
    field_simp
    ring
  have h1 : HasDerivAt (fun u => 1 - qualityAt B d u) _ T := hq.const_sub 1
  refine ((hl.mul h1).add (hv.mul hq)).congr_deriv ?_
  simp only [satCv]
  ring

end

/-! ## In the user's units -/

/-- The slope of a temperature scale. -/
theorem toKelvin_slope (c : Scale) (t : ℝ) :
    HasDerivAt (fun u : ℝ => toKelvin c.name u) (size (temperature : Conv ℝ) c.name / 1.8) t := by
  have h : HasDerivAt (fun u : ℝ => u) 1 t := hasDerivAt_id t
  cases c with
  | K =>
    have e : (fun u : ℝ => toKelvin Scale.K.name u) = fun u => u := funext toK_K
    rw [e]; exact h.congr_deriv (by show (1 : ℝ) = 1.8 / 1.8; norm_num)
  | C =>
    have e : (fun u : ℝ => toKelvin Scale.C.name u) = fun u => u + 273.15 := funext toK_C
    rw [e]; exact (h.add_const _).congr_deriv (by show (1 : ℝ) = 1.8 / 1.8; norm_num)
  | R =>
    have e : (fun u : ℝ => toKelvin Scale.R.name u) = fun u => u / 1.8 := funext toK_R
    rw [e]; exact (h.div_const _).congr_deriv (by show (1 : ℝ) / 1.8 = 1 / 1.8; rfl)
  | F =>
    have e : (fun u : ℝ => toKelvin Scale.F.name u) = fun u => u / 1.8 + 255.3722222222222 := funext toK_F
    rw [e]; exact ((h.div_const _).add_const _).congr_deriv (by show (1 : ℝ) / 1.8 = 1 / 1.8; rfl)
  | eV =>
    have e : (fun u : ℝ => toKelvin Scale.eV.name u) = fun u => u * (const_q / const_k) := funext toK_eV
    rw [e]
    exact (h.mul_const _).congr_deriv (by
      show (1 : ℝ) * (const_q / const_k) = 1.8 * const_q / const_k / 1.8
      field_simp)

/-- From the derivative in K and J/kg to that in the user's units. -/
theorem slope_units {E : Env} {U : Sys} {B : Sub} {f : ℝ → ℝ} {c t : ℝ}
    (h : HasDerivAt f c (toKelvin U.T.name t)) :
    HasDerivAt (fun u => inUnitsKg E.a U B.mw .energy (f (toKelvin U.T.name u)))
      (inUnitsKg E.a U B.mw .entropy c) t := by
  have h1 := HasDerivAt.comp t h (toKelvin_slope U.T t)
  simp only [inUnitsKg, perKmol, inUnits]
  refine ((((h1.mul_const B.mw).div_const 1000).mul_const _).mul_const _).congr_deriv ?_
  ring

section
variable (E : Env) (U : Sys) (hU : Uses E U) (B : Sub) (hmw : B.mw ≠ 0) (S : Sol)
include hU hmw

/-- The state of a call with temperature and density, both scalars in range. -/
theorem td_call {u y : ℝ} (h1 : B.Tlo < toKelvin U.T.name u) (h2 : toKelvin U.T.name u < B.Thi) :
    ∃ o1 o2, mpArgparse E B S [] [("T", .scalar u), ("d", .scalar y)] = .ok
      { pts := [pick (satTD B (satDensStrict B) (some (toKelvin U.T.name u)) (internalKg E.a U B.mw .density y))
          (fun x => satPt B (some (toKelvin U.T.name u)) x)
          (onePt (some (toKelvin U.T.name u)) (some (internalKg E.a U B.mw .density y)))],
        callerT := o1, callerD := o2 } := by
  obtain ⟨o1, o2, h⟩ := argparse_TD hU hmw S (.scalar u) (.scalar y) ⟨toKelvin U.T.name u, by simp [Val.elems], h1.le, h2.le⟩
  refine ⟨o1, o2, ?_⟩
  rw [h]
  have c : clip B.Tlo B.Thi (toKelvin U.T.name u) = some (toKelvin U.T.name u) := clip_of_mem h1.le h2.le
  simp only [Val.elems, List.map_cons, List.map_nil, c, mpTD, broadcast, List.length_cons, List.length_nil,
    if_true, exOk, List.zip_cons_cons, List.zip_nil_right]
  rfl

theorem cv_gives {varg : List (Val ℝ)} {kw : Kw} {q : Pt} {o1 o2 : Option (List Nan)} {c : ℝ}
    (h : mpArgparse E B S varg kw = .ok { pts := [q], callerT := o1, callerD := o2 }) (hc : q.cv B = some c) :
    MpGives E B S varg kw .cv 0 (inUnitsKg E.a U B.mw .entropy c) := by
  refine ⟨[some (inUnitsKg E.a U B.mw .entropy c)], ?_, rfl⟩
  show mpCv E B S varg kw = _
  rw [mpCv_eq hU hmw, h, exOk]
  cases hq : q.I <;> simp [hq, outsKg, hc]

/-- **C74**, two phases: under the dome, in any units, the heat capacity `cv` returns is the derivative
by temperature, at constant density, of the energy `e` returns. -/
theorem C74_two_phase {Vo Vr : ℝ → ℝ → ℝ} {phi : ℝ → ℝ} {Uo W : Set (ℝ × ℝ)}
    (hF : IsFluid B.F Vo Vr phi Uo W) (hs : ContDiffOn ℝ 2 (fun z : ℝ × ℝ => Vr z.1 z.2) W)
    (hsc : B.F.To = B.F.Tr) (t y T d : ℝ) (hT : toKelvin U.T.name t = T)
    (hd : internalKg E.a U B.mw .density y = d) (hlo : B.Tlo < T) (hhi : T < B.Thi) (hTc : T < B.Tc)
    (h : SmoothDome B Uo W T) (hv : B.dsv T < d) (hl : d < B.dsl T) : CvIsSlope E B S t y := by
  subst hT
  have hk := (toKelvin_slope U.T t).continuousAt
  have hvp := h.vapor.dpos
  have hd0 : d ≠ 0 := by linarith
  have near : ∀ᶠ u in 𝓝 t, B.Tlo < toKelvin U.T.name u ∧ toKelvin U.T.name u < B.Thi ∧
      toKelvin U.T.name u < B.Tc ∧ B.dsv (toKelvin U.T.name u) < d ∧ d < B.dsl (toKelvin U.T.name u) ∧
      0 < B.dsv (toKelvin U.T.name u) := by
    have cv : ContinuousAt (fun u => B.dsv (toKelvin U.T.name u)) t := h.dsv.continuousAt.comp hk
    have cl : ContinuousAt (fun u => B.dsl (toKelvin U.T.name u)) t := h.dsl.continuousAt.comp hk
    filter_upwards [hk.eventually (eventually_gt_nhds hlo), hk.eventually (eventually_lt_nhds hhi),
      hk.eventually (eventually_lt_nhds hTc), cv.eventually (eventually_lt_nhds hv),
      cl.eventually (eventually_gt_nhds hl), cv.eventually (eventually_gt_nhds hvp)] with u a b c d e f
    exact ⟨a, b, c, d, e, f⟩
  have pt : ∀ u, B.Tlo < toKelvin U.T.name u ∧ toKelvin U.T.name u < B.Thi ∧
      toKelvin U.T.name u < B.Tc ∧ B.dsv (toKelvin U.T.name u) < d ∧ d < B.dsl (toKelvin U.T.name u) ∧
      0 < B.dsv (toKelvin U.T.name u) →
      ∃ o1 o2, mpArgparse E B S [] [("T", .scalar u), ("d", .scalar y)] = .ok
        { pts := [satPt B (some (toKelvin U.T.name u)) (some (qualityAt B d (toKelvin U.T.name u)))],
          callerT := o1, callerD := o2 } := by
    rintro u ⟨a1, a2, a3, a4, a5, a6⟩
    obtain ⟨o1, o2, hr⟩ := td_call E U hU B hmw S (y := y) a1 a2
    refine ⟨o1, o2, ?_⟩
    rw [hr, hd]
    have hne : B.dsl (toKelvin U.T.name u) / B.dsv (toKelvin U.T.name u) - 1 ≠ 0 := by
      rw [div_sub_one a6.ne']
      exact div_ne_zero (sub_ne_zero.mpr (lt_trans a4 a5).ne') a6.ne'
    have : satTD B (satDensStrict B) (some (toKelvin U.T.name u)) d
        = some (some (qualityAt B d (toKelvin U.T.name u))) := by
      simp only [satTD, Option.bind_some, if_pos a3, satDensStrict, if_pos (And.intro a5 a4), quot, if_neg hne,
        qualityAt]
    rw [this]
    rfl
  refine ⟨fun u => inUnitsKg E.a U B.mw .energy (mixtureE B d (toKelvin U.T.name u)),
    inUnitsKg E.a U B.mw .entropy (satCv B (toKelvin U.T.name t) (B.dsl (toKelvin U.T.name t))
      (B.dsv (toKelvin U.T.name t)) (qualityAt B d (toKelvin U.T.name t))),
    near.mono fun u hu => ?_, ?_, slope_units (mixture_cv hF hs hsc hd0 h)⟩
  · obtain ⟨o1, o2, hr⟩ := pt u hu
    exact (gives_iff hU hmw hr (by simp) (i := 0) rfl _).mpr rfl
  · obtain ⟨o1, o2, hr⟩ := pt t near.self_of_nhds
    exact cv_gives E U hU B hmw S hr rfl

/-- Off the dome the calls near a state return the single-phase energy and heat capacity. -/
theorem one_phase_slope (t y T d : ℝ) (hT : toKelvin U.T.name t = T)
    (hd : internalKg E.a U B.mw .density y = d) (hlo : B.Tlo < T) (hhi : T < B.Thi)
    (hder : HasDerivAt (fun u => (B.F.e u d).v) (B.F.cv T d) T) (h : OnePhase B T d) : CvIsSlope E B S t y := by
  subst hT
  have hk := (toKelvin_slope U.T t).continuousAt
  have near : ∀ᶠ u in 𝓝 t, B.Tlo < toKelvin U.T.name u ∧ toKelvin U.T.name u < B.Thi ∧
      satTD B (satDensStrict B) (some (toKelvin U.T.name u)) d = none := by
    have hsat : ∀ᶠ u in 𝓝 t, satTD B (satDensStrict B) (some (toKelvin U.T.name u)) d = none := by
      cases h with
      | super h1 =>
        filter_upwards [hk.eventually (eventually_gt_nhds h1)] with u hu
        simp only [satTD, Option.bind_some, if_neg (not_lt.mpr hu.le)]
      | gas h1 h2 h3 =>
        have c : ContinuousAt (fun u => B.dsv (toKelvin U.T.name u)) t := ContinuousAt.comp h2 hk
        filter_upwards [c.eventually (eventually_gt_nhds h3)] with u hu
        simp only [satTD, Option.bind_some, satDensStrict]
        rw [if_neg (c := d < B.dsl (toKelvin U.T.name u) ∧ _) (fun h => absurd h.2 (not_lt.mpr hu.le))]
        simp
      | fluid h1 h2 h3 =>
        have c : ContinuousAt (fun u => B.dsl (toKelvin U.T.name u)) t := ContinuousAt.comp h2 hk
        filter_upwards [c.eventually (eventually_lt_nhds h3)] with u hu
        simp only [satTD, Option.bind_some, satDensStrict]
        rw [if_neg (c := d < B.dsl (toKelvin U.T.name u) ∧ _) (fun h => absurd h.1 (not_lt.mpr hu.le))]
        simp
    filter_upwards [hk.eventually (eventually_gt_nhds hlo), hk.eventually (eventually_lt_nhds hhi), hsat] with u a b c
    exact ⟨a, b, c⟩
  have pt : ∀ u, B.Tlo < toKelvin U.T.name u ∧ toKelvin U.T.name u < B.Thi ∧
      satTD B (satDensStrict B) (some (toKelvin U.T.name u)) d = none →
      ∃ o1 o2, mpArgparse E B S [] [("T", .scalar u), ("d", .scalar y)] = .ok
        { pts := [onePt (some (toKelvin U.T.name u)) (some d)], callerT := o1, callerD := o2 } := by
    rintro u ⟨a1, a2, a3⟩
    obtain ⟨o1, o2, hr⟩ := td_call E U hU B hmw S (y := y) a1 a2
    refine ⟨o1, o2, ?_⟩
    rw [hr, hd, a3]
    rfl
  refine ⟨fun u => inUnitsKg E.a U B.mw .energy (B.F.e (toKelvin U.T.name u) d).v,
    inUnitsKg E.a U B.mw .entropy (B.F.cv (toKelvin U.T.name t) d),
    near.mono fun u hu => ?_, ?_, slope_units (f := fun T => (B.F.e T d).v) hder⟩
  · obtain ⟨o1, o2, hr⟩ := pt u hu
    exact (gives_iff hU hmw hr (by simp) (i := 0) rfl _).mpr rfl
  · obtain ⟨o1, o2, hr⟩ := pt t near.self_of_nhds
    exact cv_gives E U hU B hmw S hr rfl

/-- **C74**, one phase: the same off the dome. -/
theorem C74_one_phase {Vo Vr : ℝ → ℝ → ℝ} {phi : ℝ → ℝ} {Uo W : Set (ℝ × ℝ)}
    (hF : IsFluid B.F Vo Vr phi Uo W) (hsc : B.F.To = B.F.Tr) (t y T d : ℝ) (hT : toKelvin U.T.name t = T)
    (hd : internalKg E.a U B.mw .density y = d) (hlo : B.Tlo < T) (hhi : T < B.Thi)
    (hr : InRange B.F Uo W T d) (h : OnePhase B T d) : CvIsSlope E B S t y := by
  exact one_phase_slope E U hU B hmw S t y T d hT hd hlo hhi ((C50_cv hF hr).2 hsc) h

end

/-! ## With the code's own routines -/

theorem list_contDiff {α : Type} (l : List α) (f : α → ℝ × ℝ → ℝ) (W : Set (ℝ × ℝ))
    (h : ∀ a ∈ l, ContDiffOn ℝ 2 (f a) W) : ContDiffOn ℝ 2 (fun z => (l.map (fun a => f a z)).sum) W := by
  induction l with
  | nil => simpa using contDiffOn_const
  | cons a l ih =>
    simp only [List.map_cons, List.sum_cons]
    exact (h a (by simp)).add (ih fun b hb => h b (by simp [hb]))

/-- The quadrant of positive reduced temperature and density. -/
abbrev quadrant : Set (ℝ × ℝ) := {z : ℝ × ℝ | 0 < z.1 ∧ 0 < z.2}

theorem rpow_fst (a : ℝ) : ContDiffOn ℝ 2 (fun z : ℝ × ℝ => z.1 ^ a) quadrant := fun z hz =>
  (contDiff_fst.contDiffAt.rpow_const_of_ne hz.1.ne').contDiffWithinAt

theorem rpow_snd (a : ℝ) : ContDiffOn ℝ 2 (fun z : ℝ × ℝ => z.2 ^ a) quadrant := fun z hz =>
  (contDiff_snd.contDiffAt.rpow_const_of_ne hz.2.ne').contDiffWithinAt

theorem poly2_contDiff (gs : List Group2) : ContDiffOn ℝ 2 (fun z : ℝ × ℝ => poly2At gs z.1 z.2) quadrant := by
  unfold poly2At
  refine list_contDiff gs _ _ fun g _ => ?_
  refine ((rpow_fst _).mul (rpow_snd _)).mul (list_contDiff g.terms _ _ fun t _ => ?_)
  exact (contDiffOn_const.mul ((rpow_fst _).pow _)).mul ((rpow_snd _).pow _)

theorem exps_contDiff (l : List (List Group2)) (k : Nat) :
    ContDiffOn ℝ 2 (fun z : ℝ × ℝ => expsVal z.1 z.2 l k) quadrant := by
  induction l generalizing k with
  | nil => exact contDiffOn_const
  | cons gs l ih =>
    simp only [expsVal]
    exact ((contDiffOn_snd.pow k).neg.exp.mul (poly2_contDiff gs)).add (ih (k + 1))

/-- The residual part of data without non-analytic terms is twice continuously differentiable. -/
theorem ar_contDiff (g : ARgroup) (h2 : g.coef2 = []) :
    ContDiffOn ℝ 2 (fun z : ℝ × ℝ => arVal g z.1 z.2) quadrant := by
  unfold arVal
  simp only [h2, List.map_nil, List.sum_nil, add_zero]
  refine ((poly2_contDiff _).add (exps_contDiff _ _)).add (list_contDiff g.coef1 _ _ fun r _ => ?_)
  unfold gaussVal
  refine ((contDiffOn_const.mul (rpow_snd _)).mul (rpow_fst _)).mul (ContDiffOn.exp ?_)
  exact (contDiffOn_const.mul ((contDiffOn_snd.sub contDiffOn_const).pow 2)).sub
    (contDiffOn_const.mul ((contDiffOn_fst.sub contDiffOn_const).pow 2))

/-- **C74** for the code's own Helmholtz routines with any data without non-analytic terms: under the
dome, off it, and in any units. -/
theorem C74_code (E : Env) (U : Sys) (hU : Uses E U) (B : Sub) (hmw : B.mw ≠ 0) (S : Sol)
    (R Ts dso dsr : ℝ) (hR : 0 < R) (hTs : 0 < Ts) (hdso : 0 < dso) (hdsr : 0 < dsr)
    (ago : AOgroup) (ho : ∀ q ∈ ago.coef0.getD [], Sorted1 q) (ho1 : ∀ r ∈ ago.coef1, 0 < r.1)
    (agr : ARgroup) (hr : ArData agr) (h2 : agr.coef2 = [])
    (hB : B.F = codeFluid R Ts dso Ts dsr ago agr) (t y T d : ℝ) (hT : toKelvin U.T.name t = T)
    (hd : internalKg E.a U B.mw .density y = d) (hT0 : 0 < T) (hd0 : 0 < d) (hlo : B.Tlo < T)
    (hhi : T < B.Thi)
    (h : OnePhase B T d ∨ T < B.Tc ∧ 0 < B.dsv T ∧ B.dsv T < d ∧ d < B.dsl T ∧
      HasDerivAt B.dsl (B.dslT T) T ∧ HasDerivAt B.dsv (B.dsvT T) T) :
    CvIsSlope E B S t y := by
  have hF : IsFluid B.F (aoVal ago) (arVal agr) (aoPhi ago) quadrant quadrant := by
    rw [hB]
    exact code_isFluid R Ts dso Ts dsr hR hTs hdso hTs hdsr ago ho ho1 agr hr h2
  have hin : ∀ D, 0 < D → InRange B.F quadrant quadrant T D := fun D hD => by
    rw [hB]
    exact ⟨hT0, hD, ⟨div_pos hTs hT0, div_pos hD hdso⟩, ⟨div_pos hTs hT0, div_pos hD hdsr⟩⟩
  have hsc : B.F.To = B.F.Tr := by rw [hB]; rfl
  rcases h with h | ⟨h1, h3, h4, h5, h6, h7⟩
  · exact C74_one_phase E U hU B hmw S hF hsc t y T d hT hd hlo hhi (hin d hd0) h
  · exact C74_two_phase E U hU B hmw S hF (ar_contDiff agr h2) hsc t y T d hT hd hlo hhi h1
      ⟨h6, h7, hin _ (by linarith), hin _ h3, by linarith⟩ h4 h5

/-- The hypotheses of C74 are met: 500 K and 2 kg/m3 under the dome of the example substance, with the
ideal-gas part of a monatomic gas and one residual term. -/
example : ∃ (B : Sub) (y : ℝ), B.mw ≠ 0 ∧ B.Tlo < 500 ∧ (500 : ℝ) < B.Thi ∧
    internalKg fullEnv.a exampleSys B.mw .density y = 2 ∧ toKelvin exampleSys.T.name 500 = (500 : ℝ) ∧
    (500 : ℝ) < B.Tc ∧ 0 < B.dsv 500 ∧ B.dsv 500 < 2 ∧ 2 < B.dsl 500 ∧
    HasDerivAt B.dsl (B.dslT 500) 500 ∧ HasDerivAt B.dsv (B.dsvT 500) 500 ∧
    ∃ agr : ARgroup, ArData agr ∧ agr.coef2 = [] ∧ B.F = codeFluid 461 647 322 647 322 ⟨some 1.5, none, none, []⟩ agr := by
  have hr : ArData ⟨[[⟨1, 1, 0, 0, [(1, 1, 1)]⟩]], [], []⟩ := by
    refine ⟨by simp, ?_, ?_⟩
    · intro gs hgs q hq
      simp only [List.mem_singleton] at hgs
      subst hgs
      simp only [List.mem_singleton] at hq
      subst hq
      exact ⟨by simp, by simp⟩
    · intro gs hgs q hq
      simp only [List.mem_singleton] at hgs
      subst hgs
      simp only [List.mem_singleton] at hq
      subst hq
      intro _; rfl
  refine ⟨{ demoSub with F := codeFluid 461 647 322 647 322 ⟨some 1.5, none, none, []⟩ ⟨[[⟨1, 1, 0, 0, [(1, 1, 1)]⟩]], [], []⟩ },
    inUnitsKg fullEnv.a exampleSys demoSub.mw .density 2, demo_dome.mw.ne', by norm_num [demoSub], by norm_num [demoSub],
    internalKg_inUnitsKg fullEnv_uses demo_dome.mw.ne' .density 2, ?_, by norm_num [demoSub], by norm_num [demoSub],
    by norm_num [demoSub], by norm_num [demoSub], ?_, ?_, _, hr, rfl, rfl⟩
  · show toKelvin Scale.K.name 500 = (500 : ℝ); exact toK_K _
  · have h : HasDerivAt (fun u : ℝ => u) 1 500 := hasDerivAt_id 500
    exact h.const_sub 800
  · exact hasDerivAt_const 500 (1 : ℝ)

end PyroMat.Mp.Props
