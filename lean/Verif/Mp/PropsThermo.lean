import Verif.Mp.SpecThermo
import Verif.Mp.PropsAr

/-!
# C50: single-phase properties derive from one Helmholtz function
-/

set_option linter.unusedSimpArgs false

namespace PyroMat.Mp.Props

open PyroMat PyroMat.Mp PyroMat.Mp.Spec Filter Topology

theorem evx {U : Set (ℝ × ℝ)} (hU : IsOpen U) {x y : ℝ} (h : (x, y) ∈ U) :
    ∀ᶠ s in 𝓝 x, (s, y) ∈ U :=
  (Continuous.prodMk_left y).continuousAt.eventually (hU.mem_nhds h)

theorem evy {U : Set (ℝ × ℝ)} (hU : IsOpen U) {x y : ℝ} (h : (x, y) ∈ U) :
    ∀ᶠ s in 𝓝 y, (x, s) ∈ U :=
  (Continuous.prodMk_right x).continuousAt.eventually (hU.mem_nhds h)

theorem right_jet {U : Set (ℝ × ℝ)} {V : ℝ → ℝ → ℝ} {F : ℝ → ℝ → J6} (h : Right U V F) {x y : ℝ}
    (hxy : (x, y) ∈ U) : Jet2 F x y := by
  have hi := h.is x y hxy
  have ex := evx h.isOpen hxy
  have ey := evy h.isOpen hxy
  refine ⟨?_, ?_, ?_, ?_, ?_, ?_⟩
  · exact hi.dx.congr_of_eventuallyEq (ex.mono fun s hs => (h.is s y hs).val)
  · exact hi.dy.congr_of_eventuallyEq (ey.mono fun s hs => (h.is x s hs).val)
  · exact hi.dxx.congr_of_eventuallyEq (ex.mono fun s hs => (h.is s y hs).dx.deriv.symm)
  · exact hi.dxy.congr_of_eventuallyEq (ey.mono fun s hs => (h.is x s hs).dx.deriv.symm)
  · exact hi.dyx.congr_of_eventuallyEq (ex.mono fun s hs => (h.is s y hs).dy.deriv.symm)
  · exact hi.dyy.congr_of_eventuallyEq (ey.mono fun s hs => (h.is x s hs).dy.deriv.symm)

/-- The reduced temperature. -/
noncomputable def redT (c T : ℝ) : P3 := ⟨c / T, -(c / T) / T, 2 * (c / T) / T / T⟩

theorem redT_jet (c : ℝ) {T : ℝ} (hT : T ≠ 0) : Jet1 (redT c) T := by
  refine ((Jet1.const c T).mul (inv_jet hT)).congr (Eventually.of_forall fun s => ?_)
  simp only [redT]
  congr 1 <;> ring

/-- The reduced density. -/
noncomputable def redD (c d : ℝ) : P3 := ⟨d / c, 1 / c, 0⟩

theorem redD_jet (c d : ℝ) : Jet1 (redD c) d :=
  ⟨by simpa [redD] using (hasDerivAt_id d).div_const c, hasDerivAt_const d _⟩

/-- A routine of the reduced state as a function of the state. -/
noncomputable def atState (G : ℝ → ℝ → J6) (c e T d : ℝ) : J6 :=
  let j := G (c / T) (d / e)
  ⟨j.p, j.px * (-(c / T) / T), j.py * (1 / e),
    j.pxx * (-(c / T) / T) * (-(c / T) / T) + j.px * (2 * (c / T) / T / T),
    j.pxy * (-(c / T) / T) * (1 / e), j.pyy * (1 / e) * (1 / e) + j.py * 0⟩

theorem atState_jet {G : ℝ → ℝ → J6} {c e T d : ℝ} (h : Jet2 G (c / T) (d / e)) (hT : T ≠ 0) :
    Jet2 (atState G c e) T d :=
  Jet2.comp (X := redT c) (Y := redD e) h (redT_jet c hT) (redD_jet e d)

/-- The Helmholtz energy with its derivatives. -/
noncomputable def fJ (F : Fluid) (T d : ℝ) : J6 :=
  (J6.mul ⟨F.R, 0, 0, 0, 0, 0⟩ (P3.liftX ⟨T, 1, 0⟩)).mul
    ((atState F.o F.To F.dso T d).add (atState F.r F.Tr F.dsr T d))

variable {F : Fluid} {Vo Vr : ℝ → ℝ → ℝ} {phi : ℝ → ℝ} {Uo U : Set (ℝ × ℝ)}

theorem fJ_jet (hF : IsFluid F Vo Vr phi Uo U) {T d : ℝ} (h : InRange F Uo U T d) :
    Jet2 (fJ F) T d :=
  ((Jet2.const F.R T d).mul (Jet2.liftX (Jet1.id T) d)).mul
    ((atState_jet (right_jet hF.o h.o) h.Tpos.ne').add (atState_jet (right_jet hF.r h.r) h.Tpos.ne'))

theorem fJ_value (hF : IsFluid F Vo Vr phi Uo U) {T d : ℝ} (h : InRange F Uo U T d) :
    (fJ F T d).p = helmholtz F Vo Vr T d := by
  simp only [fJ, J6.mul, J6.add, P3.liftX, atState, helmholtz]
  rw [(hF.o.is _ _ h.o).val, (hF.r.is _ _ h.r).val]

/-- The density derivatives of the ideal part. -/
theorem ideal_der (hF : IsFluid F Vo Vr phi Uo U) {x y : ℝ} (hy : 0 < y) (h : (x, y) ∈ Uo) :
    (F.o x y).py = 1 / y ∧ (F.o x y).pxy = 0 ∧ (F.o x y).pyy = -(1 / y) / y := by
  have hdy : ∀ a b, 0 < b → HasDerivAt (fun u => Vo a u) (1 / b) b := by
    intro a b hb
    have := (log_jet hb.ne').d1.add_const (phi a)
    refine this.congr_of_eventuallyEq ?_
    filter_upwards [eventually_gt_nhds hb] with u hu using hF.ideal a u hu
  have hi := hF.o.is x y h
  refine ⟨hi.dy.unique (hdy x y hy), ?_, ?_⟩
  · refine hi.dyx.unique ?_
    have e : (fun s => deriv (fun u => Vo s u) y) = fun _ => 1 / y :=
      funext fun s => (hdy s y hy).deriv
    rw [e]
    exact hasDerivAt_const x _
  · refine hi.dyy.unique ?_
    refine (inv_jet hy.ne').d1.congr_of_eventuallyEq ?_
    filter_upwards [eventually_gt_nhds hy] with u hu using (hdy x u hu).deriv

/-- The states around a state in range are in range. -/
theorem inRange_T (hF : IsFluid F Vo Vr phi Uo U) {T d : ℝ} (h : InRange F Uo U T d) :
    ∀ᶠ u in 𝓝 T, InRange F Uo U u d := by
  have c1 : ContinuousAt (fun u => (F.To / u, d / F.dso)) T :=
    (continuousAt_const.div continuousAt_id h.Tpos.ne').prodMk continuousAt_const
  have c2 : ContinuousAt (fun u => (F.Tr / u, d / F.dsr)) T :=
    (continuousAt_const.div continuousAt_id h.Tpos.ne').prodMk continuousAt_const
  filter_upwards [eventually_gt_nhds h.Tpos, c1.eventually (hF.o.isOpen.mem_nhds h.o),
    c2.eventually (hF.r.isOpen.mem_nhds h.r)] with u h1 h2 h3
  exact ⟨h1, h.dpos, h2, h3⟩

theorem inRange_d (hF : IsFluid F Vo Vr phi Uo U) {T d : ℝ} (h : InRange F Uo U T d) :
    ∀ᶠ u in 𝓝 d, InRange F Uo U T u := by
  have c1 : ContinuousAt (fun u => (F.To / T, u / F.dso)) d :=
    continuousAt_const.prodMk (continuousAt_id.div_const _)
  have c2 : ContinuousAt (fun u => (F.Tr / T, u / F.dsr)) d :=
    continuousAt_const.prodMk (continuousAt_id.div_const _)
  filter_upwards [eventually_gt_nhds h.dpos, c1.eventually (hF.o.isOpen.mem_nhds h.o),
    c2.eventually (hF.r.isOpen.mem_nhds h.r)] with u h1 h2 h3
  exact ⟨h.Tpos, h1, h2, h3⟩

/-- Every routine in terms of the derivatives of the Helmholtz energy. -/
theorem by_fJ (hF : IsFluid F Vo Vr phi Uo U) {T d : ℝ} (h : InRange F Uo U T d) :
    F.p T d = ⟨d ^ 2 * (fJ F T d).py, d ^ 2 * (fJ F T d).pxy,
      2 * d * (fJ F T d).py + d ^ 2 * (fJ F T d).pyy⟩ ∧
    F.s T d = ⟨-(fJ F T d).px, -(fJ F T d).pxx, -(fJ F T d).pxy⟩ ∧
    F.f T d = ⟨(fJ F T d).p, (fJ F T d).px, (fJ F T d).py⟩ ∧
    F.h T d = ⟨(fJ F T d).p - T * (fJ F T d).px + d * (fJ F T d).py,
      -T * (fJ F T d).pxx + d * (fJ F T d).pxy,
      2 * (fJ F T d).py - T * (fJ F T d).pxy + d * (fJ F T d).pyy⟩ ∧
    F.g T d = ⟨(fJ F T d).p + d * (fJ F T d).py, (fJ F T d).px + d * (fJ F T d).pxy,
      2 * (fJ F T d).py + d * (fJ F T d).pyy⟩ ∧
    F.cv T d = -T * (fJ F T d).pxx := by
  have hdo : 0 < d / F.dso := div_pos h.dpos hF.dso
  obtain ⟨i1, i2, i3⟩ := ideal_der hF hdo h.o
  have hT := h.Tpos.ne'
  have hd := h.dpos.ne'
  have h1 := hF.dso.ne'
  have h2 := hF.dsr.ne'
  have h3 := hF.To.ne'
  have h4 := hF.Tr.ne'
  simp only [Fluid.p, Fluid.s, Fluid.f, Fluid.h, Fluid.g, Fluid.cv, Fluid.ao, Fluid.ar, fJ, J6.mul,
    J6.add, P3.liftX, atState, i1, i2, i3]
  generalize F.r (F.Tr / T) (d / F.dsr) = a
  generalize F.o (F.To / T) (d / F.dso) = o
  refine ⟨?_, ?_, ?_, ?_, ?_, ?_⟩
  pick_goal 6
  · field_simp
    ring
  all_goals congr 1
  all_goals first | ring1 | (field_simp; done) | (field_simp; ring1)

theorem e_by_fJ (hF : IsFluid F Vo Vr phi Uo U) (hs : F.To = F.Tr) {T d : ℝ}
    (h : InRange F Uo U T d) :
    F.e T d = ⟨(fJ F T d).p - T * (fJ F T d).px, -T * (fJ F T d).pxx,
      (fJ F T d).py - T * (fJ F T d).pxy⟩ := by
  have hdo : 0 < d / F.dso := div_pos h.dpos hF.dso
  obtain ⟨i1, i2, i3⟩ := ideal_der hF hdo h.o
  have hT := h.Tpos.ne'
  have hd := h.dpos.ne'
  have h1 := hF.dso.ne'
  have h2 := hF.dsr.ne'
  have h4 := hF.Tr.ne'
  rw [hs] at i1 i2 i3
  simp only [Fluid.e, Fluid.ao, Fluid.ar, fJ, J6.mul, J6.add, P3.liftX, atState, i1, i2, i3, hs]
  generalize F.r (F.Tr / T) (d / F.dsr) = a
  generalize F.o (F.Tr / T) (d / F.dso) = o
  congr 1
  all_goals first | ring1 | (field_simp; done) | (field_simp; ring1)

/-! ## The property -/

/-- **C50.** The free energy is the Helmholtz energy; pressure is `d²` times its density derivative;
entropy is minus its temperature derivative. -/
theorem C50_pressure_entropy (hF : IsFluid F Vo Vr phi Uo U) {T d : ℝ} (h : InRange F Uo U T d) :
    (F.f T d).v = helmholtz F Vo Vr T d ∧
    HasDerivAt (fun u => helmholtz F Vo Vr T u) ((F.p T d).v / d ^ 2) d ∧
    HasDerivAt (fun u => helmholtz F Vo Vr u d) (-(F.s T d).v) T := by
  obtain ⟨hp, hs, hf, -, -, -⟩ := by_fJ hF h
  have hj := fJ_jet hF h
  have hd := h.dpos.ne'
  refine ⟨?_, ?_, ?_⟩
  · rw [hf]; exact fJ_value hF h
  · have := hj.dy.congr_of_eventuallyEq ((inRange_d hF h).mono fun u hu => (fJ_value hF hu).symm)
    refine this.congr_deriv ?_
    rw [hp]
    field_simp
  · have := hj.dx.congr_of_eventuallyEq ((inRange_T hF h).mono fun u hu => (fJ_value hF hu).symm)
    refine this.congr_deriv ?_
    rw [hs]
    ring

/-- **C50.** Energy, enthalpy and Gibbs energy are the usual combinations, the energy provided both
groups of the data use one temperature scale, as all shipped data do. -/
theorem C50_combinations (hF : IsFluid F Vo Vr phi Uo U) {T d : ℝ} (h : InRange F Uo U T d) :
    (F.h T d).v = (F.f T d).v + T * (F.s T d).v + (F.p T d).v / d ∧
    (F.g T d).v = (F.h T d).v - T * (F.s T d).v ∧
    (F.To = F.Tr → (F.e T d).v = (F.f T d).v + T * (F.s T d).v ∧
      (F.h T d).v = (F.e T d).v + (F.p T d).v / d) := by
  obtain ⟨hp, hs, hf, hh, hg, -⟩ := by_fJ hF h
  have hd := h.dpos.ne'
  refine ⟨?_, ?_, fun hsc => ⟨?_, ?_⟩⟩
  · rw [hp, hs, hf, hh]; field_simp; ring
  · rw [hs, hg, hh]; ring
  · rw [e_by_fJ hF hsc h, hf, hs]; ring
  · rw [e_by_fJ hF hsc h, hh, hp]; field_simp

/-- **C50.** The numbers returned with pressure, energy, enthalpy, entropy, free energy and Gibbs
energy are their derivatives by temperature and by density. -/
theorem C50_derivatives (hF : IsFluid F Vo Vr phi Uo U) {T d : ℝ} (h : InRange F Uo U T d) :
    HasPartials F.p T d ∧ HasPartials F.h T d ∧ HasPartials F.s T d ∧ HasPartials F.f T d ∧
      HasPartials F.g T d ∧ (F.To = F.Tr → HasPartials F.e T d) := by
  have hj := fJ_jet hF h
  have eT := inRange_T hF h
  have ed := inRange_d hF h
  obtain ⟨hp, hs, hf, hh, hg, -⟩ := by_fJ hF h
  have idT := hasDerivAt_id T
  have idd := hasDerivAt_id d
  refine ⟨⟨?_, ?_⟩, ⟨?_, ?_⟩, ⟨?_, ?_⟩, ⟨?_, ?_⟩, ⟨?_, ?_⟩, fun hsc => ⟨?_, ?_⟩⟩
  · refine ((hj.dyx.const_mul (d ^ 2)).congr_of_eventuallyEq (eT.mono fun u hu => ?_)).congr_deriv ?_
    · show (F.p u d).v = _
      rw [(by_fJ hF hu).1]
    · rw [hp]
  · refine (((idd.pow 2).mul hj.dyy).congr_of_eventuallyEq (ed.mono fun u hu => ?_)).congr_deriv ?_
    · show (F.p T u).v = _
      rw [(by_fJ hF hu).1]; rfl
    · rw [hp]; simp
  · refine (((hj.dx.sub (idT.mul hj.dxx)).add (hj.dyx.const_mul d)).congr_of_eventuallyEq
      (eT.mono fun u hu => ?_)).congr_deriv ?_
    · show (F.h u d).v = _
      rw [(by_fJ hF hu).2.2.2.1]; rfl
    · rw [hh]; simp
  · refine (((hj.dy.sub (hj.dxy.const_mul T)).add (idd.mul hj.dyy)).congr_of_eventuallyEq
      (ed.mono fun u hu => ?_)).congr_deriv ?_
    · show (F.h T u).v = _
      rw [(by_fJ hF hu).2.2.2.1]; rfl
    · rw [hh]; simp; ring
  · refine (hj.dxx.neg.congr_of_eventuallyEq (eT.mono fun u hu => ?_)).congr_deriv ?_
    · show (F.s u d).v = _
      rw [(by_fJ hF hu).2.1]; rfl
    · rw [hs]
  · refine (hj.dxy.neg.congr_of_eventuallyEq (ed.mono fun u hu => ?_)).congr_deriv ?_
    · show (F.s T u).v = _
      rw [(by_fJ hF hu).2.1]; rfl
    · rw [hs]
  · refine (hj.dx.congr_of_eventuallyEq (eT.mono fun u hu => ?_)).congr_deriv ?_
    · show (F.f u d).v = _
      rw [(by_fJ hF hu).2.2.1]
    · rw [hf]
  · refine (hj.dy.congr_of_eventuallyEq (ed.mono fun u hu => ?_)).congr_deriv ?_
    · show (F.f T u).v = _
      rw [(by_fJ hF hu).2.2.1]
    · rw [hf]
  · refine ((hj.dx.add (hj.dyx.const_mul d)).congr_of_eventuallyEq
      (eT.mono fun u hu => ?_)).congr_deriv ?_
    · show (F.g u d).v = _
      rw [(by_fJ hF hu).2.2.2.2.1]; rfl
    · rw [hg]
  · refine ((hj.dy.add (idd.mul hj.dyy)).congr_of_eventuallyEq
      (ed.mono fun u hu => ?_)).congr_deriv ?_
    · show (F.g T u).v = _
      rw [(by_fJ hF hu).2.2.2.2.1]; rfl
    · rw [hg]; simp; ring
  · refine ((hj.dx.sub (idT.mul hj.dxx)).congr_of_eventuallyEq
      (eT.mono fun u hu => ?_)).congr_deriv ?_
    · show (F.e u d).v = _
      rw [e_by_fJ hF hsc hu]; rfl
    · rw [e_by_fJ hF hsc h]; simp
  · refine ((hj.dy.sub (hj.dxy.const_mul T)).congr_of_eventuallyEq
      (ed.mono fun u hu => ?_)).congr_deriv ?_
    · show (F.e T u).v = _
      rw [e_by_fJ hF hsc hu]; rfl
    · rw [e_by_fJ hF hsc h]

/-- **C50.** The isochoric heat capacity is the temperature derivative of the energy at constant
density, and `T` times that of the entropy. -/
theorem C50_cv (hF : IsFluid F Vo Vr phi Uo U) {T d : ℝ} (h : InRange F Uo U T d) :
    HasDerivAt (fun u => (F.s u d).v) (F.cv T d / T) T ∧
    (F.To = F.Tr → HasDerivAt (fun u => (F.e u d).v) (F.cv T d) T) := by
  obtain ⟨-, -, hs, -, -, he⟩ := C50_derivatives hF h
  obtain ⟨-, hs', -, -, -, hcv⟩ := by_fJ hF h
  have hT := h.Tpos.ne'
  refine ⟨hs.dT.congr_deriv ?_, fun hsc => (he hsc).dT.congr_deriv ?_⟩
  · rw [hs', hcv]; field_simp
  · rw [e_by_fJ hF hsc h, hcv]

/-- **C50.** The isobaric heat capacity is `(∂h/∂T)_d - (∂h/∂d)_T (∂p/∂T)_d / (∂p/∂d)_T`, the
temperature derivative of the enthalpy at constant pressure. -/
theorem C50_cp (hF : IsFluid F Vo Vr phi Uo U) {T d : ℝ} (h : InRange F Uo U T d)
    (hpd : (F.p T d).vd ≠ 0) :
    F.cp T d = (F.h T d).vT - (F.h T d).vd * (F.p T d).vT / (F.p T d).vd := by
  have hdo : 0 < d / F.dso := div_pos h.dpos hF.dso
  obtain ⟨i1, i2, i3⟩ := ideal_der hF hdo h.o
  have hT := h.Tpos.ne'
  have hd := h.dpos.ne'
  have h1 := hF.dso.ne'
  have h2 := hF.dsr.ne'
  have hR := hF.R.ne'
  simp only [Fluid.p, Fluid.h, Fluid.cp, Fluid.ao, Fluid.ar, i1, i2, i3] at hpd ⊢
  generalize F.r (F.Tr / T) (d / F.dsr) = a at *
  generalize F.o (F.To / T) (d / F.dso) = o at *
  have hq : 1 + 2 * (d / F.dsr) * a.py + d / F.dsr * (d / F.dsr) * a.pyy ≠ 0 :=
    (mul_ne_zero_iff.mp hpd).2
  have e1 : 1 + d / F.dsr * (2 * a.py + d / F.dsr * a.pyy) =
      1 + 2 * (d / F.dsr) * a.py + d / F.dsr * (d / F.dsr) * a.pyy := by ring
  rw [e1]
  have e2 : (a.py + d / F.dsr * a.pyy + F.Tr / T * a.pxy) / F.dsr =
      ((1 + 2 * (d / F.dsr) * a.py + d / F.dsr * (d / F.dsr) * a.pyy) -
        (1 + d / F.dsr * (a.py - F.Tr / T * a.pxy))) / d := by
    field_simp
    ring
  have e3 : 1 + d / F.dsr * a.py - F.Tr / T * (d / F.dsr) * a.pxy =
      1 + d / F.dsr * (a.py - F.Tr / T * a.pxy) := by ring
  rw [e2, e3]
  generalize 1 + 2 * (d / F.dsr) * a.py + d / F.dsr * (d / F.dsr) * a.pyy = q at *
  have e4 : d / F.dsr * a.py - F.Tr / T * (F.Tr / T * a.pxx + d / F.dsr * a.pxy) =
      (1 + d / F.dsr * (a.py - F.Tr / T * a.pxy)) - 1 - F.Tr / T * (F.Tr / T) * a.pxx := by ring
  rw [e4]
  generalize 1 + d / F.dsr * (a.py - F.Tr / T * a.pxy) = c
  field_simp
  ring

/-- **C50.** The speed of sound is the square root of `(∂p/∂d)_T - (∂p/∂T)_d (∂s/∂d)_T / (∂s/∂T)_d`,
the density derivative of the pressure at constant entropy. -/
theorem C50_sound (hF : IsFluid F Vo Vr phi Uo U) {T d : ℝ} (h : InRange F Uo U T d)
    (hs : (F.s T d).vT ≠ 0) :
    F.a T d = Real.sqrt ((F.p T d).vd - (F.p T d).vT * (F.s T d).vd / (F.s T d).vT) := by
  have hdo : 0 < d / F.dso := div_pos h.dpos hF.dso
  obtain ⟨i1, i2, i3⟩ := ideal_der hF hdo h.o
  have hT := h.Tpos.ne'
  have hd := h.dpos.ne'
  have h1 := hF.dso.ne'
  have h2 := hF.dsr.ne'
  have hR := hF.R.ne'
  simp only [Fluid.p, Fluid.s, Fluid.a, Fluid.ao, Fluid.ar, i1, i2, i3] at hs ⊢
  congr 1
  generalize F.r (F.Tr / T) (d / F.dsr) = a at *
  generalize F.o (F.To / T) (d / F.dso) = o at *
  have hq := (mul_ne_zero_iff.mp hs).1
  generalize F.To / T * (F.To / T) * o.pxx + F.Tr / T * (F.Tr / T) * a.pxx = q at *
  have e2 : (F.To / T * 0 - 1 / (d / F.dso)) / F.dso + (F.Tr / T * a.pxy - a.py) / F.dsr =
      -(1 + d / F.dsr * (a.py - F.Tr / T * a.pxy)) / d := by
    field_simp
    ring
  have e3 : 1 + d / F.dsr * a.py - F.Tr / T * (d / F.dsr) * a.pxy =
      1 + d / F.dsr * (a.py - F.Tr / T * a.pxy) := by ring
  rw [e2, e3]
  generalize 1 + d / F.dsr * (a.py - F.Tr / T * a.pxy) = c
  field_simp
  ring

/-! ## With the code's own routines -/

/-- What is added to `log dd` in the ideal part. -/
noncomputable def aoPhi (g : AOgroup) (t : ℝ) : ℝ :=
  g.logt.getD 0 * Real.log t + g.tlogt.getD 0 * t * Real.log t + poly1At (g.coef0.getD []) t +
    (g.coef1.map (fun r => r.2 * Real.log (1 - Real.exp (-r.1 * t)))).sum

theorem code_isFluid (R To dso Tr dsr : ℝ) (hR : 0 < R) (hTo : 0 < To) (hdso : 0 < dso) (hTr : 0 < Tr)
    (hdsr : 0 < dsr) (ago : AOgroup) (ho : ∀ q ∈ ago.coef0.getD [], Sorted1 q)
    (ho1 : ∀ r ∈ ago.coef1, 0 < r.1) (agr : ARgroup) (hr : ArData agr) (h2 : agr.coef2 = []) :
    IsFluid (codeFluid R To dso Tr dsr ago agr) (aoVal ago) (arVal agr) (aoPhi ago)
      {z : ℝ × ℝ | 0 < z.1 ∧ 0 < z.2} {z : ℝ × ℝ | 0 < z.1 ∧ 0 < z.2} := by
  refine ⟨hR, hTo, hTr, hdso, hdsr, ?_, ?_, ?_⟩
  · intro x y _
    simp only [aoVal, aoPhi]
    ring
  · refine ⟨quadrant_open, fun x y hxy => ?_⟩
    obtain ⟨j, hj, hi⟩ := C48_ideal_part ago ho ho1 x y hxy.1 hxy.2
    simpa [codeFluid, hj, orZero] using hi
  · refine ⟨quadrant_open, fun x y hxy => ?_⟩
    obtain ⟨js, hjs, hi⟩ := C49_residual_analytic agr hr h2 [(x, y)] (by simpa using hxy)
    have hf : arAt agr 2 [(x, y)] x y = .ok (arF agr x y) := by
      rw [arAt_eq agr hr.some hr.sorted]
      simp [arF, h2]
    have hv : Is2 (arVal agr) x y (arF agr x y) :=
      arF_is agr hr (by simp [h2]) hxy.1 hxy.2 (by simp [h2])
    simpa [codeFluid, hf, orZero] using hv

/-- **C50.** The hypotheses of the theorems above hold, at every positive temperature and density, of
the code's own ideal-gas and residual routines with any data without non-analytic terms (polynomials
in the documented order and within the limits of C47). -/
theorem C50_code (R To dso Tr dsr : ℝ) (hR : 0 < R) (hTo : 0 < To) (hdso : 0 < dso) (hTr : 0 < Tr)
    (hdsr : 0 < dsr) (ago : AOgroup) (ho : ∀ q ∈ ago.coef0.getD [], Sorted1 q)
    (ho1 : ∀ r ∈ ago.coef1, 0 < r.1) (agr : ARgroup) (hr : ArData agr) (h2 : agr.coef2 = []) :
    ∃ U, IsFluid (codeFluid R To dso Tr dsr ago agr) (aoVal ago) (arVal agr) (aoPhi ago) U U ∧
      ∀ T d, 0 < T → 0 < d → InRange (codeFluid R To dso Tr dsr ago agr) U U T d := by
  refine ⟨{z : ℝ × ℝ | 0 < z.1 ∧ 0 < z.2}, code_isFluid R To dso Tr dsr hR hTo hdso hTr hdsr ago ho ho1 agr hr h2, ?_⟩
  · intro T d hT hd
    exact ⟨hT, hd, ⟨div_pos hTo hT, div_pos hd hdso⟩, ⟨div_pos hTr hT, div_pos hd hdsr⟩⟩

/-! ## Disagreement -/

/-- **C50 disagreement.** With non-analytic terms, as carbon dioxide and water have, the temperature
derivative returned with the pressure is not the derivative of the pressure, because the mixed
derivative of the residual part is wrong (`C49_mixed_defect`); heat capacity `cp` and speed of sound
use the same number.  For a fluid with residual part `dd ((tt-1)² + (dd-1)²)` at `T = 1`, `d = 2` the
derivative is 10 and the routine returns -22. -/
theorem C50_mixed_defect :
    ∃ agr, ArData agr ∧ (∀ r ∈ agr.coef2, 0 < r.B) ∧
      HasDerivAt (fun u => ((codeFluid 1 2 1 2 1 ⟨none, none, none, []⟩ agr).p u 2).v) 10 1 ∧
      ((codeFluid 1 2 1 2 1 ⟨none, none, none, []⟩ agr).p 1 2).vT = -22 := by
  have hs : ∀ t : ℝ, anySmall [(t, 2)] = false := by
    intro t
    simp only [anySmall, List.any_eq_false, decide_eq_true_eq, not_lt, List.mem_singleton]
    rintro z rfl
    norm_num
  have ht : ∀ t : ℝ, anyTiny demoRow [(t, 2)] = false := by
    intro t
    simp only [anyTiny, List.any_eq_false, decide_eq_true_eq, not_lt, List.mem_singleton]
    rintro z rfl
    rw [demo_delta, abs_of_nonneg]
    · have := sq_nonneg (t - 1)
      simp only
      norm_num
      linarith
    · have := sq_nonneg (t - 1)
      simp only
      norm_num
      linarith
  have hr : ∀ t : ℝ, orZero (arAt demoAr 2 [(t, 2)] t 2) = naTerm demoRow false false t 2 := by
    intro t
    rw [demo_first, hs, ht]
    rfl
  have hpy : ∀ t : ℝ, (naTerm demoRow false false t 2).py = (t - 1) ^ 2 + 5 := by
    intro t
    have hp := demo_delta false t 2
    have hy : (naDelta demoRow false t 2).py = 2 := by
      simp only [naDelta, naInner, naOuter, demoRow]
      norm_num
    have hne : (t - 1) ^ 2 + (2 - 1) ^ 2 ≠ 0 := by
      have := sq_nonneg (t - 1)
      intro h
      linarith
    simp only [naTerm, naPow, Bool.false_eq_true, if_false, hp, hy]
    simp only [demoRow]
    norm_num
    norm_num at hne
    field_simp
    ring
  have hpxy : (naTerm demoRow false false 2 2).pxy = 6 := by
    have hd : naDelta demoRow false 2 2 = ⟨2, 2, 2, 2, 0, 2⟩ := by
      simp only [naDelta, naInner, naOuter, demoRow]
      norm_num
    simp only [naTerm, hd, naPow]
    simp only [demoRow]
    norm_num
  refine ⟨demoAr, demoAr_data, by simp [demoAr, demoRow], ?_, ?_⟩
  · have e : (fun u => ((codeFluid 1 2 1 2 1 ⟨none, none, none, []⟩ demoAr).p u 2).v) =
        fun u => u * 2 * (1 + 2 * ((2 / u - 1) ^ 2 + 5)) := by
      funext u
      simp only [Fluid.p, Fluid.ar, codeFluid, div_one, hr, hpy]
      ring
    rw [e]
    have hdiv : HasDerivAt (fun u : ℝ => 2 / u - 1) (-2) 1 := by
      have := ((redT_jet 2 (one_ne_zero : (1 : ℝ) ≠ 0)).d1).sub_const 1
      simpa [redT] using this
    have hsq : HasDerivAt (fun u : ℝ => (2 / u - 1) ^ 2) (-4) 1 := by
      refine (hdiv.pow 2).congr_deriv ?_
      norm_num
    have := ((hasDerivAt_id (1 : ℝ)).mul_const 2).mul (((hsq.add_const 5).const_mul 2).const_add 1)
    refine this.congr_deriv ?_
    norm_num
  · simp only [Fluid.p, Fluid.ar, codeFluid, div_one, hr, hpy, hpxy]
    norm_num

/-! ## Concrete case -/

/-- A gas whose residual part is `dd tt`. -/
example : ∃ Vo Vr phi U, IsFluid (codeFluid 8 300 10 300 10 ⟨some 3, none, some [⟨1, 0, [(1, 5), (0, -2)]⟩],
      [(3, 1)]⟩ ⟨[[⟨1, 1, 0, 0, [(1, 1, 1)]⟩]], [], []⟩) Vo Vr phi U U ∧
    InRange (codeFluid 8 300 10 300 10 ⟨some 3, none, some [⟨1, 0, [(1, 5), (0, -2)]⟩],
      [(3, 1)]⟩ ⟨[[⟨1, 1, 0, 0, [(1, 1, 1)]⟩]], [], []⟩) U U 400 5 := by
  have ho : ∀ q ∈ ([⟨1, 0, [(1, 5), (0, -2)]⟩] : List Group1), Sorted1 q := by
    intro q hq
    simp only [List.mem_singleton] at hq
    subst hq
    exact ⟨by simp, by simp⟩
  have hr : ArData ⟨[[⟨1, 1, 0, 0, [(1, 1, 1)]⟩]], [], []⟩ := by
    refine ⟨by simp, ?_, ?_⟩
    · intro gs hgs q hq
      simp only [List.mem_singleton] at hgs
      subst hgs
      simp only [List.mem_singleton] at hq
      subst hq
      exact ⟨by simp, by simp⟩
    · intro gs hgs q hq
      simp only [List.mem_singleton] at hgs
      subst hgs
      simp only [List.mem_singleton] at hq
      subst hq
      exact fun _ => rfl
  obtain ⟨U, hU, hin⟩ := C50_code 8 300 10 300 10 (by norm_num) (by norm_num) (by norm_num)
    (by norm_num) (by norm_num) ⟨some 3, none, some [⟨1, 0, [(1, 5), (0, -2)]⟩], [(3, 1)]⟩ ho
    (by simp) _ hr rfl
  exact ⟨_, _, _, U, hU, hin 400 5 (by norm_num) (by norm_num)⟩

end PyroMat.Mp.Props
