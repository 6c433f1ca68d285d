import Verif.Mp.Dilute

/-!
# A fluid at vanishing density
-/

set_option linter.unusedSimpArgs false

namespace PyroMat.Mp.Props

open PyroMat PyroMat.Mp PyroMat.Mp.Spec Filter Topology

/-- The temperature part of the ideal-gas part. -/
noncomputable def phiF (g : AOgroup) (t : ℝ) : P3 :=
  P3.add (P3.add (P3.add (logT (g.logt.getD 0) t) (tlogT (g.tlogt.getD 0) t)) (evalGs1 (g.coef0.getD []) t))
    ((g.coef1.map fun r => expT r t).foldr P3.add ⟨0, 0, 0⟩)

theorem foldr_liftX {α : Type} (f : α → P3) (l : List α) :
    (l.map fun r => (f r).liftX).foldr J6.add ⟨0, 0, 0, 0, 0, 0⟩ = ((l.map f).foldr P3.add ⟨0, 0, 0⟩).liftX := by
  induction l with
  | nil => simp [P3.liftX]
  | cons a l ih => simp only [List.map_cons, List.foldr_cons, ih]; simp [P3.liftX, J6.add, P3.add]

theorem aoF_split (g : AOgroup) (t d : ℝ) :
    aoF g t d = (P3.liftY ⟨Real.log d, 1 / d, -(1 / d) / d⟩).add (phiF g t).liftX := by
  unfold aoF phiF
  rw [foldr_liftX]
  simp only [J6.add, P3.liftX, P3.liftY, P3.add]
  congr 1 <;> ring

theorem phiF_jet (g : AOgroup) (h1 : ∀ r ∈ g.coef1, r.1 ≠ 0) {t : ℝ} (ht : 0 < t) : Jet1 (phiF g) t := by
  refine (((logT_jet _ ht.ne').add (tlogT_jet _ ht.ne')).add (evalGs1_jet _ ht)).add ?_
  generalize g.coef1 = l at h1
  induction l with
  | nil => exact Jet1.const 0 t
  | cons r l ih => exact (expT_jet r (h1 r (by simp)) ht.ne').add (ih fun q hq => h1 q (by simp [hq]))

/-- What a fluid made of coefficients needs to become an ideal gas at vanishing density. -/
structure DiluteFluid (R To dso dsr : ℝ) (ago : AOgroup) (agr : ARgroup) : Prop where
  R : 0 < R
  To : 0 < To
  dso : 0 < dso
  dsr : 0 < dsr
  ao0 : ∀ q ∈ ago.coef0.getD [], Sorted1 q
  ao1 : ∀ r ∈ ago.coef1, 0 < r.1
  ar : ArData agr
  dil : DiluteData agr

section
variable {R To dso dsr : ℝ} {ago : AOgroup} {agr : ARgroup}

/-- The temperature part of the Helmholtz energy at vanishing density. -/
noncomputable def idealF (ago : AOgroup) (agr : ARgroup) (t : ℝ) : P3 := P3.add (phiF ago t) (ar0 agr t)

theorem idealF_jet (h : DiluteFluid R To dso dsr ago agr) {t : ℝ} (ht : 0 < t) : Jet1 (idealF ago agr) t :=
  (phiF_jet ago (fun r hr => (h.ao1 r hr).ne') ht).add (ar0_jet agr ht.ne')

theorem fluid_ao (h : DiluteFluid R To dso dsr ago agr) (T d : ℝ) :
    (codeFluid R To dso To dsr ago agr).ao T d
      = (P3.liftY ⟨Real.log (d / dso), 1 / (d / dso), -(1 / (d / dso)) / (d / dso)⟩).add (phiF ago (To / T)).liftX := by
  rw [← aoF_split]
  show orZero (ao ago 2 (To / T) (d / dso)) = _
  rw [ao_eq]
  · rfl
  · intro gs hgs q hq
    exact (h.ao0 q (by simpa [hgs] using hq)).1

theorem scale_zero {c : ℝ} (hc : 0 < c) : Tendsto (fun d : ℝ => d / c) (𝓝[>] 0) (𝓝[>] 0) := by
  refine tendsto_nhdsWithin_iff.mpr ⟨?_, ?_⟩
  · have : Tendsto (fun d : ℝ => d / c) (𝓝 0) (𝓝 (0 / c)) := tendsto_id.div_const c
    rw [zero_div] at this
    exact this.mono_left nhdsWithin_le_nhds
  · filter_upwards [self_mem_nhdsWithin] with d hd
    exact div_pos hd hc

/-- The residual part of a fluid. -/
theorem fluid_ar (h : DiluteFluid R To dso dsr ago agr) {T : ℝ} (hT : 0 < T) :
    let a := fun d => (codeFluid R To dso To dsr ago agr).ar T d
    let q := ar0 agr (To / T)
    Tendsto (fun d => (a d).p) (𝓝[>] 0) (𝓝 q.p) ∧ Tendsto (fun d => (a d).px) (𝓝[>] 0) (𝓝 q.px) ∧
      Tendsto (fun d => (a d).pxx) (𝓝[>] 0) (𝓝 q.pxx) ∧ Tendsto (fun d => d / dsr * (a d).py) (𝓝[>] 0) (𝓝 0) ∧
      Tendsto (fun d => d / dsr * (a d).pxy) (𝓝[>] 0) (𝓝 0) ∧
      Tendsto (fun d => d / dsr * (d / dsr * (a d).pyy)) (𝓝[>] 0) (𝓝 0) := by
  have s := arAt_settle agr h.ar h.dil (div_pos h.To hT)
  have k := scale_zero h.dsr
  exact ⟨s.p.comp k, s.px.comp k, s.pxx.comp k, s.py.comp k, s.pxy.comp k, s.pyy.comp k⟩

/-- The limits at vanishing density of the properties of a fluid at positive temperature: the ideal-gas law,
energy and enthalpy of the temperature alone and `R T` apart, the logarithm in the entropy, and heat capacities
that are the slope of the energy and `R` apart. -/
theorem fluid_dilute (h : DiluteFluid R To dso dsr ago agr) {T : ℝ} (hT : 0 < T) :
    let F := codeFluid R To dso To dsr ago agr
    let q := idealF ago agr (To / T)
    let c := -R * ((To / T) * (To / T) * q.pxx)
    Tendsto (fun d => (F.p T d).v / (d * R * T)) (𝓝[>] 0) (𝓝 1) ∧
      Tendsto (fun d => (F.e T d).v) (𝓝[>] 0) (𝓝 (R * To * q.px)) ∧
      Tendsto (fun d => (F.h T d).v) (𝓝[>] 0) (𝓝 (R * To * q.px + R * T)) ∧
      Tendsto (fun d => (F.s T d).v + R * Real.log d) (𝓝[>] 0) (𝓝 (R * (To / T * q.px - q.p + Real.log dso))) ∧
      Tendsto (fun d => F.cv T d) (𝓝[>] 0) (𝓝 c) ∧
      Tendsto (fun d => F.cp T d) (𝓝[>] 0) (𝓝 (c + R)) ∧
      (c ≠ 0 → Tendsto (fun d => F.a T d) (𝓝[>] 0) (𝓝 (Real.sqrt (R * T * (1 + R / c))))) := by
  intro F q c
  obtain ⟨a1, a2, a3, a4, a5, a6⟩ := fluid_ar h hT
  have eo := fluid_ao h T
  set a : ℝ → J6 := fun d => F.ar T d with ha
  have ear : ∀ d, F.ar T d = a d := fun _ => rfl
  have hR := h.R
  have hTne := hT.ne'
  have hTo := h.To
  have B : Tendsto (fun d => 1 + d / dsr * (2 * (a d).py + d / dsr * (a d).pyy)) (𝓝[>] 0) (𝓝 1) := by
    have := ((a4.const_mul 2).add a6).const_add 1
    rw [mul_zero, zero_add, add_zero] at this
    refine this.congr fun d => ?_
    ring
  have C : Tendsto (fun d => 1 + d / dsr * ((a d).py - To / T * (a d).pxy)) (𝓝[>] 0) (𝓝 1) := by
    have := (a4.sub (a5.const_mul (To / T))).const_add 1
    rw [mul_zero, sub_zero, add_zero] at this
    refine this.congr fun d => ?_
    ring
  have D : Tendsto (fun d => To / T * (To / T) * (phiF ago (To / T)).pxx + To / T * (To / T) * (a d).pxx) (𝓝[>] 0)
      (𝓝 (To / T * (To / T) * q.pxx)) := by
    have := (a3.const_mul (To / T * (To / T))).const_add (To / T * (To / T) * (phiF ago (To / T)).pxx)
    rwa [← mul_add] at this
  refine ⟨?_, ?_, ?_, ?_, ?_, ?_, ?_⟩
  · have := a4.const_add 1
    rw [add_zero] at this
    refine this.congr' ?_
    filter_upwards [self_mem_nhdsWithin] with d hd
    have hd : d ≠ 0 := ne_of_gt hd
    show _ = T * d * R * (1 + d / dsr * (a d).py) / (d * R * T)
    field_simp
  · have := (a2.const_add (phiF ago (To / T)).px).mul_const (R * To)
    refine (this.congr fun d => ?_).trans (by rw [show (phiF ago (To / T)).px + (ar0 agr (To / T)).px = q.px from rfl, mul_comm])
    show _ = ((F.ao T d).px + (a d).px) * (R * To)
    rw [eo d]
    simp [J6.add, P3.liftX, P3.liftY]
  · have := ((a4.add (a2.const_mul (To / T))).const_add (1 + To / T * (phiF ago (To / T)).px)).mul_const (R * T)
    refine (this.congr fun d => ?_).trans (by
      rw [show (1 + To / T * (phiF ago (To / T)).px + (0 + To / T * (ar0 agr (To / T)).px)) * (R * T)
        = R * To * (((phiF ago (To / T)).px) + (ar0 agr (To / T)).px) + R * T by field_simp; ring]
      exact le_rfl)
    show _ = (1 + To / T * (F.ao T d).px + (d / dsr * (a d).py + To / T * (a d).px)) * (R * T)
    rw [eo d]
    simp [J6.add, P3.liftX, P3.liftY]
  · have := ((a2.const_mul (To / T)).sub a1).const_add (To / T * (phiF ago (To / T)).px - (phiF ago (To / T)).p + Real.log dso)
    have := this.const_mul R
    refine (this.congr' ?_).trans (by
      rw [show R * (To / T * (phiF ago (To / T)).px - (phiF ago (To / T)).p + Real.log dso +
          (To / T * (ar0 agr (To / T)).px - (ar0 agr (To / T)).p)) = R * (To / T * q.px - q.p + Real.log dso) by
        simp only [q, idealF, P3.add]; ring])
    filter_upwards [self_mem_nhdsWithin] with d hd
    have hd : d ≠ 0 := ne_of_gt hd
    show _ = (To / T * (F.ao T d).px - (F.ao T d).p + (To / T * (a d).px - (a d).p)) * R + R * Real.log d
    rw [eo d]
    simp only [J6.add, P3.liftX, P3.liftY, Real.log_div hd h.dso.ne']
    ring
  · have := D.mul_const (-R)
    refine (this.congr fun d => ?_).trans (by rw [mul_comm])
    show _ = (To / T * (To / T) * (F.ao T d).pxx + To / T * (To / T) * (a d).pxx) * -R
    rw [eo d]
    simp [J6.add, P3.liftX, P3.liftY]
  · have := ((D.neg).add ((C.mul C).div B one_ne_zero)).mul_const R
    refine (this.congr fun d => ?_).trans (by
      rw [show (-(To / T * (To / T) * q.pxx) + 1 * 1 / 1) * R = c + R by simp only [c]; ring])
    show (-(To / T * (To / T) * (phiF ago (To / T)).pxx + To / T * (To / T) * (a d).pxx) +
      (1 + d / dsr * ((a d).py - To / T * (a d).pxy)) * (1 + d / dsr * ((a d).py - To / T * (a d).pxy)) /
        (1 + d / dsr * (2 * (a d).py + d / dsr * (a d).pyy))) * R = (-(To / T) * (To / T) * (F.ao T d).pxx + (-(To / T) * (To / T) * (a d).pxx +
      (1 + d / dsr * ((a d).py - To / T * (a d).pxy)) * (1 + d / dsr * ((a d).py - To / T * (a d).pxy)) /
        (1 + d / dsr * (2 * (a d).py + d / dsr * (a d).pyy)))) * R
    rw [eo d]
    simp only [J6.add, P3.liftX, P3.liftY]
    generalize (1 + d / dsr * ((a d).py - To / T * (a d).pxy)) * (1 + d / dsr * ((a d).py - To / T * (a d).pxy)) /
        (1 + d / dsr * (2 * (a d).py + d / dsr * (a d).pyy)) = X
    ring
  · intro hc
    have hD : To / T * (To / T) * q.pxx ≠ 0 := fun h0 => hc (by simp only [c]; rw [h0, mul_zero])
    have := ((B.sub ((C.mul C).div D hD)).const_mul (R * T)).sqrt
    refine (this.congr fun d => ?_).trans (by
      rw [show 1 - 1 * 1 / (To / T * (To / T) * q.pxx) = 1 + R / c by
        simp only [c]
        field_simp
        ring])
    show _ = Real.sqrt (R * T * ((1 + d / dsr * (2 * (a d).py + d / dsr * (a d).pyy)) -
      (1 + d / dsr * ((a d).py - To / T * (a d).pxy)) * (1 + d / dsr * ((a d).py - To / T * (a d).pxy)) /
        (To / T * (To / T) * (F.ao T d).pxx + To / T * (To / T) * (a d).pxx)))
    rw [eo d]
    simp [J6.add, P3.liftX, P3.liftY]

/-- The limits of the slope of pressure by density and of entropy by temperature. -/
theorem fluid_dilute_partials (h : DiluteFluid R To dso dsr ago agr) {T : ℝ} (hT : 0 < T) :
    let F := codeFluid R To dso To dsr ago agr
    Tendsto (fun d => (F.p T d).vd) (𝓝[>] 0) (𝓝 (R * T)) ∧
      Tendsto (fun d => (F.s T d).vT) (𝓝[>] 0)
        (𝓝 (-R * ((To / T) * (To / T) * (idealF ago agr (To / T)).pxx) / T)) := by
  intro F
  obtain ⟨-, -, -, a4, -, a6⟩ := fluid_ar h hT
  refine ⟨?_, ?_⟩
  · have := (((a4.const_mul 2).add a6).const_add 1).const_mul (R * T)
    rw [mul_zero, zero_add, add_zero, mul_one] at this
    refine this.congr fun d => ?_
    show _ = R * T * (1 + 2 * (d / dsr) * (F.ar T d).py + d / dsr * (d / dsr) * (F.ar T d).pyy)
    ring
  · have := (fluid_dilute h hT).2.2.2.2.1.div_const T
    refine this.congr fun d => ?_
    show (To / T * (To / T) * (F.ao T d).pxx + To / T * (To / T) * (F.ar T d).pxx) * -R / T
      = (To / T * (To / T) * (F.ao T d).pxx + To / T * (To / T) * (F.ar T d).pxx) * (-R / T)
    ring

/-- The slopes of the limits. -/
theorem fluid_dilute_slopes (h : DiluteFluid R To dso dsr ago agr) {T : ℝ} (hT : 0 < T) :
    let c := -R * ((To / T) * (To / T) * (idealF ago agr (To / T)).pxx)
    HasDerivAt (fun u => R * To * (idealF ago agr (To / u)).px) c T ∧
      HasDerivAt (fun u => R * (To / u * (idealF ago agr (To / u)).px - (idealF ago agr (To / u)).p + Real.log dso))
        (c / T) T := by
  intro c
  have j := idealF_jet h (div_pos h.To hT)
  have hd : HasDerivAt (fun u : ℝ => To / u) (-To / T ^ 2) T := by
    have := (hasDerivAt_const T To).div (hasDerivAt_id T) hT.ne'
    exact this.congr_deriv (by simp)
  have e1 : HasDerivAt (fun u => (idealF ago agr (To / u)).p) ((idealF ago agr (To / T)).px * (-To / T ^ 2)) T :=
    hcomp (fun t => (idealF ago agr t).p) (fun u => To / u) j.d1 hd
  have e2 : HasDerivAt (fun u => (idealF ago agr (To / u)).px) ((idealF ago agr (To / T)).pxx * (-To / T ^ 2)) T :=
    hcomp (fun t => (idealF ago agr t).px) (fun u => To / u) j.d2 hd
  refine ⟨(e2.const_mul (R * To)).congr_deriv ?_, ((((hd.mul e2).sub e1).add_const (Real.log dso)).const_mul R).congr_deriv ?_⟩
  · simp only [c]
    have := hT.ne'
    field_simp
  · simp only [c]
    have := hT.ne'
    field_simp
    ring

end

end PyroMat.Mp.Props
