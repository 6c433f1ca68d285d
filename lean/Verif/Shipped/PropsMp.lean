import Verif.Gas.PropsMixture
import Verif.Mp.PropsSatCalls
import Verif.Mp.PropsPhase
import Verif.Shipped.MpFluid
import Verif.Shipped.MpTriple

/-!
# The shipped multi-phase substances (C97, C98)

`shippedMp` lists the seven substances of class `mp1` that come with the package, with the numbers of
their data files; `MpFile.sub` is the substance as the modelled methods see it.
-/

set_option linter.unusedSimpArgs false

namespace PyroMat.Shipped.Props

open PyroMat PyroMat.Units PyroMat.Units.Spec PyroMat.Units.Props PyroMat.Gas PyroMat.Gas.Spec PyroMat.Mp
  PyroMat.Mp.Spec PyroMat.Mp.Props PyroMat.Shipped PyroMat.Shipped.Data
open PyroMat.Gas.Props (size_lookup)

/-- All that the theorems on calls (C51, C55, C69, C70, C72, C73, C76, C77, C79) assume about the data of a
substance holds of every shipped one. -/
theorem C97_good (f : MpFile) (hf : f ∈ shippedMp) :
    GoodSub f.sub f.Tmin ∧ Bounded (codeSol f.sub) f.sub f.Tmin ∧ Bounded (quietSol f.sub) f.sub f.Tmin ∧
      f.Tmin ≤ f.sub.Tlo ∧ f.sub.F.To = f.sub.F.Tr :=
  ⟨good hf, good_code (good hf), quiet_bounded (good hf), min_le_right _ _, (fluidOk hf).one.symm⟩

theorem kg_pos {E : Env} {U : Sys} (hU : Uses E U) {mw : ℝ} (hmw : 0 < mw) {k : Kind} (hk : k = .density ∨ k = .pressure) :
    0 < inUnitsKg E.a U mw k 1 := by
  have h1 := PyroMat.Gas.Props.msize_pos hU hmw
  have h2 := PyroMat.Gas.Props.ps_pos hU
  have h3 : 0 < size (volume : Conv ℝ) U.v :=
    C04_factors_positive E.a hU.pos _ (by simp [allConvs]) _ (lookup_mem (size_lookup hU hU.valid.v))
  rcases hk with rfl | rfl <;> simp only [inUnitsKg, perKmol, inUnits] <;> positivity

theorem kg_lt {E : Env} {U : Sys} (hU : Uses E U) {mw : ℝ} (hmw : 0 < mw) {k : Kind} (hk : k = .density ∨ k = .pressure)
    {x y : ℝ} (h : x < y) : inUnitsKg E.a U mw k x < inUnitsKg E.a U mw k y := by
  have hk' : k ≠ .temperature := by rcases hk with rfl | rfl <;> simp
  rw [← inUnitsKg_mul _ _ _ hk', ← inUnitsKg_mul (x := y) _ _ _ hk']
  exact mul_lt_mul_of_pos_right h (kg_pos hU hmw hk)

theorem kg_pos' {E : Env} {U : Sys} (hU : Uses E U) {mw : ℝ} (hmw : 0 < mw) {k : Kind} (hk : k = .density ∨ k = .pressure)
    {x : ℝ} (h : 0 < x) : 0 < inUnitsKg E.a U mw k x := by
  have hk' : k ≠ .temperature := by rcases hk with rfl | rfl <;> simp
  rw [← inUnitsKg_mul _ _ _ hk']
  exact mul_pos h (kg_pos hU hmw hk)

theorem kelvin_lt (s : Scale) {x y : ℝ} (h : x < y) : toKelvin s.name x < toKelvin s.name y := by
  have hp : (0 : ℝ) < const_q / const_k := by norm_num [const_q, const_k]
  cases s <;> simp only [toKelvin, Scale.name] <;> simp <;>
    first | exact div_lt_div_of_pos_right h (by norm_num) | linarith | nlinarith

section

variable (f : MpFile) (hf : f ∈ shippedMp) (E : Env) (U : Sys) (hU : Uses E U) (S : Sol)
include hf hU

omit hU in
theorem dome_min {t : ℝ} (h : InDomeT U f.sub t) : f.Tmin ≤ toKelvin U.T.name t := by
  have F := facts hf
  have h1 : f.Tt.val ≤ toKelvin U.T.name t := h.1
  have : f.Tmin ≤ f.Tt.val * 0.99 := min_le_left _ _
  have := F.Tt
  linarith

/-- **C97**, densities.  For every shipped multi-phase substance, in any valid unit system, at any
temperatures from the triple to the critical point, `ds` answers with positive densities, and below the
critical temperature that of the liquid is greater than that of the vapor. -/
theorem C97_densities (T : Val ℝ) (h : ∀ t ∈ Val.elems T, InDomeT U f.sub t) :
    ∃ ls vs, satDs E f.sub S (some T) none = .ok (ls, vs) ∧
      ∀ (i : Nat) (t : ℝ), (Val.elems T)[i]? = some t → ∃ l v, ls[i]? = some (some l) ∧ vs[i]? = some (some v) ∧
        0 < v ∧ 0 < l ∧ (toKelvin U.T.name t < f.sub.Tc → v < l) := by
  have hmw : 0 < f.sub.mw := (facts hf).mw
  refine ⟨_, _, (C55_answers_T E U hU f.sub hmw.ne' S T h).2 .ds, ?_⟩
  intro i t ht
  have hd := h t (List.mem_of_getElem? ht)
  have hv : 0 < f.sub.dsv (toKelvin U.T.name t) := dsv_pos hf hd.2
  have hlt : toKelvin U.T.name t < f.sub.Tc → f.sub.dsv (toKelvin U.T.name t) < f.sub.dsl (toKelvin U.T.name t) :=
    fun hc => (good hf).dome.liquid _ (dome_min f hf U hd) hc
  have hl : 0 < f.sub.dsl (toKelvin U.T.name t) := by
    rcases hd.2.lt_or_eq with hc | hc
    · exact hv.trans (hlt hc)
    · rw [hc]; exact dsl_critical hf
  refine ⟨_, _, by rw [List.getElem?_map, ht]; rfl, by rw [List.getElem?_map, ht]; rfl, ?_, ?_, fun hc => ?_⟩
  · exact kg_pos' hU hmw (Or.inl rfl) hv
  · exact kg_pos' hU hmw (Or.inl rfl) hl
  · exact kg_lt hU hmw (Or.inl rfl) (hlt hc)

/-- **C97**, pressure.  `ps` answers with positive pressures, greater at greater temperatures. -/
theorem C97_pressure (T : Val ℝ) (h : ∀ t ∈ Val.elems T, InDomeT U f.sub t) :
    ∃ ps, satPs E f.sub (some T) = .ok ps ∧ ps.length = (Val.elems T).length ∧
      (∀ (i : Nat) (p : Nan), ps[i]? = some p → ∃ y, p = some y ∧ 0 < y) ∧
      ∀ (i j : Nat) (t t' p p' : ℝ), (Val.elems T)[i]? = some t → (Val.elems T)[j]? = some t' → t < t' →
        ps[i]? = some (some p) → ps[j]? = some (some p') → p < p' := by
  have hmw : 0 < f.sub.mw := (facts hf).mw
  refine ⟨_, (C55_answers_T E U hU f.sub hmw.ne' (codeSol f.sub) T h).1, by simp, ?_, ?_⟩
  · intro i p hp
    rw [List.getElem?_map] at hp
    cases ht : (Val.elems T)[i]? with
    | none => rw [ht] at hp; cases hp
    | some t =>
      rw [ht, Option.map_some, Option.some.injEq] at hp
      exact ⟨_, hp.symm, kg_pos' hU hmw (Or.inr rfl) (ps_pos hf (h t (List.mem_of_getElem? ht)).2)⟩
  · intro i j t t' p p' hi hj hlt hp hp'
    rw [List.getElem?_map, hi, Option.map_some, Option.some.injEq, Option.some.injEq] at hp
    rw [List.getElem?_map, hj, Option.map_some, Option.some.injEq, Option.some.injEq] at hp'
    rw [← hp, ← hp']
    have a := h t (List.mem_of_getElem? hi)
    have b := h t' (List.mem_of_getElem? hj)
    exact kg_lt hU hmw (Or.inr rfl)
      (ps_mono hf ⟨dome_min f hf U a, a.2⟩ ⟨dome_min f hf U b, b.2⟩ (kelvin_lt U.T hlt))

omit hU in
/-- **C97**, saturation temperature.  Every pressure from the triple to the critical pressure, as `Ts`
accepts it, is the saturation pressure of exactly one temperature in the range in which `Ts` searches — for
R-134a only up to 4.05629 MPa (`C97_critical_pressure_defect`). -/
theorem C97_saturation_temperature (p : ℝ) (h : InDomeP E.a U f.sub p)
    (hp : f.id = "mp.C2H2F4" → p * size (Units.pressure E.a) U.p ≤ 4056290) :
    ∃! T, (f.sub.Tt * 0.99 ≤ T ∧ T ≤ f.sub.Tc) ∧ f.sub.ps T = p * size (Units.pressure E.a) U.p :=
  ps_solve hf h.1 (scale_ge hf h.2 hp)

end

/-- **C97**, saturation temperature, as returned.  If `Ts` answers a pressure with a number and prints no
warning, the number is one Newton step or less from a temperature whose saturation pressure is the one given
to the relative tolerance 10⁻⁶. -/
theorem C97_Ts (f : MpFile) (hf : f ∈ shippedMp) (E : Env) (U : Sys) (hU : Uses E U) (p t : ℝ)
    (h : satTs E f.sub (quietSol f.sub) (some (.scalar p)) = .ok [some t]) :
    ∃ x, f.sub.Tt * 0.99 ≤ x ∧ x ≤ f.sub.Tc ∧
      |p * size (Units.pressure E.a) U.p - f.sub.ps x| ≤ 1e-6 * |p * size (Units.pressure E.a) U.p| ∧
      (x < f.sub.Tc → HasDerivAt f.sub.ps (f.sub.psT x) x) ∧
      |toKelvin U.T.name t - x| ≤ |(p * size (Units.pressure E.a) U.p - f.sub.ps x) / f.sub.psT x| := by
  have hmw : f.sub.mw ≠ 0 := (facts hf).mw.ne'
  have F := facts hf
  have hd : ∀ x ∈ Val.elems (Val.scalar p), InDomeP E.a U f.sub x := by
    intro x hx
    by_contra hc
    have := (C55_rejects_p E U hU f.sub hmw (quietSol f.sub) (.scalar p) ⟨x, hx, hc⟩ .ds).2
    rw [h] at this
    cases this
  rw [satTs_good hU hmw _ hd] at h
  obtain ⟨Ts, hTs, he⟩ := bind_ok h
  have he := Except.ok.inj he
  simp only [Val.elems, List.mapIdx_cons, List.mapIdx_nil, List.cons.injEq, and_true] at he
  cases h0 : Ts 0 with
  | none => rw [h0] at he; cases he
  | some T =>
    rw [h0, Option.map_some, Option.some.injEq] at he
    have h1 : f.sub.Tt * 0.99 ≤ f.sub.Tmid := by
      unfold Sub.Tmid; linarith [(good hf).pos, (good hf).order]
    have h2 : f.sub.Tmid ≤ f.sub.Tc := by unfold Sub.Tmid; linarith [(good hf).order]
    have hin := hd p (by simp [Val.elems])
    obtain ⟨x, a1, a2, a3, -, a5⟩ := (codeTs_spec h1 h2 (noWarning_ok hTs)).2.1 0 _ rfl hin.1 hin.2 rfl T h0
    refine ⟨x, a1, a2, ?_, fun hx => ?_, ?_⟩
    · rwa [abs_mul, abs_of_pos (by norm_num : (0:ℝ) < 1e-6)] at a3
    · exact satVal_deriv F.ps x ((mul_pos F.Tt (by norm_num)).trans_le a1) hx
    · rw [← he]
      rwa [to_from]

/-- **C97 disagreement.** For R-134a the critical pressure on file, 4.05928 MPa, is 0.07 % above the
saturation pressure at the critical temperature, 4.05629 MPa.  `Ts` accepts the pressures between them, but no
temperature has them as saturation pressure: the search does not converge, and no call returns a number
without a warning. -/
theorem C97_critical_pressure_defect (E : Env) (U : Sys) (hU : Uses E U) (p : ℝ)
    (h1 : 4056300 ≤ p * size (Units.pressure E.a) U.p) (h2 : p * size (Units.pressure E.a) U.p ≤ 4059280) :
    C2H2F4 ∈ shippedMp ∧ InDomeP E.a U C2H2F4.sub p ∧
      (∀ T, C2H2F4.sub.Tt ≤ T → T ≤ C2H2F4.sub.Tc → C2H2F4.sub.ps T < p * size (Units.pressure E.a) U.p) ∧
      ∀ t, satTs E C2H2F4.sub (quietSol C2H2F4.sub) (some (.scalar p)) ≠ .ok [some t] := by
  have hf : C2H2F4 ∈ shippedMp := by simp [shippedMp]
  have hs : C2H2F4.ps.scale.val = 4056290 := by norm_num [C2H2F4, Dec.val, Dec.p]
  have hpc : C2H2F4.pc.val = 4059280 := by norm_num [C2H2F4, Dec.val, Dec.p]
  have hpt : C2H2F4.pt.val = 391 := by norm_num [C2H2F4, Dec.val, Dec.p]
  have hle : ∀ T, C2H2F4.sub.Tt * 0.99 ≤ T → T ≤ C2H2F4.sub.Tc → C2H2F4.sub.ps T ≤ 4056290 := by
    intro T a b
    have hm : C2H2F4.Tmin ≤ C2H2F4.sub.Tt * 0.99 := min_le_left _ _
    have := (ps_mono hf).monotoneOn ⟨hm.trans a, b⟩ ⟨hm.trans (a.trans b), le_rfl⟩ b
    rwa [show C2H2F4.sub.ps C2H2F4.sub.Tc = 4056290 from (ps_critical hf).trans hs] at this
  refine ⟨hf, ⟨?_, ?_⟩, ?_, ?_⟩
  · show C2H2F4.pt.val ≤ _
    rw [hpt]; linarith
  · show _ ≤ C2H2F4.pc.val
    rw [hpc]; exact h2
  · intro T a b
    have hp : 0 < C2H2F4.sub.Tt := (facts hf).Tt
    have := hle T (by linarith) b
    linarith
  · intro t ht
    obtain ⟨x, a1, a2, a3, -, -⟩ := C97_Ts C2H2F4 hf E U hU p t ht
    have := hle x a1 a2
    rw [abs_of_nonneg (by linarith), abs_of_nonneg (by linarith)] at a3
    linarith

/-- **C97 disagreement.** For R-134a and HFO-1234ze(E) (`mp.C3H2F4_1`) the triple pressure on file is more
than 1 % and 4 % below the saturation pressure at the triple temperature.  `Ts` accepts it, but `ps` returns
no pressure that small at any temperature it accepts. -/
theorem C97_triple_pressure_defect (E : Env) (U : Sys) (hU : Uses E U) :
    (∀ (f : MpFile) (r : ℝ), (f = C2H2F4 ∧ r = 1.01 ∨ f = C3H2F41 ∧ r = 1.04) → f ∈ shippedMp ∧
      InDomeP E.a U f.sub (inUnitsKg E.a U f.sub.mw .pressure f.sub.pt) ∧
      ∀ (T : Val ℝ) (ps : List Nan), satPs E f.sub (some T) = .ok ps → ∀ y, some y ∈ ps →
        r * inUnitsKg E.a U f.sub.mw .pressure f.sub.pt ≤ y) := by
  intro f r hr
  have hf : f ∈ shippedMp := by rcases hr with ⟨rfl, -⟩ | ⟨rfl, -⟩ <;> simp [shippedMp]
  have F := facts hf
  have hmw : 0 < f.sub.mw := F.mw
  have hps := PyroMat.Gas.Props.ps_pos hU
  obtain ⟨-, -, -, -, hpt⟩ := lowEnd f hf
  have hlow : r * f.pt.val ≤ f.sub.ps f.Tt.val ∧ f.pt.val ≤ f.pc.val := triple_gap hr
  refine ⟨hf, ?_, ?_⟩
  · have e : inUnitsKg E.a U f.sub.mw .pressure f.sub.pt * size (Units.pressure E.a) U.p = f.sub.pt := by
      simp only [inUnitsKg, perKmol, inUnits]
      field_simp
    unfold InDomeP
    rw [e]
    exact ⟨le_rfl, hlow.2⟩
  · intro T ps h y hy
    have hd : ∀ t ∈ Val.elems T, InDomeT U f.sub t := by
      intro t ht
      by_contra hc
      have := (C55_rejects_T E U hU f.sub hmw.ne' (codeSol f.sub) T ⟨t, ht, hc⟩ .ds).2
      rw [h] at this
      cases this
    have e := (C55_answers_T E U hU f.sub hmw.ne' (codeSol f.sub) T hd).1
    rw [h] at e
    have e := Except.ok.inj e
    rw [e, List.mem_map] at hy
    obtain ⟨t, ht, hy⟩ := hy
    rw [Option.some.injEq] at hy
    have a := hd t ht
    have hm : f.Tmin ≤ f.Tt.val := by
      have : f.Tmin ≤ f.Tt.val * 0.99 := min_le_left _ _
      linarith [F.Tt]
    have hmono : f.sub.ps f.Tt.val ≤ f.sub.ps (toKelvin U.T.name t) :=
      (ps_mono hf).monotoneOn ⟨hm, F.Tc.le⟩ ⟨hm.trans a.1, a.2⟩ a.1
    rw [← hy]
    have hc := kg_pos hU hmw (k := .pressure) (Or.inr rfl)
    rw [← inUnitsKg_mul (x := f.sub.pt) _ _ _ (by simp), ← inUnitsKg_mul (x := f.sub.ps _) _ _ _ (by simp)]
    have : r * f.sub.pt ≤ f.sub.ps (toKelvin U.T.name t) := hlow.1.trans hmono
    nlinarith

/-! ## Thermodynamic consistency -/

/-- **C98**, energies.  For every shipped multi-phase substance, at every positive temperature and density
(for carbon dioxide and water: density above the density scale, or more than 1e-6 below it) there is a
Helmholtz energy of which the inner routines are the derivatives and combinations: pressure is `d²` times its
density derivative, entropy minus its temperature derivative, energy, enthalpy and Gibbs energy the usual
combinations, and `cv` the temperature derivative of energy, and `T` times that of entropy, at constant
density. -/
theorem C98_energies (f : MpFile) (hf : f ∈ shippedMp) :
    ∃ A : ℝ → ℝ → ℝ, ∀ T d, 0 < T → 0 < d →
      (f.id = "mp.CO2" ∨ f.id = "mp.H2O" → OffCritical (d / f.ar.dscale.val)) →
      let F := f.sub.F
      (F.f T d).v = A T d ∧
      HasDerivAt (fun u => A T u) ((F.p T d).v / d ^ 2) d ∧
      HasDerivAt (fun u => A u d) (-(F.s T d).v) T ∧
      (F.e T d).v = (F.f T d).v + T * (F.s T d).v ∧
      (F.h T d).v = (F.e T d).v + (F.p T d).v / d ∧
      (F.g T d).v = (F.h T d).v - T * (F.s T d).v ∧
      HasDerivAt (fun u => (F.e u d).v) (F.cv T d) T ∧
      HasDerivAt (fun u => (F.s u d).v) (F.cv T d / T) T := by
  have h := fluidOk hf
  refine ⟨helmholtz f.sub.F (aoVal f.ao.group) (arVal f.ar.group), fun T d hT hd hc => ?_⟩
  intro F
  have eF : F = _ := sub_fluid hf
  by_cases h2 : f.ar.coef2 = []
  · obtain ⟨W, hF, hin⟩ := C50_code _ _ _ _ _ h.R h.To h.dso h.To h.dsr f.ao.group h.ao0 h.ao1 f.ar.group h.ar
      (by simp [ArFile.group, h2])
    have hr := hin T d hT hd
    rw [← eF] at hF hr
    obtain ⟨a1, a2, a3⟩ := C50_pressure_entropy hF hr
    obtain ⟨-, b2, b3⟩ := C50_combinations hF hr
    have hs : F.To = F.Tr := h.one.symm
    obtain ⟨b4, b5⟩ := b3 hs
    obtain ⟨c1, c2⟩ := C50_cv hF hr
    exact ⟨a1, a2, a3, b4, b5, b2, c2 hs, c1⟩
  · have hid : f.id = "mp.CO2" ∨ f.id = "mp.H2O" := by
      by_contra hn
      exact h2 ((analytic_iff f hf).mpr (not_or.mp hn))
    have := C50_nonanalytic_partial _ _ _ _ h.R h.To h.dso h.dsr f.ao.group h.ao0 h.ao1 f.ar.group h.ar h.B T d hT hd (hc hid)
    rw [← eF] at this
    exact this

/-- A state off the saturation curves of a substance: above the critical temperature, or between the minimum
and the critical temperature with a density below that of the vapor or above that of the liquid. -/
def OffDome (B : Sub) (T d : ℝ) : Prop :=
  B.Tc < T ∨ T < B.Tc ∧ (d < B.dsv T ∨ B.dsl T < d)

section

variable (f : MpFile) (hf : f ∈ shippedMp) (E : Env) (U : Sys) (hU : Uses E U) (S : Sol)
include hf hU

/-- **C98**, heat capacity at constant volume in a single phase.  For every shipped multi-phase substance, in
any units, at any temperature inside the limits and any positive density off the dome (for carbon dioxide and
water: density above the density scale, or more than 1e-6 below it), what `cv` returns is the derivative by
temperature, at constant density, of what `e` returns. -/
theorem C98_cv_one_phase (t y T d : ℝ) (hT : toKelvin U.T.name t = T)
    (hd : internalKg E.a U f.sub.mw .density y = d) (hd0 : 0 < d) (hlo : f.sub.Tlo < T) (hhi : T < f.sub.Thi)
    (h : OffDome f.sub T d) (hc : f.id = "mp.CO2" ∨ f.id = "mp.H2O" → OffCritical (d / f.ar.dscale.val)) :
    CvIsSlope E f.sub S t y := by
  have F := facts hf
  have hT0 : 0 < T := F.Tlo.trans hlo
  obtain ⟨A, hA⟩ := C98_energies f hf
  obtain ⟨-, -, -, -, -, -, h7, -⟩ := hA T d hT0 hd0 hc
  refine one_phase_slope E U hU f.sub F.mw.ne' S t y T d hT hd hlo hhi h7 ?_
  rcases h with h | ⟨hc, h⟩
  · exact .super h
  · exact h.elim (.gas hc (satVal_deriv F.dsv T hT0 hc).continuousAt)
      (.fluid hc (satVal_deriv F.dsl T hT0 hc).continuousAt)

end

section

variable (f : MpFile) (hf : f ∈ shippedMp) (ha : f.id ≠ "mp.CO2" ∧ f.id ≠ "mp.H2O") (E : Env) (U : Sys)
  (hU : Uses E U) (S : Sol)
include hf ha hU

/-- **C98**, heat capacity at constant volume.  For every shipped multi-phase substance except carbon dioxide
and water, in any units, at any temperature inside the limits and any positive density, under the dome or off
it (not exactly on it), what `cv` returns is the derivative by temperature, at constant density, of what `e`
returns. -/
theorem C98_cv (t y T d : ℝ) (hT : toKelvin U.T.name t = T) (hd : internalKg E.a U f.sub.mw .density y = d)
    (hd0 : 0 < d) (hlo : f.sub.Tlo < T) (hhi : T < f.sub.Thi)
    (h : OffDome f.sub T d ∨ T < f.sub.Tc ∧ f.sub.dsv T < d ∧ d < f.sub.dsl T) : CvIsSlope E f.sub S t y := by
  have F := facts hf
  have k := fluidOk hf
  have hT0 : 0 < T := F.Tlo.trans hlo
  have h2 : f.ar.group.coef2 = [] := by simp [ArFile.group, (analytic_iff f hf).mpr ha]
  refine C74_code E U hU f.sub F.mw.ne' S _ _ _ _ k.R k.To k.dso k.dsr f.ao.group k.ao0 k.ao1 f.ar.group k.ar h2
    (sub_fluid hf) t y T d hT hd hT0 hd0 hlo hhi ?_
  rcases h with (h | ⟨hc, h⟩) | ⟨hc, h, h'⟩
  · exact Or.inl (.super h)
  · have dv := satVal_deriv F.dsv T hT0 hc
    have dl := satVal_deriv F.dsl T hT0 hc
    exact Or.inl (h.elim (.gas hc dv.continuousAt) (.fluid hc dl.continuousAt))
  · exact Or.inr ⟨hc, dsv_pos hf hc.le, h, h', satVal_deriv F.dsl T hT0 hc, satVal_deriv F.dsv T hT0 hc⟩

/-- **C98**, heat capacity at constant pressure.  For the same substances, through every single-phase state
at which pressure depends on density there is a line of constant pressure along which what `cp` returns is the
derivative of what `h` returns. -/
theorem C98_cp (t y T d : ℝ) (hT : toKelvin U.T.name t = T) (hd : internalKg E.a U f.sub.mw .density y = d)
    (hd0 : 0 < d) (hlo : f.sub.Tlo < T) (hhi : T < f.sub.Thi) (h : OffDome f.sub T d)
    (hpd : (f.sub.F.p T d).vd ≠ 0) :
    ∃ (z : ℝ → ℝ) (P : ℝ), z t = y ∧
      (∀ᶠ u in nhds t, MpGives E f.sub S [] [("T", .scalar u), ("d", .scalar (z u))] .p 0 P) ∧
      CpIsSlope E f.sub S t z := by
  have F := facts hf
  have k := fluidOk hf
  have hT0 : 0 < T := F.Tlo.trans hlo
  have h2 : f.ar.group.coef2 = [] := by simp [ArFile.group, (analytic_iff f hf).mpr ha]
  refine C75_code_cp E U hU f.sub F.mw.ne' S _ _ _ _ _ k.R k.To k.To k.dso k.dsr f.ao.group k.ao0 k.ao1 f.ar.group k.ar h2
    (sub_fluid hf) t y T d hT hd hT0 hd0 hlo hhi ?_ hpd
  rcases h with h | ⟨hc, h⟩
  · exact .super h
  · exact h.elim (.gas hc (satVal_deriv F.dsv T hT0 hc).continuousAt)
      (.fluid hc (satVal_deriv F.dsl T hT0 hc).continuousAt)

/-- **C98**, speed of sound.  For the same substances, through every single-phase state at which entropy
depends on temperature there is a line of constant entropy along which the square of what `a` returns is the
derivative by density of what `p` returns. -/
theorem C98_sound (l sec : String) (hu : SpeedUnits E l sec) (t0 T r : ℝ) (hT : toKelvin U.T.name t0 = T)
    (hr0 : 0 < r) (hlo : f.sub.Tlo < T) (hhi : T < f.sub.Thi) (h : OffDome f.sub T r)
    (hsT : (f.sub.F.s T r).vT ≠ 0) :
    ∃ (t : ℝ → ℝ) (s0 : ℝ), t r = t0 ∧
      (∀ᶠ q in nhds r, MpGives E f.sub S []
        [("T", .scalar (t q)), ("d", .scalar (inUnitsKg E.a U f.sub.mw .density q))] .s 0 s0) ∧
      SoundIsSlope E U l sec f.sub S t r := by
  have F := facts hf
  have k := fluidOk hf
  have hT0 : 0 < T := F.Tlo.trans hlo
  have h2 : f.ar.group.coef2 = [] := by simp [ArFile.group, (analytic_iff f hf).mpr ha]
  refine C75_code_sound E U hU f.sub F.mw.ne' S _ _ _ _ _ k.R k.To k.To k.dso k.dsr f.ao.group k.ao0 k.ao1 f.ar.group k.ar h2
    (sub_fluid hf) l sec hu t0 T r hT hT0 hr0 hlo hhi ?_ hsT
  rcases h with h | ⟨hc, h⟩
  · exact .super h
  · exact h.elim (.gas hc (satVal_deriv F.dsv T hT0 hc).continuousAt)
      (.fluid hc (satVal_deriv F.dsl T hT0 hc).continuousAt)

end

end PyroMat.Shipped.Props
