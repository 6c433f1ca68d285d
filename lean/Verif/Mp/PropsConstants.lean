import Verif.Mp.Constants
import Verif.Mp.PropsInvert
import Verif.Mp.PropsSatCalls
import Verif.Gas.PropsMixture

/-!
# Constants and limits in the working units (C102)
-/

set_option linter.unusedSimpArgs false

namespace PyroMat.Mp.Props

open PyroMat PyroMat.Units PyroMat.Units.Spec PyroMat.Units.Props PyroMat.Gas PyroMat.Gas.Spec
open PyroMat.Gas.Props PyroMat.Mp PyroMat.Mp.Spec PyroMat.Config.Defaults

section
variable {E : Env} {U : Sys} (hU : Uses E U)
include hU

theorem convOne_temperature (mw x : ℝ) :
    convOne (outTemperature E) x = .ok (inUnitsKg E.a U mw .temperature x) := by
  unfold convOne outTemperature
  rw [factor_eq (gs := [fromKelvin U.T.name])
    (.cons (fun x => scalarOf_tscale hU x _) .nil)]
  rfl

theorem convOne_pressure (mw x : ℝ) :
    convOne (outPressure E) x = .ok (inUnitsKg E.a U mw .pressure x) := by
  unfold convOne outPressure
  rw [factor_eq (gs := [(· * (1 / size (pressure E.a) U.p))]) (.cons (fun x => ?_) .nil)]
  · simp [inUnitsKg, perKmol, inUnits, div_eq_mul_inv]
  · rw [scalarOf_call hU (nz_pressure hU) (k := "unit_pressure") rfl hU.p hU.valid.p (y := 1) rfl]
    simp [powS]

theorem convOne_density {mw : ℝ} (hmw : mw ≠ 0) (x : ℝ) (ip : Bool) :
    convOne (outDensity E mw ip) x = .ok (inUnitsKg E.a U mw .density x) := by
  unfold convOne
  rw [factor_eq (steps_density hU hmw ip)]
  have h3 := vs_ne hU
  have h5 := ms_ne hU hmw
  simp only [List.foldl_cons, List.foldl_nil, inUnitsKg, perKmol, inUnits]
  congr 1; field_simp

theorem convOne_entropy {mw : ℝ} (hmw : mw ≠ 0) (x : ℝ) (ip : Bool) :
    convOne (outEntropy E mw ip) x = .ok (inUnitsKg E.a U mw .entropy x) := by
  unfold convOne
  rw [factor_eq (steps_entropy hU hmw ip)]
  have h3 := es_ne hU
  have h5 := ms_ne hU hmw
  simp only [List.foldl_cons, List.foldl_nil, inUnitsKg, perKmol, inUnits]
  congr 1; field_simp

theorem mpMw_eq {um un : String} (h1 : E.c.str "unit_mass" = .ok um)
    (h2 : (mass E.a).contains um = true) (h3 : E.c.str "unit_molar" = .ok un)
    (h4 : (molar E.a).contains un = true) (B : Sub) :
    mpMw E B = .ok (B.mw * (size (molar E.a) un / size (mass E.a) um)) := by
  have n1 : NonZero (mass E.a) := nonZero_of_mem hU.pos (by simp [allConvs])
  have n2 : NonZero (molar E.a) := nonZero_of_mem hU.pos (by simp [allConvs])
  have e1 : size (mass E.a) um ≠ 0 := n1 _ (lookup_mem (size_lookup hU h2))
  have e2 : size (molar E.a) un ≠ 0 := n2 _ (lookup_mem (size_lookup hU h4))
  unfold mpMw convOne
  rw [List.foldlM_cons, scalarOf_call hU n1 (k := "unit_mass") rfl h1 h2 (y := 1) rfl, exOk,
    List.foldlM_cons, scalarOf_call hU n2 (k := "unit_molar") rfl h3 h4 (y := 1) rfl, exOk]
  simp only [powS_neg_one, show ∀ x : ℝ, powS x none = x from fun _ => rfl, List.foldlM_nil, pure, Except.pure]
  congr 1; field_simp

end

/-- **C102**, values.  Under every unit system the constants and limits of a multi-phase substance are
returned in the working units: read back with the sizes of the units, `critical()`, `triple()`, `Tlim()`,
`plim()`, `R()` and `mw()` are the numbers of the data file in K, Pa, kg/m3, J/kg/K and kg/kmol, the lower
limits first. -/
theorem C102_values (E : Env) (U : Sys) (hU : Uses E U) (um un : String)
    (h1 : E.c.str "unit_mass" = .ok um) (h2 : (mass E.a).contains um = true)
    (h3 : E.c.str "unit_molar" = .ok un) (h4 : (molar E.a).contains un = true) (B : Sub) (hmw : B.mw ≠ 0)
    (dc : ℝ) :
    (∃ t p d, mpCritical E B dc = .ok (t, p, d) ∧ toKelvin U.T.name t = B.Tc ∧
      p * size (pressure E.a) U.p = B.pc ∧ internalKg E.a U B.mw .density d = dc) ∧
    (∃ t p, mpTriple E B = .ok (t, p) ∧ toKelvin U.T.name t = B.Tt ∧ p * size (pressure E.a) U.p = B.pt) ∧
    (∃ lo hi, mpTlim E B = .ok [some lo, some hi] ∧ toKelvin U.T.name lo = B.Tlo ∧ toKelvin U.T.name hi = B.Thi) ∧
    (∃ lo hi, mpPlim E B = .ok [some lo, some hi] ∧ lo * size (pressure E.a) U.p = B.plo ∧
      hi * size (pressure E.a) U.p = B.phi) ∧
    (∃ r, mpR E B = .ok r ∧ internalKg E.a U B.mw .entropy r = B.F.R) ∧
    (∃ m, mpMw E B = .ok m ∧ m * size (mass E.a) um / size (molar E.a) un = B.mw) := by
  have n1 : NonZero (mass E.a) := nonZero_of_mem hU.pos (by simp [allConvs])
  have n2 : NonZero (molar E.a) := nonZero_of_mem hU.pos (by simp [allConvs])
  have e1 : size (mass E.a) um ≠ 0 := n1 _ (lookup_mem (size_lookup hU h2))
  have e2 : size (molar E.a) un ≠ 0 := n2 _ (lookup_mem (size_lookup hU h4))
  have kT := fun x => internalKg_inUnitsKg hU hmw .temperature x
  have kp := fun x => internalKg_inUnitsKg hU hmw .pressure x
  refine ⟨⟨_, _, _, ?_, kT _, kp _, internalKg_inUnitsKg hU hmw .density _⟩, ⟨_, _, ?_, kT _, kp _⟩,
    ⟨_, _, ?_, kT _, kT _⟩, ⟨_, _, ?_, kp _, kp _⟩, ⟨_, convOne_entropy hU hmw _ _, internalKg_inUnitsKg hU hmw .entropy _⟩,
    ⟨_, mpMw_eq hU h1 h2 h3 h4 B, ?_⟩⟩
  · rw [mpCritical, convOne_temperature hU B.mw, exOk, convOne_pressure hU B.mw, exOk, convOne_density hU hmw, exOk]
  · rw [mpTriple, convOne_temperature hU B.mw, exOk, convOne_pressure hU B.mw, exOk]
  · rw [mpTlim, convOut_temperature hU B.mw]; rfl
  · rw [mpPlim, convOut_pressure hU B.mw]; rfl
  · field_simp

theorem toKelvin_le (s : Scale) {x y : ℝ} : toKelvin s.name x ≤ toKelvin s.name y ↔ x ≤ y := by
  have hp : (0 : ℝ) < const_q / const_k := by norm_num [const_q, const_k]
  have h8 : (0 : ℝ) < 1.8 := by norm_num
  cases s <;> simp only [toKelvin, Scale.name] <;> simp <;>
    first
      | exact div_le_div_iff_of_pos_right h8
      | exact mul_le_mul_iff_left₀ hp

/-- **C102**, saturation.  The numbers `triple()` and `critical()` return are the ends of what the
saturation methods accept in the same units: at a temperature, `ps` and every method that returns liquid and
vapor values answer exactly when it is from the reported triple to the reported critical temperature, and
raise a parameter error otherwise; a pressure is refused by `Ts` and those methods when it is outside the
reported pressures. -/
theorem C102_saturation_range (E : Env) (U : Sys) (hU : Uses E U) (B : Sub) (hmw : B.mw ≠ 0) (dc : ℝ) (S : Sol)
    (q : SatQuantity) :
    ∃ tt pt tc pc d, mpTriple E B = .ok (tt, pt) ∧ mpCritical E B dc = .ok (tc, pc, d) ∧
      (∀ t, tt ≤ t ∧ t ≤ tc → (∃ y, satPs E B (some (.scalar t)) = .ok [some y]) ∧
        ∃ l v, satMethod q E B S (some (.scalar t)) none = .ok ([some l], [some v])) ∧
      (∀ t, ¬ (tt ≤ t ∧ t ≤ tc) → satPs E B (some (.scalar t)) = .error .param ∧
        satMethod q E B S (some (.scalar t)) none = .error .param) ∧
      (∀ p, ¬ (pt ≤ p ∧ p ≤ pc) → satTs E B S (some (.scalar p)) = .error .param ∧
        satMethod q E B S none (some (.scalar p)) = .error .param) := by
  have kT : ∀ x, toKelvin U.T.name (inUnitsKg E.a U B.mw .temperature x) = x :=
    fun x => internalKg_inUnitsKg hU hmw .temperature x
  have kp : ∀ x, inUnitsKg E.a U B.mw .pressure x * size (pressure E.a) U.p = x :=
    fun x => internalKg_inUnitsKg hU hmw .pressure x
  have hs : 0 < size (pressure E.a) U.p := ps_pos hU
  have dT : ∀ t, InDomeT U B t ↔ inUnitsKg E.a U B.mw .temperature B.Tt ≤ t ∧
      t ≤ inUnitsKg E.a U B.mw .temperature B.Tc := by
    intro t
    rw [← toKelvin_le U.T, ← toKelvin_le U.T (x := t), kT, kT]; rfl
  have dp : ∀ p, InDomeP E.a U B p ↔ inUnitsKg E.a U B.mw .pressure B.pt ≤ p ∧
      p ≤ inUnitsKg E.a U B.mw .pressure B.pc := by
    intro p
    rw [← mul_le_mul_iff_left₀ hs, ← mul_le_mul_iff_left₀ hs (b := p), kp, kp]; rfl
  refine ⟨_, _, _, _, _, by rw [mpTriple, convOne_temperature hU B.mw, exOk, convOne_pressure hU B.mw, exOk],
    by rw [mpCritical, convOne_temperature hU B.mw, exOk, convOne_pressure hU B.mw, exOk,
      convOne_density hU hmw, exOk], ?_, ?_, ?_⟩
  · intro t h
    have := C55_answers_T E U hU B hmw S (.scalar t) (by simpa [Val.elems] using (dT t).mpr h)
    exact ⟨⟨_, this.1⟩, _, _, this.2 q⟩
  · intro t h
    have := C55_rejects_T E U hU B hmw S (.scalar t) (by simpa [Val.elems] using (dT t).not.mpr h) q
    exact ⟨this.2, this.1⟩
  · intro p h
    have := C55_rejects_p E U hU B hmw S (.scalar p) (by simpa [Val.elems] using (dp p).not.mpr h) q
    exact ⟨this.2, this.1⟩

/-- **C102**, limits.  The numbers `Tlim()` returns are the ends of the temperatures that a call accepts
with a density, in the same units: the temperature of the state is the number given when it is within
them, and a number outside is refused. -/
theorem C102_temperature_limits (E : Env) (U : Sys) (hU : Uses E U) (B : Sub) (hmw : B.mw ≠ 0) (S : Sol) :
    ∃ lo hi, mpTlim E B = .ok [some lo, some hi] ∧
      (∀ t y, lo ≤ t ∧ t ≤ hi → mpT E B S [] [("T", .scalar t), ("d", .scalar y)] = .ok [some t]) ∧
      ∀ t y, ¬ (lo ≤ t ∧ t ≤ hi) → mpT E B S [] [("T", .scalar t), ("d", .scalar y)] = .error .param := by
  have kT : ∀ x, toKelvin U.T.name (inUnitsKg E.a U B.mw .temperature x) = x :=
    fun x => internalKg_inUnitsKg hU hmw .temperature x
  have dT : ∀ t, (inUnitsKg E.a U B.mw .temperature B.Tlo ≤ t ∧ t ≤ inUnitsKg E.a U B.mw .temperature B.Thi) ↔
      B.Tlo ≤ toKelvin U.T.name t ∧ toKelvin U.T.name t ≤ B.Thi := by
    intro t
    rw [← toKelvin_le U.T, ← toKelvin_le U.T (x := t), kT, kT]
  refine ⟨_, _, by rw [mpTlim, convOut_temperature hU B.mw]; rfl, ?_, ?_⟩
  · intro t y h
    rw [dT] at h
    obtain ⟨o1, o2, e⟩ := argparse_TD hU hmw S (.scalar t) (.scalar y) ⟨_, by simp [Val.elems], h⟩
    have hpt : ∃ q : Pt, q.T = some (toKelvin U.T.name t) ∧
        mpTD B [some (toKelvin U.T.name t)] [internalKg E.a U B.mw .density y] = .ok [q] := by
      unfold mpTD
      rw [broadcast_same (by rfl), exOk]
      cases hc : satTD B (satDensStrict B) (some (toKelvin U.T.name t)) (internalKg E.a U B.mw .density y) with
      | none => exact ⟨onePt (some (toKelvin U.T.name t)) (some (internalKg E.a U B.mw .density y)), rfl, by simp [hc]⟩
      | some x => exact ⟨satPt B (some (toKelvin U.T.name t)) x, rfl, by simp [hc]⟩
    obtain ⟨q, hq, hr⟩ := hpt
    simp only [Val.elems, List.map_cons, List.map_nil, clip_of_mem h.1 h.2] at e
    rw [hr, exOk] at e
    unfold mpT
    rw [e, exOk, convOut_temperature hU B.mw]
    simp only [List.map_cons, List.map_nil, hq, Option.map_some]
    rw [show toKelvin U.T.name t = internalKg E.a U B.mw .temperature t from rfl, inUnitsKg_internalKg hU hmw]
  · intro t y h
    rw [dT, not_and_or, not_le, not_le] at h
    unfold mpT
    have r : mpRules [("T", (.scalar t : Val ℝ)), ("d", .scalar y)] = .ok () := by
      simp [mpRules, mpLegal, Kw.has, List.lookup]
    have e1 : argKg E U B.mw [("T", .scalar t), ("d", .scalar y)] "T"
        = some ⟨[toKelvin U.T.name t], false⟩ := rfl
    have e2 : mpRange B.Tlo B.Thi (some ⟨[toKelvin U.T.name t], false⟩) = .error .param := by
      unfold mpRange
      dsimp only
      rw [if_pos (by simpa using h)]
    rw [argparse_two hU hmw, r, exOk, parsed, e1, e2]
    rfl

/-- The hypotheses of the theorems on constants are met by the default units. -/
example (B : Sub) (hmw : B.mw = 18) : ∃ t p d, mpCritical fullEnv B 322 = .ok (t, p, d) ∧ toKelvin "K" t = B.Tc := by
  obtain ⟨⟨t, p, d, h, hT, -⟩, -⟩ := C102_values fullEnv exampleSys fullEnv_uses "kg" "kmol" rfl rfl rfl rfl B
    (by rw [hmw]; norm_num) 322
  exact ⟨t, p, d, h, hT⟩

end PyroMat.Mp.Props
