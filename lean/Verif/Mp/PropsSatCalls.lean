import Verif.Mp.PropsSolvers

/-!
# Saturation calls (C55)
-/

set_option linter.unusedSimpArgs false

namespace PyroMat.Mp.Props

open PyroMat PyroMat.Units PyroMat.Units.Spec PyroMat.Units.Props PyroMat.Gas PyroMat.Gas.Spec
open PyroMat.Gas.Props PyroMat.Mp PyroMat.Mp.Spec PyroMat.Config.Defaults

theorem mapIdx_of_map {α β γ : Type} (f : α → β) (g : Nat → β → γ) (l : List α) :
    (l.map f).mapIdx g = l.mapIdx (fun n a => g n (f a)) := by
  apply List.ext_getElem? ; intro i; simp [List.getElem?_mapIdx, Function.comp_def]

theorem map_of_mapIdx {α β γ : Type} (f : Nat → α → β) (g : β → γ) (l : List α) :
    (l.mapIdx f).map g = l.mapIdx (fun n a => g (f n a)) := by
  apply List.ext_getElem? ; intro i; simp [List.getElem?_mapIdx, Function.comp_def]

section
variable {E : Env} {U : Sys} (hU : Uses E U) {B : Sub} (hmw : B.mw ≠ 0) (S : Sol)
include hU hmw

theorem convT (v : Val ℝ) : convArg v (mpConversions E B.mw "T")
    = .ok ⟨(Val.elems v).map (toKelvin U.T.name), v.isArr && isInternalKg U "T"⟩ :=
  mpConvArg_eq hU hmw v (by simp [mpLegal])

theorem convP (v : Val ℝ) : convArg v (mpConversions E B.mw "p")
    = .ok ⟨(Val.elems v).map (fun x => x * size (pressure E.a) U.p), v.isArr && isInternalKg U "p"⟩ :=
  mpConvArg_eq hU hmw v (by simp [mpLegal])

theorem satArgparse_T_bad {v : Val ℝ} (h : ∃ t ∈ Val.elems v, ¬ InDomeT U B t) :
    satArgparse E B S (some v) none = .error .param := by
  obtain ⟨t, ht, hn⟩ := h
  unfold satArgparse
  dsimp only
  rw [exOk, convT hU hmw, exOk]
  rw [if_pos]
  unfold InDomeT at hn
  rw [not_and_or, not_le, not_le] at hn
  simp only [Bool.or_eq_true, List.any_eq_true, List.mem_map, decide_eq_true_eq]
  rcases hn with hn | hn
  · exact .inl ⟨_, ⟨t, ht, rfl⟩, hn⟩
  · exact .inr ⟨_, ⟨t, ht, rfl⟩, hn⟩

theorem satArgparse_p_bad {v : Val ℝ} (h : ∃ p ∈ Val.elems v, ¬ InDomeP E.a U B p) :
    satArgparse E B S none (some v) = .error .param := by
  obtain ⟨t, ht, hn⟩ := h
  unfold satArgparse
  dsimp only
  rw [convP hU hmw, exOk]
  rw [if_pos]
  unfold InDomeP at hn
  rw [not_and_or, not_le, not_le] at hn
  simp only [Bool.or_eq_true, List.any_eq_true, List.mem_map, decide_eq_true_eq]
  rcases hn with hn | hn
  · exact .inl ⟨_, ⟨t, ht, rfl⟩, hn⟩
  · exact .inr ⟨_, ⟨t, ht, rfl⟩, hn⟩

theorem satArgparse_T_good {v : Val ℝ} (h : ∀ t ∈ Val.elems v, InDomeT U B t) :
    satArgparse E B S (some v) none = .ok ((Val.elems v).map (fun t => (some (toKelvin U.T.name t),
      some (B.dsl (toKelvin U.T.name t)), some (B.dsv (toKelvin U.T.name t))))) := by
  unfold satArgparse
  dsimp only
  rw [exOk, convT hU hmw, exOk, if_neg]
  · simp [List.map_map, Function.comp_def]
  · simp only [Bool.or_eq_true, List.any_eq_true, List.mem_map, decide_eq_true_eq, not_or, not_exists, not_and]
    constructor
    · rintro _ ⟨t, ht, rfl⟩; exact not_lt.mpr (h t ht).1
    · rintro _ ⟨t, ht, rfl⟩; exact not_lt.mpr (h t ht).2

/-- The pressures in Pa, as the inversion gets them. -/
theorem satArgparse_p_good {v : Val ℝ} (h : ∀ p ∈ Val.elems v, InDomeP E.a U B p) :
    satArgparse E B S none (some v) =
      (S.Ts ((Val.elems v).map (fun p => some (some (p * size (pressure E.a) U.p)))) >>= fun Ts =>
        .ok ((Val.elems v).mapIdx (fun n _ => (Ts n, onCurve B.dsl (Ts n), onCurve B.dsv (Ts n))))) := by
  unfold satArgparse
  dsimp only
  rw [convP hU hmw, exOk, if_neg]
  · simp only [List.map_map, Function.comp_def, mapIdx_of_map]
  · simp only [Bool.or_eq_true, List.any_eq_true, List.mem_map, decide_eq_true_eq, not_or, not_exists, not_and]
    constructor
    · rintro _ ⟨t, ht, rfl⟩; exact not_lt.mpr (h t ht).1
    · rintro _ ⟨t, ht, rfl⟩; exact not_lt.mpr (h t ht).2

theorem satTs_good {v : Val ℝ} (h : ∀ p ∈ Val.elems v, InDomeP E.a U B p) :
    satTs E B S (some v) =
      (S.Ts ((Val.elems v).map (fun p => some (some (p * size (pressure E.a) U.p)))) >>= fun Ts =>
        .ok ((Val.elems v).mapIdx (fun n _ => (Ts n).map (fromKelvin U.T.name)))) := by
  unfold satTs
  dsimp only
  rw [exOk, convP hU hmw, exOk, if_neg]
  · simp only [List.map_map, Function.comp_def, mapIdx_of_map, convOut_temperature hU B.mw, map_of_mapIdx]
    rfl
  · simp only [List.any_eq_true, List.mem_map, decide_eq_true_eq, not_exists, not_and]
    rintro _ ⟨t, ht, rfl⟩
    exact not_or.mpr ⟨not_lt.mpr (h t ht).1, not_lt.mpr (h t ht).2⟩

theorem inUnitsKg_recip (d : ℝ) :
    inUnitsKg E.a U B.mw .volume (1 / d) = 1 / inUnitsKg E.a U B.mw .density d := by
  simp only [inUnitsKg, perKmol, inUnits, div_eq_mul_inv, mul_inv, inv_inv, one_mul]
  try ring

/-- Every saturation method in terms of the parsed arguments. -/
theorem satMethod_eq (q : SatQuantity) (T p : Option (Val ℝ)) :
    satMethod q E B S T p = (satArgparse E B S T p >>= fun r =>
      .ok (r.map (fun e => (Pt.at (q.value B) e.1 e.2.1).map (inUnitsKg E.a U B.mw q.kind)),
        r.map (fun e => (Pt.at (q.value B) e.1 e.2.2).map (inUnitsKg E.a U B.mw q.kind)))) := by
  have dens : ∀ r : List (Nan × Nan × Nan), (∀ e ∈ r, e.1.isSome = e.2.1.isSome ∧ e.1.isSome = e.2.2.isSome) →
      (r.map (fun e => e.2.1.map (inUnitsKg E.a U B.mw .density))
        = r.map (fun e => (Pt.at (fun _ d => d) e.1 e.2.1).map (inUnitsKg E.a U B.mw .density))) ∧
      (r.map (fun e => e.2.2.map (inUnitsKg E.a U B.mw .density))
        = r.map (fun e => (Pt.at (fun _ d => d) e.1 e.2.2).map (inUnitsKg E.a U B.mw .density))) := by
    intro r hr
    refine ⟨List.map_congr_left fun e he => ?_, List.map_congr_left fun e he => ?_⟩
    · have := (hr e he).1
      rcases e with ⟨_ | a, _ | b, _ | c⟩ <;> simp_all [Pt.at, nan2]
    · have := (hr e he).2
      rcases e with ⟨_ | a, _ | b, _ | c⟩ <;> simp_all [Pt.at, nan2]
  have shape : ∀ r, satArgparse E B S T p = .ok r →
      ∀ e ∈ r, e.1.isSome = e.2.1.isSome ∧ e.1.isSome = e.2.2.isSome := by
    intro r hr
    unfold satArgparse at hr
    split at hr
    · have jp : ∀ T, (convArg T (mpConversions E B.mw "T") >>= fun a =>
          if ((a.xs.any fun T => decide (T < B.Tt)) || a.xs.any fun T => decide (T > B.Tc)) = true then
            Except.error Err.param
          else Except.ok (a.xs.map (fun T => (some T, some (B.dsl T), some (B.dsv T))))) = .ok r →
          ∀ e ∈ r, e.1.isSome = e.2.1.isSome ∧ e.1.isSome = e.2.2.isSome := by
        intro T hr
        obtain ⟨a, -, hr⟩ := bind_ok hr
        split at hr
        · cases hr
        · cases hr
          intro e he
          obtain ⟨t, -, rfl⟩ := List.mem_map.mp he
          simp
      dsimp only at hr
      split at hr
      · exact jp _ hr
      · obtain ⟨T, -, hr⟩ := bind_ok hr
        exact jp T hr
    · obtain ⟨a, -, hr⟩ := bind_ok hr
      split at hr
      · cases hr
      · obtain ⟨Ts, -, hr⟩ := bind_ok hr
        cases hr
        intro e he
        obtain ⟨n, x, -, rfl⟩ := mem_mapIdx' he
        simp [onCurve]
    · cases hr
  have hds : satDs E B S T p = (satArgparse E B S T p >>= fun r =>
      .ok (r.map (fun e => (Pt.at (fun _ d => d) e.1 e.2.1).map (inUnitsKg E.a U B.mw .density)),
        r.map (fun e => (Pt.at (fun _ d => d) e.1 e.2.2).map (inUnitsKg E.a U B.mw .density)))) := by
    unfold satDs
    cases hr : satArgparse E B S T p with
    | error e => rfl
    | ok r =>
      rw [exOk, exOk, factor_density hU hmw, exOk]
      simp only [scaleBy_kg E.a U B.mw (show Kind.density ≠ .temperature by simp), List.map_map, Function.comp_def]
      rw [(dens r (shape r hr)).1, (dens r (shape r hr)).2]
  have hof : ∀ (f : ℝ → ℝ → ℝ) (k : Kind) (c : Except Err ℝ), k ≠ .temperature →
      c = .ok (inUnitsKg E.a U B.mw k 1) → satOf E B S f c T p = (satArgparse E B S T p >>= fun r =>
      .ok (r.map (fun e => (Pt.at f e.1 e.2.1).map (inUnitsKg E.a U B.mw k)),
        r.map (fun e => (Pt.at f e.1 e.2.2).map (inUnitsKg E.a U B.mw k)))) := by
    intro f k c hk hc
    unfold satOf
    cases hr : satArgparse E B S T p with
    | error e => rfl
    | ok r =>
      rw [exOk, exOk, hc, exOk]
      simp only [scaleBy_kg E.a U B.mw hk, List.map_map, Function.comp_def]
  cases q with
  | ds => exact hds
  | vs =>
    show satVs E B S T p = _
    unfold satVs
    rw [hds]
    cases hr : satArgparse E B S T p with
    | error e => rfl
    | ok r =>
      simp only [exOk, List.map_map, Function.comp_def, Option.map_map]
      congr 2
      · refine List.map_congr_left fun e _ => ?_
        rcases e with ⟨_ | a, _ | b, c⟩ <;> simp [Pt.at, nan2, SatQuantity.value, SatQuantity.kind]
        have := inUnitsKg_recip hU hmw (B := B) b
        simp only [one_div] at this
        exact this.symm
      · refine List.map_congr_left fun e _ => ?_
        rcases e with ⟨_ | a, c, _ | b⟩ <;> simp [Pt.at, nan2, SatQuantity.value, SatQuantity.kind]
        have := inUnitsKg_recip hU hmw (B := B) b
        simp only [one_div] at this
        exact this.symm
  | es => exact hof _ .energy _ (by simp) (factor_energy hU hmw _)
  | hs => exact hof _ .energy _ (by simp) (factor_energy hU hmw _)
  | ss => exact hof _ .entropy _ (by simp) (factor_entropy hU hmw _)

end

/-- C55, temperatures.  In any valid unit system, a scalar or array with any temperature below the
triple or above the critical point is refused by `ps` and by every method that returns liquid and
vapor values. -/
theorem C55_rejects_T (E : Env) (U : Sys) (hU : Uses E U) (B : Sub) (hmw : B.mw ≠ 0) (S : Sol)
    (T : Val ℝ) (h : ∃ t ∈ Val.elems T, ¬ InDomeT U B t) (q : SatQuantity) :
    satMethod q E B S (some T) none = .error .param ∧ satPs E B (some T) = .error .param := by
  constructor
  · rw [satMethod_eq hU hmw, satArgparse_T_bad hU hmw S h]; rfl
  · obtain ⟨t, ht, hn⟩ := h
    unfold InDomeT at hn
    rw [not_and_or, not_le, not_le] at hn
    unfold satPs
    dsimp only
    rw [exOk, convT hU hmw, exOk, if_pos]
    simp only [List.any_eq_true, List.mem_map, decide_eq_true_eq]
    exact ⟨_, ⟨t, ht, rfl⟩, hn⟩

/-- C55, pressures.  The same for pressures below the triple or above the critical point, by `Ts` and
by every method that returns liquid and vapor values. -/
theorem C55_rejects_p (E : Env) (U : Sys) (hU : Uses E U) (B : Sub) (hmw : B.mw ≠ 0) (S : Sol)
    (p : Val ℝ) (h : ∃ x ∈ Val.elems p, ¬ InDomeP E.a U B x) (q : SatQuantity) :
    satMethod q E B S none (some p) = .error .param ∧ satTs E B S (some p) = .error .param := by
  constructor
  · rw [satMethod_eq hU hmw, satArgparse_p_bad hU hmw S h]; rfl
  · obtain ⟨t, ht, hn⟩ := h
    unfold InDomeP at hn
    rw [not_and_or, not_le, not_le] at hn
    unfold satTs
    dsimp only
    rw [exOk, convP hU hmw, exOk, if_pos]
    simp only [List.any_eq_true, List.mem_map, decide_eq_true_eq]
    exact ⟨_, ⟨t, ht, rfl⟩, hn⟩

/-- C55.  Temperature and pressure together are refused. -/
theorem C55_rejects_both (E : Env) (U : Sys) (hU : Uses E U) (B : Sub) (hmw : B.mw ≠ 0) (S : Sol)
    (T p : Val ℝ) (q : SatQuantity) : satMethod q E B S (some T) (some p) = .error .param := by
  rw [satMethod_eq hU hmw]; rfl

/-- C55, defaults.  Without an argument the configured temperature is used (the configured pressure by
`Ts`), and the same range applies: the call is that with this number as its argument. -/
theorem C55_defaults (E : Env) (U : Sys) (hU : Uses E U) (B : Sub) (S : Sol) :
    ∃ T0 p0 : ℝ,
      (∃ s : Scale, E.c.str "def_T_unit" = .ok s.name ∧ toKelvin U.T.name T0 = toKelvin s.name E.c.defT) ∧
      (∃ u, E.c.str "def_p_unit" = .ok u ∧
        p0 * size (pressure E.a) U.p = E.c.defp * size (pressure E.a) u) ∧
      (∀ q, satMethod q E B S none none = satMethod q E B S (some (.scalar T0)) none) ∧
      satPs E B none = satPs E B (some (.scalar T0)) ∧
      satTs E B S none = satTs E B S (some (.scalar p0)) := by
  obtain ⟨s, hs, hT⟩ := defT_eq hU
  obtain ⟨u, hu, hc, hp⟩ := defp_eq hU
  have h0 : satArgparse E B S none none
      = satArgparse E B S (some (.scalar (fromKelvin U.T.name (toKelvin s.name E.c.defT)))) none := by
    simp [satArgparse, hT, exOk]
  refine ⟨_, _, ⟨s, hs, to_from U.T _⟩, ⟨u, hu, div_mul_cancel₀ _ (ps_ne hU)⟩, ?_, ?_, ?_⟩
  · intro q
    cases q <;> simp [satMethod, satDs, satVs, satEs, satHs, satSs, satOf, h0]
  · simp [satPs, hT, exOk]
  · simp [satTs, hp, exOk]

/-- C55, answers.  When every temperature lies from the triple to the critical point, `ps` and the
other methods answer with one number per element: the saturation pressure and the property of the
saturated liquid and vapor at that temperature, in the units in use. -/
theorem C55_answers_T (E : Env) (U : Sys) (hU : Uses E U) (B : Sub) (hmw : B.mw ≠ 0) (S : Sol)
    (T : Val ℝ) (h : ∀ t ∈ Val.elems T, InDomeT U B t) :
    satPs E B (some T) = .ok ((Val.elems T).map (fun t =>
      some (inUnitsKg E.a U B.mw .pressure (B.ps (toKelvin U.T.name t))))) ∧
    ∀ q : SatQuantity, satMethod q E B S (some T) none = .ok
      ((Val.elems T).map (fun t => some (inUnitsKg E.a U B.mw q.kind
        (q.value B (toKelvin U.T.name t) (B.dsl (toKelvin U.T.name t))))),
       (Val.elems T).map (fun t => some (inUnitsKg E.a U B.mw q.kind
        (q.value B (toKelvin U.T.name t) (B.dsv (toKelvin U.T.name t)))))) := by
  constructor
  · unfold satPs
    dsimp only
    rw [exOk, convT hU hmw, exOk, if_neg, convOut_pressure hU B.mw]
    · simp [List.map_map, Function.comp_def]
    · simp only [List.any_eq_true, List.mem_map, decide_eq_true_eq, not_exists, not_and]
      rintro _ ⟨t, ht, rfl⟩
      exact not_or.mpr ⟨not_lt.mpr (h t ht).1, not_lt.mpr (h t ht).2⟩
  · intro q
    rw [satMethod_eq hU hmw, satArgparse_T_good hU hmw S h, exOk]
    simp [List.map_map, Function.comp_def, Pt.at, nan2]

/-- C55, answers in terms of pressure.  When every pressure lies from the triple to the critical point,
the methods answer exactly when `Ts` does, and then with the property of the saturated liquid and vapor
at the temperatures that `Ts` returns, element by element (NaN where that is NaN). -/
theorem C55_answers_p (E : Env) (U : Sys) (hU : Uses E U) (B : Sub) (hmw : B.mw ≠ 0) (S : Sol)
    (p : Val ℝ) (h : ∀ x ∈ Val.elems p, InDomeP E.a U B x) (q : SatQuantity) :
    satMethod q E B S none (some p) = (satTs E B S (some p) >>= fun ts => .ok
      (ts.map (Option.map (fun t => inUnitsKg E.a U B.mw q.kind
        (q.value B (toKelvin U.T.name t) (B.dsl (toKelvin U.T.name t))))),
       ts.map (Option.map (fun t => inUnitsKg E.a U B.mw q.kind
        (q.value B (toKelvin U.T.name t) (B.dsv (toKelvin U.T.name t))))))) ∧
    ∀ ts, satTs E B S (some p) = .ok ts → ts.length = (Val.elems p).length := by
  constructor
  · rw [satMethod_eq hU hmw, satArgparse_p_good hU hmw S h, satTs_good hU hmw S h]
    cases S.Ts ((Val.elems p).map (fun p => some (some (p * size (pressure E.a) U.p)))) with
    | error e => rfl
    | ok Ts =>
      simp only [exOk, map_of_mapIdx]
      congr 2
      · congr 1
        funext n x
        cases Ts n with
        | none => rfl
        | some t => simp [Pt.at, nan2, onCurve, to_from]
      · congr 1
        funext n x
        cases Ts n with
        | none => rfl
        | some t => simp [Pt.at, nan2, onCurve, to_from]
  · intro ts hts
    rw [satTs_good hU hmw S h] at hts
    obtain ⟨f, -, hts⟩ := bind_ok hts
    cases hts
    simp

/-! ## Quality with temperature or pressure -/

section
variable {E : Env} {U : Sys} (hU : Uses E U) {B : Sub} (hmw : B.mw ≠ 0) (S : Sol)
include hU hmw

theorem method_error {varg : List (Val ℝ)} {kw : Kw} {e : Err} (h : mpArgparse E B S varg kw = .error e)
    (m : MQuantity) : mpMethod m E B S varg kw = .error e := by
  cases m <;> simp only [mpMethod]
  · rw [mpT_eq hU hmw, h, exErr]
  · rw [mpP_eq hU hmw, h, exErr]
  · rw [mpD_eq hU hmw, h, exErr]
  · rw [mpV_eq hU hmw, h, exErr]
  · rw [mpX, h, exErr]
  · rw [mpE_eq hU hmw, h, exErr]
  · rw [mpF_eq hU hmw, h, exErr]
  · rw [mpG_eq hU hmw, h, exErr]
  · rw [mpH_eq hU hmw, h, exErr]
  · rw [mpS_eq hU hmw, h, exErr]
  · rw [mpCv_eq hU hmw, h, exErr]

theorem argparse_PX (vp vx : Val ℝ)
    (h : ∃ x ∈ (Val.elems vp).map (fun x => x * size (pressure E.a) U.p), B.plo ≤ x ∧ x ≤ B.phi)
    (hx : ∀ x ∈ Val.elems vx, -1 ≤ x ∧ x ≤ 1) :
    ∃ o1 o2, mpArgparse E B S [] [("p", vp), ("x", vx)] =
      (mpPX B S (((Val.elems vp).map (fun x => x * size (pressure E.a) U.p)).map (clip B.plo B.phi))
        (Val.elems vx) >>= fun r => .ok { pts := r, callerP := o1, callerX := o2 }) := by
  rw [argparse_two hU hmw]
  have r : mpRules [("p", vp), ("x", vx)] = .ok () := by simp [mpRules, mpLegal, Kw.has, List.lookup]
  have e1 : argKg E U B.mw [("p", vp), ("x", vx)] "p"
      = some ⟨(Val.elems vp).map (fun x => x * size (pressure E.a) U.p), vp.isArr && isInternalKg U "p"⟩ := rfl
  have e2 : argKg E U B.mw [("p", vp), ("x", vx)] "x"
      = some ⟨Val.elems vx, vx.isArr && isInternalKg U "x"⟩ := argKg_x E U B.mw vp vx
  have e3 : ∀ n, n ≠ "p" → n ≠ "x" → argKg E U B.mw [("p", vp), ("x", vx)] n = none := by
    intro n h1 h2
    simp [argKg, List.lookup, beq_false_of_ne h1, beq_false_of_ne h2]
  have hq : mpQuality (some ⟨Val.elems vx, vx.isArr && isInternalKg U "x"⟩) = .ok () := by
    rcases mpQuality_cases (some ⟨Val.elems vx, vx.isArr && isInternalKg U "x"⟩) with ⟨-, a, ha, x, hxm, hc⟩ | ⟨h, -⟩
    · cases ha
      have := hx x hxm
      rcases hc with hc | hc <;> linarith
    · exact h
  rw [r, exOk, parsed, e3 "T" (by decide) (by decide), mpRange_none, exOk, e1, mpRange_some h, exOk,
    e2, hq, exOk, e3 "d" (by decide) (by decide), e3 "e" (by decide) (by decide), e3 "h" (by decide) (by decide),
    e3 "s" (by decide) (by decide), e3 "v" (by decide) (by decide)]
  exact ⟨_, _, rfl⟩

end

/-- Any call with two keywords whose first stage fails, or whose last stage refuses every quality, fails. -/
theorem two_fails {E : Env} {U : Sys} (hU : Uses E U) {B : Sub} (hmw : B.mw ≠ 0) (S : Sol) {a b : String}
    {va vb : Val ℝ} (h : ∀ k, Parsed E U B [(a, va), (b, vb)] k → ∃ e, mpSolve B S k = .error e) (m : MQuantity) :
    ∃ e, mpMethod m E B S [] [(a, va), (b, vb)] = .error e := by
  suffices hs : ∃ e, mpArgparse E B S [] [(a, va), (b, vb)] = .error e by
    obtain ⟨e, he⟩ := hs
    exact ⟨e, method_error hU hmw S he m⟩
  rw [argparse_two hU hmw]
  cases mpRules [(a, va), (b, vb)] with
  | error e => exact ⟨e, rfl⟩
  | ok u =>
    rw [exOk]
    rcases parsed_cases E U B [(a, va), (b, vb)] with hp | ⟨k, hk, hp⟩
    · rw [hp]; exact ⟨_, rfl⟩
    · rw [hk, exOk]; exact h k hp

/-- C55, quality with temperature.  With a quality and a temperature within the data's limits but above
the critical point, for any element, no method returns anything. -/
theorem C55_quality_T (E : Env) (U : Sys) (hU : Uses E U) (B : Sub) (hmw : B.mw ≠ 0) (S : Sol)
    (T x : Val ℝ) (hx : Val.elems x ≠ []) (h : ∃ t ∈ Val.elems T, B.Tc < toKelvin U.T.name t ∧
      B.Tlo ≤ toKelvin U.T.name t ∧ toKelvin U.T.name t ≤ B.Thi) (m : MQuantity) :
    ∃ e, mpMethod m E B S [] [("T", T), ("x", x)] = .error e := by
  obtain ⟨t, ht, h1, h2, h3⟩ := h
  apply two_fails hU hmw
  intro k hk
  have e3 : ∀ n, n ≠ "T" → n ≠ "x" → argKg E U B.mw [("T", T), ("x", x)] n = none := by
    intro n h1 h2
    simp [argKg, List.lookup, beq_false_of_ne h1, beq_false_of_ne h2]
  have eT : k.T = some ⟨((Val.elems T).map (toKelvin U.T.name)).map (clip B.Tlo B.Thi),
      T.isArr && isInternalKg U "T"⟩ := hk.T
  have ep : k.p = none := by rw [hk.p, e3 "p" (by decide) (by decide)]; rfl
  have ed : k.d = none := by
    rw [hk.d, e3 "d" (by decide) (by decide), e3 "v" (by decide) (by decide)]; rfl
  have ex : k.x = some ⟨Val.elems x, x.isArr && isInternalKg U "x"⟩ := by
    rw [hk.x]; exact argKg_x E U B.mw T x
  have ei : k.inv = none := by
    rw [hk.inv, e3 "e" (by decide) (by decide), e3 "h" (by decide) (by decide), e3 "s" (by decide) (by decide)]
    rfl
  unfold mpSolve
  rw [ei]
  dsimp only
  unfold mpSolveBasic
  rw [eT, ep, ed, ex]
  dsimp only
  suffices hs : ∃ e, mpTX B (((Val.elems T).map (toKelvin U.T.name)).map (clip B.Tlo B.Thi)) (Val.elems x)
      = .error e by
    obtain ⟨e, he⟩ := hs
    exact ⟨e, by rw [he, exErr]⟩
  unfold mpTX
  have hm : (some (toKelvin U.T.name t) : Nan) ∈
      ((Val.elems T).map (toKelvin U.T.name)).map (clip B.Tlo B.Thi) :=
    List.mem_map.mpr ⟨_, List.mem_map.mpr ⟨t, ht, rfl⟩, clip_of_mem h2 h3⟩
  generalize ((Val.elems T).map (toKelvin U.T.name)).map (clip B.Tlo B.Thi) = Ts at hm
  generalize Val.elems x = xs at hx
  have hb : ∀ r, broadcast Ts xs = .ok r → (some (toKelvin U.T.name t) : Nan) ∈ r.1 := by
    intro r hr
    unfold broadcast at hr
    split at hr
    · cases hr; exact hm
    · split at hr
      · cases hr
        simp only [List.mem_singleton] at hm
        subst hm
        simp [hx]
      · cases hr; exact hm
      · cases hr
  cases hr : broadcast Ts xs with
  | error e => exact ⟨e, rfl⟩
  | ok r =>
    have := hb r hr
    rw [exOk]
    dsimp only
    rw [if_pos]
    · exact ⟨_, rfl⟩
    · rw [List.any_eq_true]
      exact ⟨_, this, by simpa using h1⟩

/-- C55, quality with pressure.  The same for a quality and a pressure within the data's limits but
above the critical point. -/
theorem C55_quality_p (E : Env) (U : Sys) (hU : Uses E U) (B : Sub) (hmw : B.mw ≠ 0) (S : Sol)
    (p x : Val ℝ) (h : ∃ y ∈ Val.elems p, B.pc < y * size (pressure E.a) U.p ∧
      B.plo ≤ y * size (pressure E.a) U.p ∧ y * size (pressure E.a) U.p ≤ B.phi) (m : MQuantity) :
    ∃ e, mpMethod m E B S [] [("p", p), ("x", x)] = .error e := by
  obtain ⟨t, ht, h1, h2, h3⟩ := h
  apply two_fails hU hmw
  intro k hk
  have e3 : ∀ n, n ≠ "p" → n ≠ "x" → argKg E U B.mw [("p", p), ("x", x)] n = none := by
    intro n h1 h2
    simp [argKg, List.lookup, beq_false_of_ne h1, beq_false_of_ne h2]
  have eT : k.T = none := by rw [hk.T, e3 "T" (by decide) (by decide)]; rfl
  have ep : k.p = some ⟨((Val.elems p).map (fun x => x * size (pressure E.a) U.p)).map (clip B.plo B.phi),
      p.isArr && isInternalKg U "p"⟩ := hk.p
  have ed : k.d = none := by
    rw [hk.d, e3 "d" (by decide) (by decide), e3 "v" (by decide) (by decide)]; rfl
  have ex : k.x = some ⟨Val.elems x, x.isArr && isInternalKg U "x"⟩ := by
    rw [hk.x]; exact argKg_x E U B.mw p x
  have ei : k.inv = none := by
    rw [hk.inv, e3 "e" (by decide) (by decide), e3 "h" (by decide) (by decide), e3 "s" (by decide) (by decide)]
    rfl
  unfold mpSolve
  rw [ei]
  dsimp only
  unfold mpSolveBasic
  rw [eT, ep, ed, ex]
  dsimp only
  suffices hs : ∃ e, mpPX B S (((Val.elems p).map (fun x => x * size (pressure E.a) U.p)).map (clip B.plo B.phi))
      (Val.elems x) = .error e by
    obtain ⟨e, he⟩ := hs
    exact ⟨e, by rw [he, exErr]⟩
  unfold mpPX
  rw [if_pos]
  · exact ⟨_, rfl⟩
  · rw [List.any_eq_true]
    exact ⟨_, List.mem_map.mpr ⟨_, List.mem_map.mpr ⟨t, ht, rfl⟩, clip_of_mem h2 h3⟩, by simpa using h1⟩

/-- **C55 disagreement.** With a quality, a temperature below the triple point but within the data's
limits is accepted: the call returns numbers from the saturation curves continued below the triple
point (`mp1.py:2886-2896`).  The limits shipped for carbon dioxide (from 186 K, triple point 216.592 K)
and methane (from 90.69 K, triple point 90.6941 K) allow it. -/
theorem C55_quality_T_defect (E : Env) (U : Sys) (hU : Uses E U) (B : Sub) (hmw : B.mw ≠ 0) (S : Sol)
    (t x : ℝ) (h0 : 0 ≤ x) (h1 : x ≤ 1) (hlo : B.Tlo ≤ toKelvin U.T.name t) (hhi : toKelvin U.T.name t ≤ B.Thi)
    (hTt : toKelvin U.T.name t < B.Tt) (hTc : B.Tt ≤ B.Tc) :
    mpT E B S [] [("T", .scalar t), ("x", .scalar x)] = .ok [some t] ∧
    mpD E B S [] [("T", .scalar t), ("x", .scalar x)] = .ok [some (inUnitsKg E.a U B.mw .density
      (1 / ((1 - x) / B.dsl (toKelvin U.T.name t) + x / B.dsv (toKelvin U.T.name t))))] ∧
    satDs E B S (some (.scalar t)) none = .error .param := by
  obtain ⟨o1, o2, h⟩ := argparse_TX hU hmw S (.scalar t) (.scalar x)
    ⟨_, List.mem_map.mpr ⟨t, by simp [Val.elems], rfl⟩, hlo, hhi⟩
    (by intro y hy; simp [Val.elems] at hy; subst hy; constructor <;> linarith)
  have hr : mpArgparse E B S [] [("T", .scalar t), ("x", .scalar x)]
      = .ok { pts := [satPt B (some (toKelvin U.T.name t)) (some x)], callerT := o1, callerX := o2 } := by
    rw [h]
    have e : ¬ toKelvin U.T.name t > B.Tc := by linarith
    have e' : ¬ x < 0 := by linarith
    simp only [Val.elems, List.map_cons, List.map_nil, clip_of_mem hlo hhi, mpTX, broadcast, List.length_cons,
      List.length_nil, if_true, exOk, List.any_cons, List.any_nil, e, e', decide_false, Bool.or_false,
      Bool.false_eq_true, if_false, List.zip_cons_cons, List.zip_nil_right]
  refine ⟨?_, ?_, ?_⟩
  · have := method_pts hU hmw hr (m := .T) (by simp)
    rw [show mpT E B S = mpMethod .T E B S from rfl, this]
    simp [ptValue, satPt]
    exact from_to _ _
  · have := method_pts hU hmw hr (m := .d) (by simp)
    rw [show mpD E B S = mpMethod .d E B S from rfl, this]
    simp [ptValue, satPt, Pt.density, onCurve]
  · exact (C55_rejects_T E U hU B hmw S (.scalar t)
      ⟨t, by simp [Val.elems], fun hc => absurd hc.1 (not_le.mpr hTt)⟩ .ds).1

/-- The saturation temperature of one pressure outside the triple-critical range. -/
theorem codeTs_out {B : Sub} {p : ℝ} (h : ¬ (B.pt ≤ p ∧ p ≤ B.pc)) :
    ∃ f, (codeSol B).Ts [some (some p)] = .ok f ∧ f 0 = some B.Tmid := by
  have ha : (tsEl B (some (some p))).act = false := by
    simp only [tsEl, ge_iff_le, decide_eq_false_iff_not]; exact h
  have : (codeSol B).Ts [some (some p)] = (codeTs B [some (some p)]).map (·.1) := rfl
  rw [this, codeTs, iterLoop_eq]
  rw [show List.map (tsEl B) [some (some p)] = [tsEl B (some (some p))] from rfl, List.mapM_cons, single_inact ha]
  exact ⟨_, rfl, rfl⟩

/-- **C55 disagreement.** With a quality, a pressure below the triple point but within the data's limits
(whose lower limit is zero for every shipped substance) is accepted, and the temperature used is halfway
between the triple and the critical point, whatever the pressure (`mp1.py:2941-2955`,
`2046-2053`). -/
theorem C55_quality_p_defect (E : Env) (U : Sys) (hU : Uses E U) (B : Sub) (hmw : B.mw ≠ 0)
    (p x : ℝ) (h0 : 0 ≤ x) (h1 : x ≤ 1) (hlo : B.plo ≤ p * size (pressure E.a) U.p)
    (hhi : p * size (pressure E.a) U.p ≤ B.phi) (hpt : p * size (pressure E.a) U.p < B.pt) (hpc : B.pt ≤ B.pc) :
    mpT E B (codeSol B) [] [("p", .scalar p), ("x", .scalar x)]
      = .ok [some (fromKelvin U.T.name (1 / 2 * (B.Tt + B.Tc)))] ∧
    satDs E B (codeSol B) none (some (.scalar p)) = .error .param := by
  obtain ⟨o1, o2, h⟩ := argparse_PX hU hmw (codeSol B) (.scalar p) (.scalar x)
    ⟨_, List.mem_map.mpr ⟨p, by simp [Val.elems], rfl⟩, hlo, hhi⟩
    (by intro y hy; simp [Val.elems] at hy; subst hy; constructor <;> linarith)
  obtain ⟨f, hf, hf0⟩ := codeTs_out (B := B) (p := p * size (pressure E.a) U.p) (fun hc => absurd hc.1 (not_le.mpr hpt))
  have hr : mpArgparse E B (codeSol B) [] [("p", .scalar p), ("x", .scalar x)]
      = .ok { pts := [satPt B (some B.Tmid) (some x)], callerP := o1, callerX := o2 } := by
    rw [h]
    have e : ¬ p * size (pressure E.a) U.p > B.pc := by linarith
    have e' : ¬ x < 0 := by linarith
    simp only [Val.elems, List.map_cons, List.map_nil, clip_of_mem hlo hhi, mpPX, broadcast, List.length_cons,
      List.length_nil, if_true, exOk, List.any_cons, List.any_nil, e, e', decide_false, Bool.or_false,
      Bool.false_eq_true, if_false, List.zip_cons_cons, List.zip_nil_right, hf, List.mapIdx_cons, List.mapIdx_nil, hf0]
  refine ⟨?_, ?_⟩
  · have := method_pts hU hmw hr (m := .T) (by simp)
    rw [show mpT E B (codeSol B) = mpMethod .T E B (codeSol B) from rfl, this]
    have e : B.Tmid = 1 / 2 * (B.Tt + B.Tc) := by unfold Sub.Tmid; norm_num
    simp only [ptValue, satPt, List.map_cons, List.map_nil, Option.map_some, e]
    rfl
  · exact (C55_rejects_p E U hU B hmw (codeSol B) (.scalar p)
      ⟨p, by simp [Val.elems], fun hc => absurd hc.1 (not_le.mpr hpt)⟩ .ds).1

/-- C51, the ends of the dome.  In any valid unit system, a call with quality 0 returns what the
saturation methods return for the liquid, and with quality 1 what they return for the vapor. -/
theorem C51_ends (E : Env) (U : Sys) (hU : Uses E U) (B : Sub) (hmw : B.mw ≠ 0) (S : Sol)
    (t : ℝ) (ht : InDomeT U B t) (hlo : B.Tlo ≤ toKelvin U.T.name t) (hhi : toKelvin U.T.name t ≤ B.Thi)
    (q : SatQuantity) :
    ∃ l v, satMethod q E B S (some (.scalar t)) none = .ok ([some l], [some v]) ∧
      mpMethod q.general E B S [] [("T", .scalar t), ("x", .scalar 0)] = .ok [some l] ∧
      mpMethod q.general E B S [] [("T", .scalar t), ("x", .scalar 1)] = .ok [some v] := by
  have hr : ∀ x : ℝ, 0 ≤ x → x ≤ 1 → ∃ o1 o2, mpArgparse E B S [] [("T", .scalar t), ("x", .scalar x)]
      = .ok { pts := [satPt B (some (toKelvin U.T.name t)) (some x)], callerT := o1, callerX := o2 } := by
    intro x h0 h1
    obtain ⟨o1, o2, h⟩ := argparse_TX hU hmw S (.scalar t) (.scalar x)
      ⟨_, List.mem_map.mpr ⟨t, by simp [Val.elems], rfl⟩, hlo, hhi⟩
      (by intro y hy; simp [Val.elems] at hy; subst hy; constructor <;> linarith)
    refine ⟨o1, o2, ?_⟩
    rw [h]
    have e : ¬ toKelvin U.T.name t > B.Tc := not_lt.mpr ht.2
    have e' : ¬ x < 0 := by linarith
    simp only [Val.elems, List.map_cons, List.map_nil, clip_of_mem hlo hhi, mpTX, broadcast, List.length_cons,
      List.length_nil, if_true, exOk, List.any_cons, List.any_nil, e, e', decide_false, Bool.or_false,
      Bool.false_eq_true, if_false, List.zip_cons_cons, List.zip_nil_right]
  obtain ⟨o1, o2, h0⟩ := hr 0 le_rfl zero_le_one
  obtain ⟨o3, o4, h1⟩ := hr 1 zero_le_one le_rfl
  have hg : q.general ≠ .cv := by cases q <;> simp [SatQuantity.general]
  refine ⟨_, _, ((C55_answers_T E U hU B hmw S (.scalar t)
    (by intro y hy; simp [Val.elems] at hy; subst hy; exact ht)).2 q).trans rfl, ?_, ?_⟩
  · rw [method_pts hU hmw h0 hg]
    cases q <;> simp [SatQuantity.general, SatQuantity.value, SatQuantity.kind, ptValue, satPt, Pt.density,
      Pt.mix, Pt.at, nan2, onCurve]
    have := inUnitsKg_recip hU hmw (B := B) (B.dsl (toKelvin U.T.name t))
    simp only [one_div] at this
    exact this.symm
  · rw [method_pts hU hmw h1 hg]
    cases q <;> simp [SatQuantity.general, SatQuantity.value, SatQuantity.kind, ptValue, satPt, Pt.density,
      Pt.mix, Pt.at, nan2, onCurve]
    have := inUnitsKg_recip hU hmw (B := B) (B.dsv (toKelvin U.T.name t))
    simp only [one_div] at this
    exact this.symm

/-- C51.  The assumption of the other theorems about the inversions holds for those of the code: the
temperatures they return, when numbers, are at least the lower of 0.99 times the triple temperature and
the lower limit, and saturation temperatures are at most critical. -/
theorem C51_code_solvers (B : Sub) (Tmin : ℝ) (h0 : 0 ≤ B.Tt) (h1 : B.Tt ≤ B.Tc) (h2 : B.Tlo ≤ B.Thi)
    (m1 : Tmin ≤ 0.99 * B.Tt) (m2 : Tmin ≤ B.Tlo) : Bounded (codeSol B) B Tmin := by
  apply code_bounded
  · unfold Sub.Tmid; linarith
  · unfold Sub.Tmid; linarith
  · exact h2
  · linarith
  · exact m2

/-- The ranges are met and missed: 300 K and 700 K in a substance with limits like those of water. -/
example : InDomeT exampleSys demoSub 300 ∧ ¬ InDomeT exampleSys demoSub 700 := by
  have hK : ∀ x : ℝ, toKelvin exampleSys.T.name x = x := fun x => by
    show toKelvin Scale.K.name x = x; exact toK_K x
  constructor
  · constructor <;> rw [hK] <;> norm_num [demoSub]
  · intro h; have := h.2; rw [hK] at this; norm_num [demoSub] at this

end PyroMat.Mp.Props
