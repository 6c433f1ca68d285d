import Verif.Mp.PropsSize
import Verif.Mp.PhaseCases

/-!
# C80: elements out of range, states of both kinds, and calls that meet the hypotheses
-/

set_option linter.unusedSimpArgs false

namespace PyroMat.Mp.Props

open PyroMat PyroMat.Units PyroMat.Units.Spec PyroMat.Units.Props PyroMat.Gas PyroMat.Gas.Spec
open PyroMat.Gas.Props PyroMat.Mp PyroMat.Mp.Spec PyroMat.Config.Defaults

theorem mix_none {f : ℝ → ℝ → ℝ} {q : Pt} (h : q.T = none) : q.mix f = none := by
  unfold Pt.mix Pt.at
  rw [h]
  split <;> rfl

theorem ptCv_none {B : Sub} {q : Pt} (h : q.T = none) : q.cv B = none := by
  unfold Pt.cv Pt.at
  rw [h]
  split <;> rfl

/-- C80, out of range.  Where a call that returns was given a temperature outside the data's limits, the
temperature, pressure, energies, enthalpy, entropy and heat capacity it returns are NaN. -/
theorem C80_range_temperature (E : Env) (U : Sys) (hU : Uses E U) (B : Sub) (hmw : B.mw ≠ 0) (S : Sol)
    (varg : List (Val ℝ)) (kw : Kw) (hkw : (kw.map (·.1)).Nodup) (v : Val ℝ) (hv : ("T", v) ∈ supplied varg kw)
    (i : Nat) (t : ℝ) (ht : Elem (Val.elems v) i t) (hout : si E U B .T t < B.Tlo ∨ B.Thi < si E U B .T t)
    (m : MQuantity) (hm : m ≠ .d ∧ m ≠ .v ∧ m ≠ .x) (ys : List Nan) (h : mpMethod m E B S varg kw = .ok ys)
    (y : Nan) (hy : ys[i]? = some y) : y = none := by
  obtain ⟨r, hr⟩ := method_parsed hU hmw h
  have key : ∀ q, r.pts[i]? = some q → q.T = none := by
    intro q hq
    obtain ⟨kw', k, hn', hsub, -, -, hrules, hpar, ho⟩ := argparse_origin hU hmw hkw hr hq
    obtain ⟨T, hT, hel⟩ := given_T hpar hn' (hsub _ hv) ht
    rcases origin_T hpar hrules ho hT hel with h | h
    · rw [h]; exact clip_none.mpr hout
    · exact h
  have conc : ∀ q, r.pts[i]? = some q → ptValue E U B m q = none := by
    intro q hq
    have e := key q hq
    cases m <;> simp only [ptValue, Option.map_eq_none_iff]
    · exact e
    · simp only [Pt.at, e]; rfl
    · exact absurd rfl hm.1
    · exact absurd rfl hm.2.1
    · exact absurd rfl hm.2.2
    all_goals first | exact mix_none e | exact ptCv_none e
  by_cases hc : m = .cv
  · subst hc
    simp only [mpMethod] at h
    rw [mpCv_eq hU hmw, hr, exOk] at h
    split at h
    · cases h
    cases h
    simp only [outsKg, List.map_map, List.getElem?_map, Option.map_eq_some_iff] at hy
    obtain ⟨q, hq, rfl⟩ := hy
    exact conc q hq
  · rw [method_pts hU hmw hr hc] at h
    cases h
    simp only [List.getElem?_map, Option.map_eq_some_iff] at hy
    obtain ⟨q, hq, rfl⟩ := hy
    exact conc q hq

/-- C80, out of range.  Where a call with temperature and pressure that returns was given a pressure
outside the data's limits, every property it returns but the temperature and the quality is NaN. -/
theorem C80_range_pressure (E : Env) (U : Sys) (hU : Uses E U) (B : Sub) (hmw : B.mw ≠ 0)
    (varg : List (Val ℝ)) (kw : Kw) (hkw : (kw.map (·.1)).Nodup) (v w : Val ℝ) (hv : ("p", v) ∈ supplied varg kw)
    (hT : ("T", w) ∈ supplied varg kw) (hx : ∀ w, ("x", w) ∉ supplied varg kw)
    (i : Nat) (p : ℝ) (hp : Elem (Val.elems v) i p) (hout : si E U B .p p < B.plo ∨ B.phi < si E U B .p p)
    (m : MQuantity) (hm : m ≠ .T ∧ m ≠ .x) (ys : List Nan) (h : mpMethod m E B (codeSol B) varg kw = .ok ys)
    (y : Nan) (hy : ys[i]? = some y) : y = none := by
  obtain ⟨r, hr⟩ := method_parsed hU hmw h
  have key : ∀ q, r.pts[i]? = some q → ∃ T, q = onePt T none ∨ q = ⟨none, none, none, none, false⟩ := by
    intro q hq
    obtain ⟨kw', k, hn', hsub, -, hall, hrules, hpar, ho⟩ := argparse_origin hU hmw hkw hr hq
    obtain ⟨pa, hpa, hel⟩ := given_p hpar hn' (hsub _ hv) hp
    have nT : "T" ∈ kw'.map (·.1) := List.mem_map.mpr ⟨_, hsub _ hT, rfl⟩
    have np := name_p hpar hpa
    have hkT : k.T ≠ none := by
      rw [hpar.T, argKg_of_mem hn' (hsub _ hT)]; simp
    have ninv : ∀ j a, k.inv ≠ some (j, a) := by
      intro j a hj
      have := inv_name_ne j
      exact rules_three hrules (name_inv hpar hj) nT np this.2.1 this.2.2.1 (by decide) this.1
    have nd : ∀ a, k.d ≠ some a := by
      intro a ha
      obtain ⟨n, hn, hdv⟩ := name_d hpar ha
      have := dv_ne hdv
      exact rules_three hrules hn nT np this.2.1 this.2.2.1 (by decide) this.1
    cases ho with
    | hp h => exact absurd h (ninv _ _)
    | hd h => exact absurd h (ninv _ _)
    | hT h => exact absurd h (ninv _ _)
    | Td _ _ _ h => exact absurd h (nd _)
    | pd _ h => exact absurd h hkT
    | px _ h => exact absurd h hkT
    | Tx _ _ h => rw [hpa] at h; cases h
    | Tpx g1 g2 h1 h2 h3 h4 h5 h6 =>
      rename_i ta pa' x T p' d l
      rw [hpa] at h1; cases h1
      have e : p' = none := by rw [← elem_unique hel h4]; exact clip_none.mpr hout
      have ex : x = -1 := by
        rcases h2 with ⟨-, h2⟩ | ⟨xa, h2, -⟩
        · exact h2
        · obtain ⟨⟨n, w⟩, hw, e⟩ := List.mem_map.mp (name_x hpar h2)
          cases e
          rcases hall _ hw with h | h | h
          · exact absurd h (hx w)
          · simp at h
          · simp at h
      subst ex; subst e
      have hd : d i = none := by
        obtain ⟨w, hw⟩ := ex_map_fst h5
        refine run_nan hw (i := i) ?_
        rw [List.getElem?_map, h6 (by norm_num)]
        cases T <;> rfl
      refine ⟨T, ?_⟩
      unfold ptTPX
      split
      · exact .inr rfl
      · left
        rw [if_pos (by norm_num), hd]; rfl
  have conc : ∀ q, r.pts[i]? = some q → ptValue E U B m q = none := by
    intro q hq
    obtain ⟨T, rfl | rfl⟩ := key q hq
    · cases m <;> simp only [ptValue, Option.map_eq_none_iff, onePt, Pt.density, Pt.mix, Pt.cv, Pt.at, Bool.false_eq_true,
        if_false] <;> first | exact absurd rfl hm.1 | exact absurd rfl hm.2 | (cases T <;> rfl)
    · cases m <;> rfl
  by_cases hc : m = .cv
  · subst hc
    simp only [mpMethod] at h
    rw [mpCv_eq hU hmw, hr, exOk] at h
    split at h
    · cases h
    cases h
    simp only [outsKg, List.map_map, List.getElem?_map, Option.map_eq_some_iff] at hy
    obtain ⟨q, hq, rfl⟩ := hy
    exact conc q hq
  · rw [method_pts hU hmw hr hc] at h
    cases h
    simp only [List.getElem?_map, Option.map_eq_some_iff] at hy
    obtain ⟨q, hq, rfl⟩ := hy
    exact conc q hq

/-- **C80 disagreement.**  Of two temperatures below and above the critical one, with a density between the
saturation densities at the first, each alone gives `cv` a number, but together they make it raise
`ValueError` (`mp1.py:4334-4346`). -/
theorem C80_cv_defect (E : Env) (U : Sys) (hU : Uses E U) (B : Sub) (Tmin : ℝ) (hB : GoodSub B Tmin) (S : Sol)
    (t1 t2 d : ℝ) (h1 : B.Tlo ≤ si E U B .T t1) (h2 : si E U B .T t1 ≤ B.Thi) (hc1 : si E U B .T t1 < B.Tc)
    (h3 : B.Tlo ≤ si E U B .T t2) (h4 : si E U B .T t2 ≤ B.Thi) (hc2 : B.Tc ≤ si E U B .T t2)
    (hv : B.dsv (si E U B .T t1) < si E U B .d d) (hl : si E U B .d d < B.dsl (si E U B .T t1)) :
    (∃ c, mpCv E B S [] [("T", .scalar t1), ("d", .scalar d)] = .ok [some c]) ∧
    (∃ c, mpCv E B S [] [("T", .scalar t2), ("d", .scalar d)] = .ok [some c]) ∧
    mpCv E B S [] [("T", .arr [t1, t2]), ("d", .scalar d)] = .error .value := by
  have hmw := hB.dome.mw.ne'
  obtain ⟨x, hx⟩ : ∃ x, satTD B (satDensStrict B) (some (si E U B .T t1)) (si E U B .d d) = some (some x) := by
    unfold satTD satDensStrict
    have v0 := hB.dome.vapor _ (hB.min2.trans h1) hc1.le
    rw [Option.bind_some, if_pos hc1, if_pos ⟨hl, hv⟩, quot, if_neg]
    · exact ⟨_, rfl⟩
    · rw [div_sub_one v0.ne']
      exact div_ne_zero (by linarith) v0.ne'
  have hn : satTD B (satDensStrict B) (some (si E U B .T t2)) (si E U B .d d) = none := by
    unfold satTD
    rw [Option.bind_some, if_neg (not_lt.mpr hc2)]
  have hT : ∀ t, toKelvin U.T.name t = si E U B .T t := fun _ => rfl
  have hD : internalKg E.a U B.mw .density d = si E U B .d d := rfl
  obtain ⟨_, _, e1⟩ := argparse_TD hU hmw S (.scalar t1) (.scalar d) ⟨_, by simp [Val.elems]; rfl, h1, h2⟩
  obtain ⟨_, _, e2⟩ := argparse_TD hU hmw S (.scalar t2) (.scalar d) ⟨_, by simp [Val.elems]; rfl, h3, h4⟩
  obtain ⟨_, _, e3⟩ := argparse_TD hU hmw S (.arr [t1, t2]) (.scalar d) ⟨_, by simp [Val.elems]; left; rfl, h1, h2⟩
  simp only [Val.elems, List.map_cons, List.map_nil, hT, hD, clip_of_mem h1 h2, clip_of_mem h3 h4, mpTD, broadcast,
    List.length_cons, List.length_nil, if_true, exOk, List.zip_cons_cons, List.zip_nil_right, hx, hn] at e1 e2 e3
  rw [if_neg (by decide : ¬ 0 + 1 + 1 = 0 + 1)] at e3
  simp only [exOk, List.replicate, List.zip_cons_cons, List.zip_nil_right, List.map_cons, List.map_nil, hx, hn] at e3
  refine ⟨?_, ?_, ?_⟩
  · rw [mpCv_eq hU hmw, e1, exOk]
    simp only [satPt, List.any_cons, List.all_cons, List.any_nil, List.all_nil, Bool.or_false, Bool.and_true, Bool.not_true,
      Bool.and_false, Bool.false_eq_true, if_false, outsKg, List.map_cons, List.map_nil, Pt.cv, if_true, onCurve]
    exact ⟨_, rfl⟩
  · rw [mpCv_eq hU hmw, e2, exOk]
    simp only [onePt, List.any_cons, List.all_cons, List.any_nil, List.all_nil, Bool.or_false, Bool.and_true, Bool.not_true,
      Bool.and_false, Bool.false_eq_true, if_false, outsKg, List.map_cons, List.map_nil, Pt.cv, if_true, onCurve,
      Bool.not_false, Bool.false_and]
    exact ⟨_, rfl⟩
  · rw [mpCv_eq hU hmw, e3, exOk]
    rfl

/-- The hypotheses of `C80_cv_defect` are met: 10 kg/m3 at 150 K and at 500 K. -/
example : mpCv fullEnv vapSub (codeSol vapSub) [] [("T", .arr [out "T" 150, out "T" 500]), ("d", .scalar (out "d" 10))]
    = .error .value := by
  refine (C80_cv_defect fullEnv exampleSys fullEnv_uses vapSub 50 vap_good _ _ _ _ ?_ ?_ ?_ ?_ ?_ ?_ ?_ ?_).2.2 <;>
    simp only [vap_T, vap_D] <;> norm_num [vapSub, gasSub]

theorem codeTs_nan {B : Sub} : ∃ f, (codeSol B).Ts [some none] = .ok f ∧ f 0 = some B.Tmid := by
  have ha : (tsEl B (some none)).act = false := rfl
  have : (codeSol B).Ts [some none] = (codeTs B [some none]).map (·.1) := rfl
  rw [this, codeTs, iterLoop_eq]
  rw [show List.map (tsEl B) [some none] = [tsEl B (some none)] from rfl, List.mapM_cons, single_inact ha]
  exact ⟨_, rfl, rfl⟩

/-- **C80 disagreement.**  A pressure outside the data's limits, with a quality, makes a call with it alone
raise `PMParamError`, but in an array with another pressure it gets the temperature halfway between the
triple and the critical point (`mp1.py:2496-2507`, `2941-2955`, `2046-2053`). -/
theorem C80_pressure_defect (E : Env) (U : Sys) (hU : Uses E U) (B : Sub) (hmw : B.mw ≠ 0) (p1 p2 x : ℝ)
    (h1 : si E U B .p p1 < B.plo ∨ B.phi < si E U B .p p1) (hlo : B.plo ≤ si E U B .p p2)
    (hhi : si E U B .p p2 ≤ B.phi) (hpc : si E U B .p p2 ≤ B.pc) (h0 : 0 ≤ x) (hx : x ≤ 1) (y : ℝ)
    (h2 : mpT E B (codeSol B) [] [("p", .scalar p2), ("x", .scalar x)] = .ok [some y]) :
    mpT E B (codeSol B) [] [("p", .scalar p1), ("x", .scalar x)] = .error .param ∧
    mpT E B (codeSol B) [] [("p", .arr [p1, p2]), ("x", .scalar x)]
      = .ok [some (fromKelvin U.T.name (1 / 2 * (B.Tt + B.Tc))), some y] := by
  have hqx : ∀ z ∈ Val.elems (.scalar x), -1 ≤ z ∧ z ≤ 1 := by
    intro z hz; simp [Val.elems] at hz; subst hz; constructor <;> linarith
  have hP : ∀ p, p * size (pressure E.a) U.p = si E U B .p p := fun _ => rfl
  have e : ¬ si E U B .p p2 > B.pc := not_lt.mpr hpc
  have e' : ¬ x < 0 := not_lt.mpr h0
  have c1 : clip B.plo B.phi (si E U B .p p1) = none := clip_none.mpr h1
  have c2 : clip B.plo B.phi (si E U B .p p2) = some (si E U B .p p2) := clip_of_mem hlo hhi
  constructor
  · have hr : mpArgparse E B (codeSol B) [] [("p", .scalar p1), ("x", .scalar x)] = .error .param := by
      rw [argparse_two hU hmw]
      have r : mpRules [("p", .scalar p1), ("x", .scalar x)] = .ok () := by simp [mpRules, mpLegal, Kw.has, List.lookup]
      have e1 : argKg E U B.mw [("p", .scalar p1), ("x", .scalar x)] "p" = some ⟨[si E U B .p p1], false⟩ := rfl
      have e3 : argKg E U B.mw [("p", .scalar p1), ("x", .scalar x)] "T" = none := rfl
      rw [r, exOk, parsed, e3, mpRange_none, exOk, e1, mpRange_bad (by simpa using h1)]
      rfl
    rw [mpT_eq hU hmw, hr, exErr]
  obtain ⟨_, _, a2⟩ := argparse_PX hU hmw (codeSol B) (.scalar p2) (.scalar x) ⟨_, by simp [Val.elems]; rfl, hlo, hhi⟩ hqx
  obtain ⟨_, _, a3⟩ := argparse_PX hU hmw (codeSol B) (.arr [p1, p2]) (.scalar x)
    ⟨_, by simp [Val.elems]; right; rfl, hlo, hhi⟩ hqx
  simp only [Val.elems, List.map_cons, List.map_nil, hP, c1, c2, mpPX, List.any_cons, List.any_nil, e, e', decide_false,
    Bool.or_false, Bool.false_eq_true, if_false, broadcast, List.length_cons, List.length_nil, if_true, exOk] at a2 a3
  rw [if_neg (by decide : ¬ 0 + 1 + 1 = 0 + 1)] at a3
  simp only [exOk, List.replicate, List.map_cons, List.map_nil, List.zip_cons_cons, List.zip_nil_right, List.mapIdx_cons,
    List.mapIdx_nil] at a2 a3
  rw [mpT_eq hU hmw, a2] at h2
  obtain ⟨r, hr, h2⟩ := bind_ok h2
  obtain ⟨_, hr, hr'⟩ := bind_ok hr
  obtain ⟨g, hg, hr⟩ := bind_ok hr
  cases hr; cases hr'
  obtain ⟨g0, hg0, hg00⟩ := codeTs_nan (B := B)
  obtain ⟨f, hf⟩ := (assembles_code B).Ts [some none, some (some (si E U B .p p2))] (by
    intro p hp
    simp only [List.mem_cons, List.not_mem_nil, or_false, Option.some.injEq] at hp
    rcases hp with rfl | rfl
    · exact ⟨_, hg0⟩
    · exact ⟨_, hg⟩)
  have f0 : f 0 = some B.Tmid := ((elementwise_code B).Ts hf hg0 (i := 0) (j := 0) rfl rfl).trans hg00
  have f1 : f 1 = g 0 := (elementwise_code B).Ts hf hg (i := 1) (j := 0) rfl rfl
  rw [mpT_eq hU hmw, a3, hf, exOk, exOk, exOk]
  simp only [outsKg, satPt, List.map_cons, List.map_nil] at h2 ⊢
  have := Except.ok.inj h2
  rw [f0, f1]
  simp only [List.cons.injEq, and_true] at this
  rw [this, Option.map_some]
  have e : B.Tmid = 1 / 2 * (B.Tt + B.Tc) := by unfold Sub.Tmid; norm_num
  rw [e]
  rfl

/-- A call with single numbers returns one. -/
theorem single_one {E : Env} {U : Sys} (hU : Uses E U) {B : Sub} (hmw : B.mw ≠ 0) {kw : Kw} (hkw : (kw.map (·.1)).Nodup)
    (hs : ∀ q ∈ kw, ∃ x, q.2 = .scalar x) {m : MQuantity} (hm : m ≠ .cv) {y : ℝ}
    (h : MpGives E B (codeSol B) [] kw m 0 y) : mpMethod m E B (codeSol B) [] kw = .ok [some y] := by
  obtain ⟨ys, h1, h2⟩ := h
  obtain ⟨r, hr⟩ := method_parsed hU hmw h1
  have hsize : Size [] kw 1 := by
    refine ⟨Nat.one_pos, fun q hq => .inl ?_, .inl rfl⟩
    obtain ⟨x, hx⟩ := hs q (by simpa [supplied] using hq)
    rw [hx]; rfl
  have e : entryKw 0 kw = kw := by
    unfold entryKw
    conv_rhs => rw [← List.map_id kw]
    refine List.map_congr_left fun q hq => ?_
    obtain ⟨x, hx⟩ := hs q hq
    obtain ⟨n, v⟩ := q
    cases hx
    rfl
  obtain ⟨r', hr', hl⟩ := argparse_assembles hU hmw hkw hsize (elementwise_code B) (assembles_code B) (by
    intro i hi
    obtain rfl : i = 0 := by omega
    exact ⟨r, by rw [e]; exact hr⟩)
  rw [hr] at hr'
  cases hr'
  rw [method_pts hU hmw hr hm] at h1
  cases h1
  rw [method_pts hU hmw hr hm]
  obtain ⟨q, hq⟩ := List.length_eq_one_iff.mp hl
  rw [hq] at h2 ⊢
  simp only [List.map_cons, List.map_nil, List.getElem?_cons_zero, Option.some.injEq] at h2 ⊢
  rw [h2]

/-- The hypotheses of `C80_pressure_defect` are met: 150 Pa with a pressure above the data. -/
example : mpT fullEnv vapSub (codeSol vapSub) [] [("p", .arr [out "p" 1e20, out "p" 150]), ("x", .scalar 0)]
    = .ok [some (fromKelvin exampleSys.T.name (1 / 2 * (vapSub.Tt + vapSub.Tc))), some (out "T" 150)] := by
  refine (C80_pressure_defect fullEnv exampleSys fullEnv_uses vapSub vap_good.dome.mw.ne' _ _ 0 ?_ ?_ ?_ ?_ le_rfl zero_le_one _
    (single_one fullEnv_uses vap_good.dome.mw.ne' (by decide) (by simp) (by simp) vap_sat)).2 <;> simp only [vap_P] <;> norm_num [vapSub, gasSub]

/-- The hypotheses of `C80_array` are met: a vapor and a liquid in one call. -/
example : ∃ D1 D2, mpD fullEnv vapSub (codeSol vapSub) []
      [("T", .scalar (out "T" 150)), ("p", .arr [out "p" 75, out "p" 105000])] = .ok [some D1, some D2] ∧
    mpD fullEnv vapSub (codeSol vapSub) [] [("T", .scalar (out "T" 150)), ("p", .scalar (out "p" 75))] = .ok [some D1] ∧
    mpD fullEnv vapSub (codeSol vapSub) [] [("T", .scalar (out "T" 150)), ("p", .scalar (out "p" 105000))] = .ok [some D2] := by
  have hmw := vap_good.dome.mw.ne'
  obtain ⟨_, D1, -, h1, -⟩ := vap_vapor
  obtain ⟨_, D2, -, h2, -⟩ := vap_liquid
  have e1 := single_one fullEnv_uses hmw (by decide) (by simp) (by simp) h1
  have e2 := single_one fullEnv_uses hmw (by decide) (by simp) (by simp) h2
  refine ⟨D1, D2, ?_, e1, e2⟩
  refine C80_array fullEnv exampleSys fullEnv_uses vapSub hmw []
    [("T", .scalar (out "T" 150)), ("p", .arr [out "p" 75, out "p" 105000])] (by decide) 2 ⟨by norm_num, ?_, .inr ?_⟩ .d
    (by simp) (fun i => if i = 0 then some D1 else some D2) ?_
  · intro q hq
    simp only [supplied, List.zip_nil_right, List.nil_append, List.mem_cons, List.not_mem_nil, or_false] at hq
    rcases hq with rfl | rfl
    exacts [.inr rfl, .inl rfl]
  · exact ⟨("p", .arr [out "p" 75, out "p" 105000]), by simp [supplied], rfl⟩
  · intro i hi
    obtain rfl | rfl : i = 0 ∨ i = 1 := by omega
    exacts [e1, e2]

/-- The hypotheses of `C80_mismatch` are met: two temperatures and three densities. -/
example (S : Sol) : ∃ e, mpMethod .p fullEnv vapSub S [] [("T", .arr [300, 400]), ("d", .arr [1, 2, 3])] = .error e :=
  C80_mismatch fullEnv exampleSys fullEnv_uses vapSub vap_good.dome.mw.ne' S [] _ (by simp) .p "T" "d" (.arr [300, 400])
    (.arr [1, 2, 3]) (by simp [supplied]) (by simp [supplied]) (by simp [Val.elems]) (by simp [Val.elems])
    (by simp [Val.elems])

end PyroMat.Mp.Props
