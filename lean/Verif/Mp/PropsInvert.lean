import Verif.Mp.PropsLever
import Verif.Gas.PropsConst

/-!
# C51: quality and density invert each other
-/

set_option linter.unusedSimpArgs false

namespace PyroMat.Mp.Props

open PyroMat PyroMat.Units PyroMat.Units.Spec PyroMat.Units.Props PyroMat.Gas PyroMat.Gas.Spec
open PyroMat.Gas.Props PyroMat.Mp PyroMat.Mp.Spec PyroMat.Config.Defaults

theorem broadcast_same {α β : Type} {xs : List α} {ys : List β} (h : xs.length = ys.length) :
    broadcast xs ys = .ok (xs, ys) := by
  unfold broadcast
  rw [if_pos h]

theorem argKg_x (E : Env) (U : Sys) (mw : ℝ) (vT vx : Val ℝ) : argKg E U mw [("T", vT), ("x", vx)] "x"
    = some ⟨Val.elems vx, vx.isArr && isInternalKg U "x"⟩ := by
  have e : (Val.elems vx).map (internalKg E.a U mw (kindOf "x")) = Val.elems vx :=
    (List.map_congr_left (g := id) (fun x _ => rfl)).trans (List.map_id _)
  have : argKg E U mw [("T", vT), ("x", vx)] "x"
    = some ⟨(Val.elems vx).map (internalKg E.a U mw (kindOf "x")), vx.isArr && isInternalKg U "x"⟩ := rfl
  rw [this, e]

section
variable {E : Env} {U : Sys} (hU : Uses E U) {B : Sub} (hmw : B.mw ≠ 0) (S : Sol)
include hU hmw

/-- A call with two keywords. -/
theorem argparse_two (a b : String) (va vb : Val ℝ) :
    mpArgparse E B S [] [(a, va), (b, vb)] =
      (mpRules [(a, va), (b, vb)] >>= fun _ => parsed E U B [(a, va), (b, vb)] >>= mpSolve B S) := by
  rw [mpArgparse_eq hU hmw]
  have h1 : bindPos [] [(a, va), (b, vb)] = .ok [(a, va), (b, vb)] := rfl
  rw [h1, exOk, afterPos]
  have h2 : applyDefaults E [(a, va), (b, vb)] = .ok [(a, va), (b, vb)] := by
    simp only [applyDefaults]
  rw [h2, exOk]

theorem argparse_TD (vT vd : Val ℝ)
    (h : ∃ x ∈ (Val.elems vT).map (toKelvin U.T.name), B.Tlo ≤ x ∧ x ≤ B.Thi) :
    ∃ o1 o2, mpArgparse E B S [] [("T", vT), ("d", vd)] =
      (mpTD B (((Val.elems vT).map (toKelvin U.T.name)).map (clip B.Tlo B.Thi))
        ((Val.elems vd).map (internalKg E.a U B.mw .density)) >>= fun r =>
        .ok { pts := r, callerT := o1, callerD := o2 }) := by
  rw [argparse_two hU hmw]
  have r : mpRules [("T", vT), ("d", vd)] = .ok () := by simp [mpRules, mpLegal, Kw.has, List.lookup]
  have e1 : argKg E U B.mw [("T", vT), ("d", vd)] "T"
      = some ⟨(Val.elems vT).map (toKelvin U.T.name), vT.isArr && isInternalKg U "T"⟩ := rfl
  have e2 : argKg E U B.mw [("T", vT), ("d", vd)] "d"
      = some ⟨(Val.elems vd).map (internalKg E.a U B.mw .density), vd.isArr && isInternalKg U "d"⟩ := rfl
  have e3 : ∀ n, n ≠ "T" → n ≠ "d" → argKg E U B.mw [("T", vT), ("d", vd)] n = none := by
    intro n h1 h2
    simp [argKg, List.lookup, beq_false_of_ne h1, beq_false_of_ne h2]
  rw [r, exOk, parsed, e1, mpRange_some h, exOk, e3 "p" (by decide) (by decide), mpRange_none, exOk,
    e3 "x" (by decide) (by decide), e3 "e" (by decide) (by decide), e3 "h" (by decide) (by decide),
    e3 "s" (by decide) (by decide), e3 "v" (by decide) (by decide), e2]
  exact ⟨_, _, rfl⟩

theorem argparse_TX (vT vx : Val ℝ)
    (h : ∃ x ∈ (Val.elems vT).map (toKelvin U.T.name), B.Tlo ≤ x ∧ x ≤ B.Thi)
    (hx : ∀ x ∈ Val.elems vx, -1 ≤ x ∧ x ≤ 1) :
    ∃ o1 o2, mpArgparse E B S [] [("T", vT), ("x", vx)] =
      (mpTX B (((Val.elems vT).map (toKelvin U.T.name)).map (clip B.Tlo B.Thi)) (Val.elems vx) >>= fun r =>
        .ok { pts := r, callerT := o1, callerX := o2 }) := by
  rw [argparse_two hU hmw]
  have r : mpRules [("T", vT), ("x", vx)] = .ok () := by simp [mpRules, mpLegal, Kw.has, List.lookup]
  have e1 : argKg E U B.mw [("T", vT), ("x", vx)] "T"
      = some ⟨(Val.elems vT).map (toKelvin U.T.name), vT.isArr && isInternalKg U "T"⟩ := rfl
  have e2 : argKg E U B.mw [("T", vT), ("x", vx)] "x"
      = some ⟨Val.elems vx, vx.isArr && isInternalKg U "x"⟩ := argKg_x E U B.mw vT vx
  have e3 : ∀ n, n ≠ "T" → n ≠ "x" → argKg E U B.mw [("T", vT), ("x", vx)] n = none := by
    intro n h1 h2
    simp [argKg, List.lookup, beq_false_of_ne h1, beq_false_of_ne h2]
  have hq : mpQuality (some ⟨Val.elems vx, vx.isArr && isInternalKg U "x"⟩) = .ok () := by
    rcases mpQuality_cases (some ⟨Val.elems vx, vx.isArr && isInternalKg U "x"⟩) with ⟨-, a, ha, x, hxm, hc⟩ | ⟨h, -⟩
    · cases ha
      have := hx x hxm
      rcases hc with hc | hc <;> linarith
    · exact h
  rw [r, exOk, parsed, e1, mpRange_some h, exOk, e3 "p" (by decide) (by decide), mpRange_none, exOk,
    e2, hq, exOk, e3 "d" (by decide) (by decide), e3 "e" (by decide) (by decide), e3 "h" (by decide) (by decide),
    e3 "s" (by decide) (by decide), e3 "v" (by decide) (by decide)]
  exact ⟨_, _, rfl⟩

end

theorem lever_inverse {l v x : ℝ} (hv : 0 < v) (hlv : v < l) (h0 : 0 ≤ x) (h1 : x ≤ 1) :
    let d := 1 / ((1 - x) / l + x / v)
    v ≤ d ∧ d ≤ l ∧ (l / d - 1) / (l / v - 1) = x ∧ (0 < x → d < l) ∧ (x < 1 → v < d) := by
  have hl : 0 < l := hv.trans hlv
  have hs : 0 < (1 - x) / l + x / v := by
    rcases h0.lt_or_eq with h | h
    · have : 0 < x / v := div_pos h hv
      have : 0 ≤ (1 - x) / l := div_nonneg (by linarith) hl.le
      linarith
    · rw [← h]; simp [hl]
  have e1 : (1 - x) / l + x / v = (v + x * (l - v)) / (l * v) := by field_simp; ring
  have hn : 0 < v + x * (l - v) := by nlinarith
  dsimp only
  rw [e1, one_div_div]
  refine ⟨?_, ?_, ?_, ?_, ?_⟩
  · rw [le_div_iff₀ hn]; nlinarith [mul_nonneg hv.le (mul_nonneg (by linarith : 0 ≤ 1 - x) (by linarith : 0 ≤ l - v))]
  · rw [div_le_iff₀ hn]; nlinarith [mul_nonneg hl.le (mul_nonneg h0 (by linarith : 0 ≤ l - v))]
  · have : l - v ≠ 0 := by linarith
    have h2 : l / v - 1 ≠ 0 := by rw [div_sub_one hv.ne']; exact div_ne_zero this hv.ne'
    rw [div_eq_iff h2]
    field_simp
    ring
  · intro hx; rw [div_lt_iff₀ hn]; nlinarith [mul_pos hl (mul_pos hx (by linarith : 0 < l - v))]
  · intro hx; rw [lt_div_iff₀ hn]
    nlinarith [mul_pos hv (mul_pos (by linarith : 0 < 1 - x) (by linarith : 0 < l - v))]

/-- C51, from quality to density and back.  If `d(T=, x=)` returns a density at an element with
`0 < x < 1` and a subcritical temperature, then `x(T=, d=)` with the densities returned gives the
quality back. -/
theorem C51_quality_density (E : Env) (U : Sys) (hU : Uses E U) (B : Sub) (Tmin : ℝ) (hB : Dome B Tmin)
    (S : Sol) (hlo : Tmin ≤ B.Tlo) (vT vx vd : Val ℝ) (i : Nat) (t x d : ℝ)
    (hTx : (Val.elems vT).length = (Val.elems vx).length) (hTd : (Val.elems vT).length = (Val.elems vd).length)
    (ht : (Val.elems vT)[i]? = some t) (hx : (Val.elems vx)[i]? = some x) (hd : (Val.elems vd)[i]? = some d)
    (h0 : 0 < x) (h1 : x < 1) (htc : toKelvin U.T.name t < B.Tc)
    (h : MpGives E B S [] [("T", vT), ("x", vx)] .d i d) :
    MpGives E B S [] [("T", vT), ("d", vd)] .x i x := by
  have hmw := hB.mw.ne'
  obtain ⟨r, q, hr, hq⟩ := gives_pt hU hmw (by simp) h
  have hd' := (gives_iff hU hmw hr (by simp) hq d).mp h
  -- the range test was passed
  have hrange : ∃ x ∈ (Val.elems vT).map (toKelvin U.T.name), B.Tlo ≤ x ∧ x ≤ B.Thi := by
    by_contra hc
    rw [argparse_two hU hmw] at hr
    obtain ⟨-, -, hr⟩ := bind_ok hr
    obtain ⟨k, hk, -⟩ := bind_ok hr
    have e1 : argKg E U B.mw [("T", vT), ("x", vx)] "T"
      = some ⟨(Val.elems vT).map (toKelvin U.T.name), vT.isArr && isInternalKg U "T"⟩ := rfl
    rw [parsed, e1, mpRange_bad, exErr] at hk
    · cases hk
    · intro y hy
      push Not at hc
      by_cases hl : y < B.Tlo
      · exact Or.inl hl
      · exact Or.inr (hc y hy (not_lt.mp hl))
  have hquality : ∀ x ∈ Val.elems vx, -1 ≤ x ∧ x ≤ 1 := by
    rw [argparse_two hU hmw] at hr
    obtain ⟨-, -, hr⟩ := bind_ok hr
    obtain ⟨k, hk, -⟩ := bind_ok hr
    rcases parsed_cases E U B [("T", vT), ("x", vx)] with hp | ⟨k', hk', hP⟩
    · rw [hp] at hk; cases hk
    · rw [hk'] at hk; cases hk
      have e2 : argKg E U B.mw [("T", vT), ("x", vx)] "x"
          = some ⟨Val.elems vx, vx.isArr && isInternalKg U "x"⟩ := argKg_x E U B.mw vT vx
      exact hP.quality _ (hP.x.trans e2)
  obtain ⟨o1, o2, hTX⟩ := argparse_TX hU hmw S vT vx hrange hquality
  rw [hTX] at hr
  obtain ⟨pts, hpts, hr⟩ := bind_ok hr
  cases hr
  dsimp only at hq
  unfold mpTX at hpts
  rw [broadcast_same (by simpa using hTx), exOk] at hpts
  dsimp only at hpts
  split at hpts
  · cases hpts
  split at hpts
  · cases hpts
  cases hpts
  have hz : ((((Val.elems vT).map (toKelvin U.T.name)).map (clip B.Tlo B.Thi)).zip (Val.elems vx))[i]?
      = some (clip B.Tlo B.Thi (toKelvin U.T.name t), x) := by
    rw [List.getElem?_zip_eq_some]
    exact ⟨by simp [ht], hx⟩
  rw [List.getElem?_map, hz, Option.map_some, Option.some.injEq] at hq
  subst hq
  dsimp only at hd'
  -- the temperature of the element is a number
  cases hc : clip B.Tlo B.Thi (toKelvin U.T.name t) with
  | none => rw [hc] at hd'; simp [ptValue, Pt.density, satPt, onCurve] at hd'
  | some T =>
    obtain ⟨hTt, hlo', -⟩ := clip_some hc
    rw [← hTt] at htc
    have hv := hB.vapor T (by linarith) htc.le
    have hlv := hB.liquid T (by linarith) htc
    rw [hc] at hd'
    have hdens : d = inUnitsKg E.a U B.mw .density (1 / ((1 - x) / B.dsl T + x / B.dsv T)) := by
      simp only [ptValue, Pt.density, satPt, onCurve, Option.map_some, Option.bind_some, if_true,
        Option.some.injEq] at hd'
      exact hd'.symm
    have hDk : internalKg E.a U B.mw .density d = 1 / ((1 - x) / B.dsl T + x / B.dsv T) := by
      rw [hdens, internalKg_inUnitsKg hU hmw]
    obtain ⟨g1, g2, g3, g4, g5⟩ := lever_inverse hv hlv h0.le h1.le
    obtain ⟨o3, o4, hTD⟩ := argparse_TD hU hmw S vT vd hrange
    have hres : mpArgparse E B S [] [("T", vT), ("d", vd)] = .ok
        { pts := ((((Val.elems vT).map (toKelvin U.T.name)).map (clip B.Tlo B.Thi)).zip
            ((Val.elems vd).map (internalKg E.a U B.mw .density))).map (fun e =>
              match satTD B (satDensStrict B) e.1 e.2 with
              | some x => satPt B e.1 x
              | none => onePt e.1 (some e.2)), callerT := o3, callerD := o4 } := by
      rw [hTD, mpTD, broadcast_same (by simpa using hTd), exOk]
      rfl
    have hz2 : ((((Val.elems vT).map (toKelvin U.T.name)).map (clip B.Tlo B.Thi)).zip
        ((Val.elems vd).map (internalKg E.a U B.mw .density)))[i]?
        = some (some T, 1 / ((1 - x) / B.dsl T + x / B.dsv T)) := by
      rw [List.getElem?_zip_eq_some]
      exact ⟨by simp [ht, hc], by simp only [List.getElem?_map, hd, Option.map_some, hDk]⟩
    have hpt : satTD B (satDensStrict B) (some T) (1 / ((1 - x) / B.dsl T + x / B.dsv T)) = some (some x) := by
      unfold satTD satDensStrict quot
      rw [Option.bind_some, if_pos htc, if_pos ⟨g4 h0, g5 h1⟩, if_neg, g3]
      rw [div_sub_one hv.ne']
      exact div_ne_zero (by linarith) hv.ne'
    refine (gives_iff hU hmw hres (by simp) (q := satPt B (some T) (some x)) ?_ x).mpr rfl
    dsimp only
    rw [List.getElem?_map, hz2, Option.map_some]
    dsimp only
    rw [hpt]

/-- C51, from density to quality and back.  If `x(T=, d=)` returns a quality `x ≥ 0` at an element, and
all the qualities are usable (`0 ≤ x ≤ 1`, no temperature above critical), then `d(T=, x=)` gives the
density back. -/
theorem C51_density_quality (E : Env) (U : Sys) (hU : Uses E U) (B : Sub) (Tmin : ℝ) (hB : Dome B Tmin)
    (S : Sol) (hlo : Tmin ≤ B.Tlo) (vT vx vd : Val ℝ) (i : Nat) (x d : ℝ)
    (hTx : (Val.elems vT).length = (Val.elems vx).length) (hTd : (Val.elems vT).length = (Val.elems vd).length)
    (hx : (Val.elems vx)[i]? = some x) (hd : (Val.elems vd)[i]? = some d)
    (hxs : ∀ x ∈ Val.elems vx, 0 ≤ x ∧ x ≤ 1) (hTs : ∀ t ∈ Val.elems vT, toKelvin U.T.name t ≤ B.Tc)
    (h : MpGives E B S [] [("T", vT), ("d", vd)] .x i x) :
    MpGives E B S [] [("T", vT), ("x", vx)] .d i d := by
  have hmw := hB.mw.ne'
  obtain ⟨r, q, hr, hq⟩ := gives_pt hU hmw (by simp) h
  have hx' := (gives_iff hU hmw hr (by simp) hq x).mp h
  have h0 := hxs x (List.mem_of_getElem? hx)
  obtain ⟨t, ht⟩ : ∃ t, (Val.elems vT)[i]? = some t := by
    have hi := (List.getElem?_eq_some_iff.mp hx).1
    exact ⟨_, List.getElem?_eq_getElem (by omega)⟩
  have hrange : ∃ x ∈ (Val.elems vT).map (toKelvin U.T.name), B.Tlo ≤ x ∧ x ≤ B.Thi := by
    by_contra hc
    rw [argparse_two hU hmw] at hr
    obtain ⟨-, -, hr⟩ := bind_ok hr
    obtain ⟨k, hk, -⟩ := bind_ok hr
    have e1 : argKg E U B.mw [("T", vT), ("d", vd)] "T"
      = some ⟨(Val.elems vT).map (toKelvin U.T.name), vT.isArr && isInternalKg U "T"⟩ := rfl
    rw [parsed, e1, mpRange_bad, exErr] at hk
    · cases hk
    · intro y hy
      push Not at hc
      by_cases hl : y < B.Tlo
      · exact Or.inl hl
      · exact Or.inr (hc y hy (not_lt.mp hl))
  obtain ⟨o3, o4, hTD⟩ := argparse_TD hU hmw S vT vd hrange
  rw [hTD, mpTD, broadcast_same (by simpa using hTd), exOk] at hr
  cases hr
  dsimp only at hq
  have hz : ((((Val.elems vT).map (toKelvin U.T.name)).map (clip B.Tlo B.Thi)).zip
        ((Val.elems vd).map (internalKg E.a U B.mw .density)))[i]?
        = some (clip B.Tlo B.Thi (toKelvin U.T.name t), internalKg E.a U B.mw .density d) := by
    rw [List.getElem?_zip_eq_some]
    exact ⟨by simp [ht], by simp [hd]⟩
  rw [List.getElem?_map, hz, Option.map_some, Option.some.injEq] at hq
  subst hq
  dsimp only at hx'
  cases hs : satTD B (satDensStrict B) (clip B.Tlo B.Thi (toKelvin U.T.name t))
      (internalKg E.a U B.mw .density d) with
  | none =>
    rw [hs] at hx'
    simp only [ptValue, onePt, Option.some.injEq] at hx'
    linarith [h0.1]
  | some o =>
    rw [hs] at hx'
    have ho : o = some x := by simpa [ptValue, satPt] using hx'
    subst ho
    cases hc : clip B.Tlo B.Thi (toKelvin U.T.name t) with
    | none => rw [hc] at hs; cases hs
    | some T =>
      obtain ⟨hTt, hlo', -⟩ := clip_some hc
      rw [hc] at hs
      unfold satTD at hs
      rw [Option.bind_some] at hs
      split at hs
      · rename_i htc
        have hv := hB.vapor T (by linarith) htc.le
        have hlv := hB.liquid T (by linarith) htc
        unfold satDensStrict at hs
        split at hs
        · rename_i hdd
          set D := internalKg E.a U B.mw .density d with hD
          have hD0 : 0 < D := lt_trans hv hdd.2
          unfold quot at hs
          have hne : B.dsl T / B.dsv T - 1 ≠ 0 := by
            rw [div_sub_one hv.ne']; exact div_ne_zero (by linarith) hv.ne'
          rw [if_neg hne, Option.some.injEq, Option.some.injEq] at hs
          obtain ⟨o1, o2, hTX⟩ := argparse_TX hU hmw S vT vx hrange
            (fun x hx => ⟨by linarith [(hxs x hx).1], (hxs x hx).2⟩)
          have hres : mpArgparse E B S [] [("T", vT), ("x", vx)] = .ok
              { pts := ((((Val.elems vT).map (toKelvin U.T.name)).map (clip B.Tlo B.Thi)).zip
                  (Val.elems vx)).map (fun e => satPt B e.1 (some e.2)), callerT := o1, callerX := o2 } := by
            rw [hTX, mpTX, broadcast_same (by simpa using hTx), exOk]
            dsimp only
            rw [if_neg, if_neg]
            · rfl
            · rw [List.any_eq_true]
              rintro ⟨y, hy, hy2⟩
              have := (hxs y hy).1
              simp only [decide_eq_true_eq] at hy2
              linarith
            · rw [List.any_eq_true]
              rintro ⟨y, hy, hy2⟩
              obtain ⟨z, hz, rfl⟩ := List.mem_map.mp hy
              obtain ⟨w, hw, rfl⟩ := List.mem_map.mp hz
              cases hcw : clip B.Tlo B.Thi (toKelvin U.T.name w) with
              | none => simp [hcw] at hy2
              | some y =>
                obtain ⟨rfl, -⟩ := clip_some hcw
                have := hTs w hw
                simp only [hcw, decide_eq_true_eq] at hy2
                linarith
          have hz2 : ((((Val.elems vT).map (toKelvin U.T.name)).map (clip B.Tlo B.Thi)).zip (Val.elems vx))[i]?
              = some (some T, x) := by
            rw [List.getElem?_zip_eq_some]
            exact ⟨by simp [ht, hc], hx⟩
          refine (gives_iff hU hmw hres (by simp) (q := satPt B (some T) (some x)) ?_ d).mpr ?_
          · dsimp only; rw [List.getElem?_map, hz2, Option.map_some]
          · simp only [ptValue, Pt.density, satPt, onCurve, Option.map_some, Option.bind_some, if_true,
              Option.some.injEq]
            have hDe : 1 / ((1 - x) / B.dsl T + x / B.dsv T) = D := by
              have hl : 0 < B.dsl T := hv.trans hlv
              have hlv' : B.dsl T - B.dsv T ≠ 0 := by linarith
              have : (1 - x) / B.dsl T + x / B.dsv T = 1 / D := by
                rw [div_eq_iff hne] at hs
                have h3 : (B.dsl T) / D = 1 + x * (B.dsl T / B.dsv T - 1) := by linarith
                have h4 : 1 / D = (1 + x * (B.dsl T / B.dsv T - 1)) / B.dsl T := by
                  rw [← h3]; field_simp
                rw [h4]; field_simp; ring
              rw [this, one_div_one_div]
            rw [hDe, hD, inUnitsKg_internalKg hU hmw]
        · cases hs
      · cases hs

/-- **C51 disagreement.** With all of `T`, `p` and `x` given, a quality between -1 and 0 is passed
through: `x()` returns the number given instead of the documented -1 (`mp1.py:2806-2849`). -/
theorem C51_negative_quality_defect (E : Env) (U : Sys) (hU : Uses E U) (B : Sub) (hmw : B.mw ≠ 0) (S : Sol)
    (f : Nat → Nan) (hf : ∀ q, S.d q = .ok f) (t p x : ℝ) (h0 : -1 ≤ x) (h1 : x < 0)
    (ht : B.Tlo ≤ toKelvin U.T.name t ∧ toKelvin U.T.name t ≤ B.Thi)
    (hp : B.plo ≤ internalKg E.a U B.mw .pressure p ∧ internalKg E.a U B.mw .pressure p ≤ B.phi) :
    mpX E B S [] [("T", .scalar t), ("p", .scalar p), ("x", .scalar x)] = .ok [some x] := by
  have hk : mpArgparse E B S [] [("T", .scalar t), ("p", .scalar p), ("x", .scalar x)] =
      (parsed E U B [("T", .scalar t), ("p", .scalar p), ("x", .scalar x)] >>= mpSolve B S) := by
    rw [mpArgparse_eq hU hmw]
    have h1 : bindPos [] [("T", Val.scalar t), ("p", .scalar p), ("x", .scalar x)]
      = .ok [("T", .scalar t), ("p", .scalar p), ("x", .scalar x)] := rfl
    rw [h1, exOk, afterPos]
    have h2 : applyDefaults E [("T", .scalar t), ("p", .scalar p), ("x", .scalar x)]
      = .ok [("T", .scalar t), ("p", .scalar p), ("x", .scalar x)] := by
      simp only [applyDefaults]
    have h3 : mpRules [("T", .scalar t), ("p", .scalar p), ("x", .scalar x)] = .ok () := by
      simp [mpRules, mpLegal, Kw.has, List.lookup]
    rw [h2, exOk, h3, exOk]
  have e1 : argKg E U B.mw [("T", .scalar t), ("p", .scalar p), ("x", .scalar x)] "T"
      = some ⟨[toKelvin U.T.name t], false⟩ := rfl
  have e2 : argKg E U B.mw [("T", .scalar t), ("p", .scalar p), ("x", .scalar x)] "p"
      = some ⟨[internalKg E.a U B.mw .pressure p], false⟩ := rfl
  have e3 : argKg E U B.mw [("T", .scalar t), ("p", .scalar p), ("x", .scalar x)] "x"
      = some ⟨[x], false⟩ := rfl
  have e4 : ∀ n, n ≠ "T" → n ≠ "p" → n ≠ "x" →
      argKg E U B.mw [("T", .scalar t), ("p", .scalar p), ("x", .scalar x)] n = none := by
    intro n h1 h2 h3
    simp [argKg, List.lookup, beq_false_of_ne h1, beq_false_of_ne h2, beq_false_of_ne h3]
  have hq : mpQuality (some ⟨[x], false⟩) = .ok () := by
    simp [mpQuality, show ¬ x > 1 by linarith, show ¬ x < -1 by linarith]
  unfold mpX
  rw [hk, parsed, e1, mpRange_some ⟨_, List.mem_singleton.mpr rfl, ht⟩, exOk, e2,
    mpRange_some ⟨_, List.mem_singleton.mpr rfl, hp⟩, exOk, e3, hq, exOk,
    e4 "d" (by decide) (by decide) (by decide), e4 "v" (by decide) (by decide) (by decide),
    e4 "e" (by decide) (by decide) (by decide), e4 "h" (by decide) (by decide) (by decide),
    e4 "s" (by decide) (by decide) (by decide), exOk]
  simp [mpSolve, mpInv, mpSolveBasic, mpDensity, mpTPX, broadcast, exOk, hf, ptTPX, badTX, h1, not_le.mpr h1,
    clip_of_mem ht.1 ht.2]

/-! ## A substance that meets the hypotheses -/

/-- A substance with a dome: vapor density 1, liquid density `800 - T`, limits like those of water. -/
noncomputable def demoSub : Sub where
  mw := 18
  Tlo := 273
  Thi := 1000
  plo := 0
  phi := 1e8
  dlo := 0
  dhi := 1000
  Tt := 273
  Tc := 647
  pt := 611
  pc := 22e6
  F := ⟨461, 1, 1, 1, 1, fun _ _ => ⟨0, 0, 0, 0, 0, 0⟩, fun _ _ => ⟨0, 0, 0, 0, 0, 0⟩⟩
  ps := fun T => T
  dsl := fun T => 800 - T
  dsv := fun _ => 1
  psT := fun _ => 1
  dslT := fun _ => -1
  dsvT := fun _ => 0

/-- Inversions that always answer 500 K and 2 kg/m3. -/
noncomputable def demoSol : Sol where
  Ts := fun _ => .ok (fun _ => some 500)
  d := fun _ => .ok (fun _ => some 2)
  Tdp := fun _ => .ok (fun _ => some 500)
  Thp := fun _ _ => .ok (fun _ => some 500)
  Thd := fun _ _ => .ok (fun _ => some 500)
  dhT := fun _ _ => .ok (fun _ => some 2)

theorem demo_dome : Dome demoSub 273 := by
  constructor
  · norm_num [demoSub]
  · intro T _ _; norm_num [demoSub]
  · intro T _ h; simp only [demoSub] at h ⊢; linarith

theorem demo_bounded : Bounded demoSol demoSub 273 := by
  constructor
  · intro q f h n T hT
    simp only [demoSol, Except.ok.injEq] at h
    subst h
    simp only [Option.some.injEq] at hT
    subst hT
    norm_num [demoSub]
  · intro i q f h n T hT
    simp only [demoSol, Except.ok.injEq] at h
    subst h
    simp only [Option.some.injEq] at hT
    subst hT
    norm_num

/-- The state of a call of the example substance at 500 K and quality 0.25, in any units. -/
theorem demo_argparse {E : Env} {U : Sys} (hU : Uses E U) {t : ℝ} (ht : toKelvin U.T.name t = 500) :
    ∃ o1 o2, mpArgparse E demoSub demoSol [] [("T", .scalar t), ("x", .scalar 0.25)]
      = .ok { pts := [satPt demoSub (some 500) (some 0.25)], callerT := o1, callerX := o2 } := by
  have hmw : demoSub.mw ≠ 0 := demo_dome.mw.ne'
  obtain ⟨o1, o2, h⟩ := argparse_TX hU hmw demoSol (.scalar t) (.scalar 0.25)
    ⟨500, by simp [Val.elems, ht], by norm_num [demoSub], by norm_num [demoSub]⟩
    (by intro x hx; simp [Val.elems] at hx; subst hx; norm_num)
  refine ⟨o1, o2, ?_⟩
  rw [h]
  have : clip demoSub.Tlo demoSub.Thi 500 = some 500 := clip_of_mem (by norm_num [demoSub]) (by norm_num [demoSub])
  have e : ¬ (500 : ℝ) > demoSub.Tc := by norm_num [demoSub]
  have e' : ¬ (0.25 : ℝ) < 0 := by norm_num
  simp only [Val.elems, List.map_cons, List.map_nil, ht, this, mpTX, broadcast, List.length_cons, List.length_nil,
    if_true, exOk, List.any_cons, List.any_nil, e, e', decide_false, Bool.or_false, Bool.false_eq_true, if_false,
    List.zip_cons_cons, List.zip_nil_right]

/-- The hypotheses of the theorems on saturated states are met: at 500 K and quality 0.25. -/
example : MpGives fullEnv demoSub demoSol [] [("T", .scalar 500), ("x", .scalar 0.25)] .x 0 0.25 ∧
    MpGives fullEnv demoSub demoSol [] [("T", .scalar 500), ("x", .scalar 0.25)] .T 0 500 ∧
    demoSub.Tt ≤ toKelvin exampleSys.T.name 500 := by
  have hK : ∀ x : ℝ, toKelvin exampleSys.T.name x = x := fun x => by
    show toKelvin Scale.K.name x = x; exact toK_K x
  have hK' : ∀ x : ℝ, fromKelvin exampleSys.T.name x = x := fun x => by
    show fromKelvin Scale.K.name x = x; exact frK_K x
  have hmw : demoSub.mw ≠ 0 := demo_dome.mw.ne'
  obtain ⟨o1, o2, hr⟩ := demo_argparse fullEnv_uses (hK 500)
  refine ⟨?_, ?_, ?_⟩
  · exact (gives_iff fullEnv_uses hmw hr (by simp) rfl _).mpr rfl
  · refine (gives_iff fullEnv_uses hmw hr (by simp) rfl _).mpr ?_
    show some (fromKelvin exampleSys.T.name 500) = some 500
    rw [hK']
  · rw [hK]; norm_num [demoSub]

end PyroMat.Mp.Props
