import Verif.Gas.Rows

/-!
# C30 and C36: the state an ideal-gas call describes
-/

set_option linter.unusedSimpArgs false

namespace PyroMat.Gas.Props

open PyroMat PyroMat.Units PyroMat.Units.Spec PyroMat.Units.Props PyroMat.Gas PyroMat.Gas.Spec
open PyroMat.Config.Defaults

/-- Two results of the same call have the same row. -/
theorem same_row {E : Env} {S : Sys} (hU : Uses E S) {G : Gas} (hmw : G.mw ≠ 0)
    {varg : List (Val ℝ)} {kw : Kw} {a b : String} {va vb : Val ℝ}
    (h : Supplies varg kw a va b vb) {q : Quantity} {xs : List Nan} {i : Nat} {x : Nan}
    (hx : method q E G varg kw = .ok xs) (hxi : xs[i]? = some x) :
    ∃ st T p d, argparse E G varg kw = .ok st ∧ Good G st ∧ Row st i T p d ∧
      (∀ q' xs' x', method q' E G varg kw = .ok xs' → xs'[i]? = some x' →
        x' = value E.a S G q' T p d) ∧
      (∀ q', ∃ xs', method q' E G varg kw = .ok xs' ∧ xs'.length = xs.length) := by
  obtain ⟨st, h1, h2, h3, h4⟩ := method_result hU hmw h hx
  have hi : i < st.T.length := by
    rw [← h3]; by_contra hc; rw [List.getElem?_eq_none (by omega)] at hxi; cases hxi
  obtain ⟨T, p, d, hr⟩ := h2.exists_row hi
  refine ⟨st, T, p, d, h1, h2, hr, ?_, ?_⟩
  · intro q' xs' x' hx' hxi'
    obtain ⟨st', k1, k2, k3, k4⟩ := method_result hU hmw h hx'
    rw [h1] at k1; cases k1
    rw [k4 i T p d hr] at hxi'
    simpa using hxi'.symm
  · intro q'
    have hc : varg.length + kw.length ≠ 1 := by rw [supplies_count h]; decide
    obtain ⟨xs', m1, m2, -⟩ := method_rows hU hmw hc h1 h2 q'
    exact ⟨xs', m1, by rw [m2, h3]⟩

/-- C30, ideal-gas law.  For every allowed pair of properties, in every unit system, the
temperature, pressure and density returned for that pair satisfy `p = ρ R T` element by element
(in SI units, with `Ru` in kJ/kmol/K) and the specific volume is the reciprocal of the density. -/
theorem C30_ideal_gas_law (E : Env) (S : Sys) (hU : Uses E S) (G : Gas) (hmw : G.mw ≠ 0)
    (hT0 : 0 < G.Tlo) (varg : List (Val ℝ)) (kw : Kw) (a b : String) (va vb : Val ℝ)
    (h : Supplies varg kw a va b vb) (Ts ps ds vs : List Nan)
    (hTs : mT E G varg kw = .ok Ts) (hps : mP E G varg kw = .ok ps)
    (hds : mD E G varg kw = .ok ds) (hvs : mV E G varg kw = .ok vs) :
    ps.length = Ts.length ∧ ds.length = Ts.length ∧ vs.length = Ts.length ∧
    ∀ (i : Nat) (t p d v : ℝ), Ts[i]? = some (some t) → ps[i]? = some (some p) → ds[i]? = some (some d) →
      vs[i]? = some (some v) →
      internal E.a S G.mw .pressure p
        = internal E.a S G.mw .density d * (1000 * const_Ru) * internal E.a S G.mw .temperature t ∧
      v = 1 / d := by
  have m1 : method .T E G varg kw = .ok Ts := hTs
  have m2 : method .p E G varg kw = .ok ps := hps
  have m3 : method .d E G varg kw = .ok ds := hds
  have m4 : method .v E G varg kw = .ok vs := hvs
  obtain ⟨st, e1, e2, e3, -⟩ := method_result hU hmw h m1
  have len : ∀ {q xs}, method q E G varg kw = .ok xs → xs.length = Ts.length := by
    intro q xs hq
    obtain ⟨st', k1, k2, k3, -⟩ := method_result hU hmw h hq
    rw [e1] at k1; cases k1
    rw [k3, e3]
  refine ⟨len m2, len m3, len m4, ?_⟩
  intro i t p d v ht hp hd hv
  obtain ⟨st, T, P, D, -, hg, hr, hval, -⟩ := same_row hU hmw h m1 ht
  have vT := hval .T _ _ m1 ht
  have vp := hval .p _ _ m2 hp
  have vd := hval .d _ _ m3 hd
  have vv := hval .v _ _ m4 hv
  simp only [value] at vT vp vd vv
  cases T with
  | none => simp at vT
  | some T0 =>
    cases P with
    | none => simp at vp
    | some P0 =>
      cases D with
      | none => simp at vd
      | some D0 =>
        simp only [Option.map_some, Option.some.injEq] at vT vp vd vv
        obtain ⟨-, -, hlaw⟩ := hg.row hT0 hr
        obtain ⟨y, hy, hx⟩ := (hlaw P0).1 rfl
        simp only [Option.some.injEq] at hy
        subst hy
        rw [vT, vp, vd, vv]
        refine ⟨?_, rfl⟩
        rw [internal_inUnits hU hmw, internal_inUnits hU hmw, internal_inUnits hU hmw, hx]
        unfold Ru
        ring

theorem stdArg_of (E : Env) (S : Sys) (mw : ℝ) {a b : String} (va vb : Val ℝ) (hab : a ≠ b) :
    stdArg E S mw [(a, va), (b, vb)] a = some ⟨(Val.elems va).map (internal E.a S mw (kindOf a)),
      va.isArr && isInternal S a⟩ ∧
    stdArg E S mw [(a, va), (b, vb)] b = some ⟨(Val.elems vb).map (internal E.a S mw (kindOf b)),
      vb.isArr && isInternal S b⟩ ∧
    ∀ c, c ≠ a → c ≠ b → stdArg E S mw [(a, va), (b, vb)] c = none := by
  refine ⟨by simp [stdArg, List.lookup_cons], ?_, ?_⟩
  · have : (b == a) = false := by simpa using hab.symm
    simp [stdArg, List.lookup_cons, this]
  · intro c h1 h2
    have h1' : (c == a) = false := by simpa using h1
    have h2' : (c == b) = false := by simpa using h2
    simp [stdArg, List.lookup_cons, h1', h2']

/-- C30, given pressure.  When the pressure is one of the two properties given, `p()` returns it,
stretched to the common length. -/
theorem C30_given_pressure (E : Env) (S : Sys) (hU : Uses E S) (G : Gas) (hmw : G.mw ≠ 0)
    (varg : List (Val ℝ)) (kw : Kw) (b : String) (vp vb : Val ℝ)
    (h : Supplies varg kw "p" vp b vb) (ps : List Nan) (hps : mP E G varg kw = .ok ps) (i : Nat)
    (hi : i < ps.length) : ∃ x, nth (Val.elems vp) i = some x ∧ ps[i]? = some (some x) := by
  have m : method .p E G varg kw = .ok ps := hps
  obtain ⟨st, e1, hg, e3, e4⟩ := method_result hU hmw h m
  obtain ⟨T, st0, n, hT, hS, h1, h2, h3, -, -⟩ := argparse_solved hU hmw h e1
  have hne : "p" ≠ b := by simpa using h.ok.distinct
  obtain ⟨qs, hqs, hq⟩ := hS.p _ (stdArg_of E S G.mw vp vb hne).1
  have hin : i < n := by
    have : st.T.length = n := by rw [h1, List.length_map, hS.lenT]
    omega
  obtain ⟨x, hx1, hx2⟩ := hq i hin
  obtain ⟨T', p', d', hr⟩ := hg.exists_row (i := i) (by omega)
  have hv := e4 i T' p' d' hr
  obtain ⟨-, ⟨ps', hps', hpi⟩, -⟩ := hr
  unfold State.pressure at hps'
  rw [h2, hqs] at hps'
  cases hps'
  rw [hx2] at hpi; cases hpi
  rw [nth_map] at hx1
  cases hy : nth (Val.elems vp) i with
  | none => rw [hy] at hx1; simp at hx1
  | some y =>
    rw [hy] at hx1
    simp only [Option.map_some, Option.some.injEq] at hx1
    refine ⟨y, rfl, ?_⟩
    rw [hv, ← hx1]
    simp only [value, Option.map_some, Option.some.injEq]
    exact inUnits_internal hU hmw .pressure y

/-- C30, given temperature.  When the temperature is given, `T()` returns it, stretched to the
common length, with NaN exactly where it is outside the limits. -/
theorem C30_given_temperature (E : Env) (S : Sys) (hU : Uses E S) (G : Gas) (hmw : G.mw ≠ 0)
    (varg : List (Val ℝ)) (kw : Kw) (b : String) (vT vb : Val ℝ)
    (h : Supplies varg kw "T" vT b vb) (Ts : List Nan) (hTs : mT E G varg kw = .ok Ts) (i : Nat)
    (hi : i < Ts.length) : ∃ x, nth (Val.elems vT) i = some x ∧
      ((G.Tlo ≤ toKelvin S.T.name x ∧ toKelvin S.T.name x ≤ G.Thi ∧ Ts[i]? = some (some x)) ∨
       ((toKelvin S.T.name x < G.Tlo ∨ G.Thi < toKelvin S.T.name x) ∧ Ts[i]? = some none)) := by
  have m : method .T E G varg kw = .ok Ts := hTs
  obtain ⟨st, e1, hg, e3, e4⟩ := method_result hU hmw h m
  obtain ⟨T, st0, n, hT, hS, h1, h2, h3, -, -⟩ := argparse_solved hU hmw h e1
  have hne : "T" ≠ b := by simpa using h.ok.distinct
  -- the temperature argument is the one given
  have hb := h.ok.one_of_Teh "T" (by simp) b (by simp) (by simp)
  have hbe : b ≠ "e" := by rintro rfl; exact absurd (hb (by simp)) (by decide)
  have hbh : b ≠ "h" := by rintro rfl; exact absurd (hb (by simp)) (by decide)
  have hTa : T = some ⟨((Val.elems vT).map (internal E.a S G.mw (kindOf "T"))).map some,
      vT.isArr && isInternal S "T", false⟩ := by
    unfold tempOf at hT
    have he : (stdOf E S G.mw [("T", vT), (b, vb)]).e = none :=
      (stdArg_of E S G.mw vT vb hne).2.2 "e" (by decide) hbe.symm
    have hh : (stdOf E S G.mw [("T", vT), (b, vb)]).h = none :=
      (stdArg_of E S G.mw vT vb hne).2.2 "h" (by decide) hbh.symm
    have ht : (stdOf E S G.mw [("T", vT), (b, vb)]).T = some _ := (stdArg_of E S G.mw vT vb hne).1
    rw [he, hh, ht] at hT
    simp only [Option.map_some, Except.ok.injEq] at hT
    exact hT.symm
  have hin : i < n := by
    have : st.T.length = n := by rw [h1, List.length_map, hS.lenT]
    omega
  obtain ⟨y, hy1, hy2⟩ := hS.T _ hTa i hin
  obtain ⟨T', p', d', hr⟩ := hg.exists_row (i := i) (by omega)
  have hv := e4 i T' p' d' hr
  have hT' := hr.1
  rw [h1, List.getElem?_map, hy2] at hT'
  simp only [Option.map_some, Option.some.injEq] at hT'
  simp only [nth_map, Option.map_map] at hy1
  cases hx : nth (Val.elems vT) i with
  | none => rw [hx] at hy1; simp at hy1
  | some x =>
    rw [hx] at hy1
    simp only [Option.map_some, Function.comp_apply, Option.some.injEq] at hy1
    have hk : internal E.a S G.mw (kindOf "T") x = toKelvin S.T.name x := rfl
    rw [hk] at hy1
    refine ⟨x, rfl, ?_⟩
    by_cases ho : oob G y = true
    · right
      rw [if_pos ho] at hT'
      subst hT'
      rw [hv]
      refine ⟨?_, rfl⟩
      rw [← hy1] at ho
      simpa [oob] using ho
    · left
      rw [if_neg ho] at hT'
      rw [← hy1] at ho
      obtain ⟨r1, r2⟩ := oob_false ho
      refine ⟨r1, r2, ?_⟩
      rw [hv, ← hT', ← hy1]
      simp only [value, Option.map_some, Option.some.injEq]
      exact inUnits_internal hU hmw .temperature x

/-- C30, given density or specific volume.  A density given is the density returned; a (nonzero)
specific volume given is the specific volume returned. -/
theorem C30_given_density (E : Env) (S : Sys) (hU : Uses E S) (G : Gas) (hmw : G.mw ≠ 0)
    (varg : List (Val ℝ)) (kw : Kw) (b : String) (vd vb : Val ℝ)
    (h : Supplies varg kw "d" vd b vb) (ds : List Nan) (hds : mD E G varg kw = .ok ds) (i : Nat)
    (hi : i < ds.length) : ∃ x, nth (Val.elems vd) i = some x ∧ ds[i]? = some (some x) := by
  have m : method .d E G varg kw = .ok ds := hds
  obtain ⟨st, e1, hg, e3, e4⟩ := method_result hU hmw h m
  obtain ⟨T, st0, n, hT, hS, h1, h2, h3, -, -⟩ := argparse_solved hU hmw h e1
  have hne : "d" ≠ b := by simpa using h.ok.distinct
  have hbv : b ≠ "v" := by rintro rfl; exact h.ok.not_dv (by simp)
  have hD : densityOf (stdOf E S G.mw [("d", vd), (b, vb)])
      = some ⟨(Val.elems vd).map (internal E.a S G.mw (kindOf "d")), vd.isArr && isInternal S "d"⟩ := by
    unfold densityOf
    have hv : (stdOf E S G.mw [("d", vd), (b, vb)]).v = none :=
      (stdArg_of E S G.mw vd vb hne).2.2 "v" (by decide) hbv.symm
    rw [hv]
    exact (stdArg_of E S G.mw vd vb hne).1
  obtain ⟨qs, hqs, hq⟩ := hS.d _ hD
  have hin : i < n := by
    have : st.T.length = n := by rw [h1, List.length_map, hS.lenT]
    omega
  obtain ⟨x, hx1, hx2⟩ := hq i hin
  obtain ⟨T', p', d', hr⟩ := hg.exists_row (i := i) (by omega)
  have hv := e4 i T' p' d' hr
  obtain ⟨-, -, ⟨ds', hds', hdi⟩⟩ := hr
  unfold State.density at hds'
  rw [h3, hqs] at hds'
  cases hds'
  rw [hx2] at hdi; cases hdi
  rw [nth_map] at hx1
  cases hy : nth (Val.elems vd) i with
  | none => rw [hy] at hx1; simp at hx1
  | some y =>
    rw [hy] at hx1
    simp only [Option.map_some, Option.some.injEq] at hx1
    refine ⟨y, rfl, ?_⟩
    rw [hv, ← hx1]
    simp only [value, Option.map_some, Option.some.injEq]
    exact inUnits_internal hU hmw .density y

theorem density_volume {E : Env} {S : Sys} (hU : Uses E S) {mw : ℝ} (hmw : mw ≠ 0) (x : ℝ) :
    1 / inUnits E.a S mw .density (1 / internal E.a S mw .volume x) = x := by
  have h2 := vs_ne hU
  have h5 := ms_ne hU hmw
  simp only [inUnits, internal]
  by_cases hx : x = 0
  · simp [hx]
  · field_simp

theorem C30_given_volume (E : Env) (S : Sys) (hU : Uses E S) (G : Gas) (hmw : G.mw ≠ 0)
    (varg : List (Val ℝ)) (kw : Kw) (b : String) (vv vb : Val ℝ)
    (h : Supplies varg kw "v" vv b vb) (vs : List Nan) (hvs : mV E G varg kw = .ok vs) (i : Nat)
    (hi : i < vs.length) : ∃ x, nth (Val.elems vv) i = some x ∧ vs[i]? = some (some x) := by
  have m : method .v E G varg kw = .ok vs := hvs
  obtain ⟨st, e1, hg, e3, e4⟩ := method_result hU hmw h m
  obtain ⟨T, st0, n, hT, hS, h1, h2, h3, -, -⟩ := argparse_solved hU hmw h e1
  have hne : "v" ≠ b := by simpa using h.ok.distinct
  have hv0 : (stdOf E S G.mw [("v", vv), (b, vb)]).v = some _ := (stdArg_of E S G.mw vv vb hne).1
  have hD : densityOf (stdOf E S G.mw [("v", vv), (b, vb)])
      = some ⟨((Val.elems vv).map (internal E.a S G.mw (kindOf "v"))).map (fun x => 1 / x), false⟩ := by
    unfold densityOf
    rw [hv0]
  obtain ⟨qs, hqs, hq⟩ := hS.d _ hD
  have hin : i < n := by
    have : st.T.length = n := by rw [h1, List.length_map, hS.lenT]
    omega
  obtain ⟨x, hx1, hx2⟩ := hq i hin
  obtain ⟨T', p', d', hr⟩ := hg.exists_row (i := i) (by omega)
  have hv := e4 i T' p' d' hr
  obtain ⟨-, -, ⟨ds', hds', hdi⟩⟩ := hr
  unfold State.density at hds'
  rw [h3, hqs] at hds'
  cases hds'
  rw [hx2] at hdi; cases hdi
  simp only [nth_map, Option.map_map] at hx1
  cases hy : nth (Val.elems vv) i with
  | none => rw [hy] at hx1; simp at hx1
  | some y =>
    rw [hy] at hx1
    simp only [Option.map_some, Function.comp_apply, Option.some.injEq] at hx1
    refine ⟨y, rfl, ?_⟩
    rw [hv, ← hx1]
    simp only [value, Option.map_some, Option.some.injEq]
    exact density_volume hU hmw y

/-- Entropy inverted for pressure in closed form gives the entropy back. -/
theorem entropy_pressure {pref s0 s : ℝ} (hpref : 0 < pref) :
    s0 - Ru * Real.log (pref * Real.exp ((s0 - s) / Ru) / pref) = s := by
  have hRu : (Ru : ℝ) ≠ 0 := by unfold Ru const_Ru const_k const_Na; norm_num
  rw [mul_div_cancel_left₀ _ hpref.ne', Real.log_exp]
  field_simp
  ring

/-- C30/C36, given entropy and temperature.  `s()` returns exactly the entropy given at every
element whose temperature is within the limits (and at which the entropy is defined): the
pressure found is the one at which the gas has that entropy. -/
theorem C36_given_entropy (E : Env) (S : Sys) (hU : Uses E S) (G : Gas) (hmw : G.mw ≠ 0)
    (hpref : 0 < G.pref) (varg : List (Val ℝ)) (kw : Kw) (vs vT : Val ℝ)
    (h : Supplies varg kw "s" vs "T" vT) (ss : List Nan) (hss : mS E G varg kw = .ok ss) (i : Nat)
    (hi : i < ss.length) : ∃ x t, nth (Val.elems vs) i = some x ∧ nth (Val.elems vT) i = some t ∧
      (G.Tlo ≤ toKelvin S.T.name t → toKelvin S.T.name t ≤ G.Thi →
        (G.s (toKelvin S.T.name t)).isSome = true → ss[i]? = some (some x)) := by
  have m : method .s E G varg kw = .ok ss := hss
  obtain ⟨st, e1, hg, e3, e4⟩ := method_result hU hmw h m
  obtain ⟨T, st0, n, hT, hS, h1, h2, h3, -, -⟩ := argparse_solved hU hmw h e1
  have hne : "s" ≠ "T" := by decide
  have hTa : T = some ⟨((Val.elems vT).map (internal E.a S G.mw (kindOf "T"))).map some,
      vT.isArr && isInternal S "T", false⟩ := by
    unfold tempOf at hT
    have he : (stdOf E S G.mw [("s", vs), ("T", vT)]).e = none :=
      (stdArg_of E S G.mw vs vT hne).2.2 "e" (by decide) (by decide)
    have hh : (stdOf E S G.mw [("s", vs), ("T", vT)]).h = none :=
      (stdArg_of E S G.mw vs vT hne).2.2 "h" (by decide) (by decide)
    have ht : (stdOf E S G.mw [("s", vs), ("T", vT)]).T = some _ := (stdArg_of E S G.mw vs vT hne).2.1
    rw [he, hh, ht] at hT
    simp only [Option.map_some, Except.ok.injEq] at hT
    exact hT.symm
  have hs0 : (stdOf E S G.mw [("s", vs), ("T", vT)]).s = some _ := (stdArg_of E S G.mw vs vT hne).1
  obtain ⟨qs, hqs, hq⟩ := hS.sT _ _ hs0 hTa
  have hin : i < n := by
    have : st.T.length = n := by rw [h1, List.length_map, hS.lenT]
    omega
  obtain ⟨x', y', hx1, hy1, hx2⟩ := hq i hin
  obtain ⟨y'', hy3, hy4⟩ := hS.T _ hTa i hin
  rw [hy1] at hy3; cases hy3
  obtain ⟨T', p', d', hr⟩ := hg.exists_row (i := i) (by omega)
  have hv := e4 i T' p' d' hr
  obtain ⟨hT', ⟨ps', hps', hpi⟩, -⟩ := hr
  unfold State.pressure at hps'
  rw [h2, hqs] at hps'
  cases hps'
  rw [hx2] at hpi
  simp only [nth_map, Option.map_map] at hx1 hy1
  cases hy : nth (Val.elems vs) i with
  | none => rw [hy] at hx1; simp at hx1
  | some x =>
    cases ht : nth (Val.elems vT) i with
    | none => rw [ht] at hy1; simp at hy1
    | some t =>
      rw [hy] at hx1
      rw [ht] at hy1
      simp only [Option.map_some, Function.comp_apply, Option.some.injEq] at hx1 hy1
      refine ⟨x, t, rfl, rfl, fun l1 l2 hdef => ?_⟩
      have hk : internal E.a S G.mw (kindOf "T") t = toKelvin S.T.name t := rfl
      rw [hk] at hy1
      subst hy1
      have ho : oob G (some (toKelvin S.T.name t)) = false := by
        simp only [oob, decide_eq_false_iff_not, not_or, not_lt, gt_iff_lt]
        exact ⟨l1, l2⟩
      rw [h1, List.getElem?_map, hy4] at hT'
      simp only [Option.map_some, Option.some.injEq, ho] at hT'
      obtain ⟨s0, hs0'⟩ := Option.isSome_iff_exists.mp hdef
      simp only [Option.bind_some, hs0', Option.map_some, Option.some.injEq] at hpi
      rw [hv, ← hT', ← hpi]
      simp only [value, Gas.sI, Option.bind_some, hs0', Option.map_some, Option.some.injEq, if_false,
        Bool.false_eq_true]
      rw [entropy_pressure hpref, ← hx1]
      exact inUnits_internal hU hmw .entropy x

end PyroMat.Gas.Props
