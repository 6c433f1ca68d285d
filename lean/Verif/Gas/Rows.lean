import Verif.Gas.StateLemmas

/-!
# Results of the property methods, row by row (lemmas)
-/

set_option linter.unusedSimpArgs false

namespace PyroMat.Gas.Props

open PyroMat PyroMat.Units PyroMat.Units.Spec PyroMat.Units.Props PyroMat.Gas PyroMat.Gas.Spec
open PyroMat.Config.Defaults

/-- Row `i` of the state a call describes: temperature, pressure, density in internal units. -/
def Row (st : State) (i : Nat) (T p d : Nan) : Prop :=
  st.T[i]? = some T ∧ (∃ ps, st.pressure = .ok ps ∧ ps[i]? = some p) ∧
    (∃ ds, st.density = .ok ds ∧ ds[i]? = some d)

/-- The value of a method on one row, in the units of `S`. -/
noncomputable def value (a : SetupArgs ℝ) (S : Sys) (G : Gas) : Quantity → Nan → Nan → Nan → Nan
  | .T, T, _, _ => T.map (inUnits a S G.mw .temperature)
  | .p, _, p, _ => p.map (inUnits a S G.mw .pressure)
  | .d, _, _, d => d.map (inUnits a S G.mw .density)
  | .v, _, _, d => (d.map (inUnits a S G.mw .density)).map (fun x => 1 / x)
  | .h, T, _, _ => (G.hI T).map (inUnits a S G.mw .energy)
  | .e, T, _, _ => (G.eI T).map (inUnits a S G.mw .energy)
  | .s, T, p, _ => (G.sI T p).map (inUnits a S G.mw .entropy)
  | .g, T, p, _ => (G.gI T p).map (inUnits a S G.mw .energy)
  | .f, T, p, _ => (G.fI T p).map (inUnits a S G.mw .energy)
  | .cp, T, _, _ => (G.cpI T).map (inUnits a S G.mw .entropy)
  | .cv, T, _, _ => (G.cvI T).map (inUnits a S G.mw .entropy)
  | .gam, T, _, _ => G.gamI T

/-- A usable result of `_argparse`. -/
structure Good (G : Gas) (st : State) : Prop where
  lenp : ∀ ps, st.p = some ps → ps.length = st.T.length
  lend : ∀ ds, st.d = some ds → ds.length = st.T.length
  some_pd : st.p.isSome = true ∨ st.d.isSome = true
  range : ∀ t, some t ∈ st.T → G.Tlo ≤ t ∧ t ≤ G.Thi
  both : ∀ (ps ds : List Nan), st.p = some ps → st.d = some ds → ∀ (i : Nat) (t : ℝ), st.T[i]? = some (some t) →
    ∃ p d, ps[i]? = some (some p) ∧ ds[i]? = some (some d) ∧ t = p / (1000 * Ru * d)

theorem oob_false {G : Gas} {t : ℝ} (h : ¬ oob G (some t) = true) : G.Tlo ≤ t ∧ t ≤ G.Thi := by
  simp only [oob, decide_eq_true_eq, not_or, not_lt, gt_iff_lt] at h
  exact h

theorem mem_range {G : Gas} {Ts : List Nan} {t : ℝ}
    (h : some t ∈ Ts.map (fun T => if oob G T then none else T)) : G.Tlo ≤ t ∧ t ≤ G.Thi := by
  obtain ⟨x, -, hx⟩ := List.mem_map.mp h
  by_cases ho : oob G x = true
  · rw [if_pos ho] at hx; cases hx
  · rw [if_neg ho] at hx; subst hx; exact oob_false ho

theorem good_of_pair {E : Env} {S : Sys} (hU : Uses E S) {G : Gas} (hmw : G.mw ≠ 0)
    {varg : List (Val ℝ)} {kw : Kw} {a b : String} {va vb : Val ℝ}
    (h : Supplies varg kw a va b vb) {st : State} (hst : argparse E G varg kw = .ok st) :
    Good G st := by
  obtain ⟨T, st0, n, hT, hS, h1, h2, h3, -, -⟩ := argparse_solved hU hmw h hst
  have hn : st.T.length = n := by rw [h1, List.length_map, hS.lenT]
  refine ⟨?_, ?_, ?_, ?_, ?_⟩
  · intro ps hps; rw [hn]; exact hS.lenp ps (by rw [← h2]; exact hps)
  · intro ds hds; rw [hn]; exact hS.lend ds (by rw [← h3]; exact hds)
  · rw [h2, h3]; exact hS.some_pd
  · intro t ht; rw [h1] at ht; exact mem_range ht
  · intro ps ds hps hds i t ht
    rw [h2] at hps
    rw [h3] at hds
    obtain ⟨hp, hd⟩ := hS.both (by rw [hps]; rfl) (by rw [hds]; rfl)
    obtain ⟨P, hP⟩ := Option.isSome_iff_exists.mp hp
    obtain ⟨D, hD⟩ := Option.isSome_iff_exists.mp hd
    have hi : i < n := by
      rw [← hn]; by_contra hc; rw [List.getElem?_eq_none (by omega)] at ht; cases ht
    obtain ⟨p, d, e1, e2, e3⟩ := hS.pd P D hP hD i hi
    obtain ⟨ps', hps', hpi⟩ := hS.p P hP
    obtain ⟨ds', hds', hdi⟩ := hS.d D hD
    obtain ⟨p', e4, e5⟩ := hpi i hi
    obtain ⟨d', e6, e7⟩ := hdi i hi
    rw [e1] at e4; cases e4
    rw [e2] at e6; cases e6
    rw [hps] at hps'; cases hps'
    rw [hds] at hds'; cases hds'
    refine ⟨p, d, e5, e7, ?_⟩
    rw [h1, List.getElem?_map, e3] at ht
    simp only [Option.map_some, Option.some.injEq] at ht
    split at ht
    · cases ht
    · cases ht; rfl

theorem Good.pressure {G : Gas} {st : State} (h : Good G st) :
    ∃ ps, st.pressure = .ok ps ∧ ps.length = st.T.length := by
  unfold State.pressure
  cases hp : st.p with
  | some ps => exact ⟨ps, by simp, h.lenp ps hp⟩
  | none =>
    cases hd : st.d with
    | some ds => exact ⟨_, by simp; rfl, by simp [h.lend ds hd]⟩
    | none => have := h.some_pd; rw [hp, hd] at this; simp at this

theorem Good.density {G : Gas} {st : State} (h : Good G st) :
    ∃ ds, st.density = .ok ds ∧ ds.length = st.T.length := by
  unfold State.density
  cases hd : st.d with
  | some ds => exact ⟨ds, by simp, h.lend ds hd⟩
  | none =>
    cases hp : st.p with
    | some ps => exact ⟨_, by simp; rfl, by simp [h.lenp ps hp]⟩
    | none => have := h.some_pd; rw [hp, hd] at this; simp at this

/-- Rows obey the ideal-gas law. -/
theorem Good.row {G : Gas} (hT0 : 0 < G.Tlo) {st : State} (h : Good G st) {i : Nat} {t : ℝ} {p d : Nan}
    (hr : Row st i (some t) p d) : G.Tlo ≤ t ∧ t ≤ G.Thi ∧
      ∀ x, (p = some x → ∃ y, d = some y ∧ x = 1000 * Ru * y * t) ∧
           (d = some x → ∃ y, p = some y ∧ y = 1000 * Ru * x * t) := by
  obtain ⟨hT, ⟨ps, hps, hpi⟩, ⟨ds, hds, hdi⟩⟩ := hr
  obtain ⟨r1, r2⟩ := h.range t (List.mem_of_getElem? hT)
  refine ⟨r1, r2, ?_⟩
  have ht : t ≠ 0 := by linarith [hT0] |> fun (h : 0 < t) => h.ne'
  have hRu : (Ru : ℝ) ≠ 0 := by unfold Ru const_Ru const_k const_Na; norm_num
  unfold State.pressure at hps
  unfold State.density at hds
  cases hp : st.p with
  | some ps' =>
    cases hd : st.d with
    | some ds' =>
      rw [hp, hd] at hps hds
      cases hps; cases hds
      obtain ⟨x, y, e1, e2, e3⟩ := h.both _ _ hp hd i t hT
      rw [e1] at hpi; cases hpi
      rw [e2] at hdi; cases hdi
      have hy : y ≠ 0 := by
        rintro rfl; simp at e3; exact ht e3
      have e4 : x = 1000 * Ru * y * t := by rw [e3]; field_simp
      intro z
      exact ⟨fun hz => by cases hz; exact ⟨y, rfl, e4⟩, fun hz => by cases hz; exact ⟨x, rfl, e4⟩⟩
    | none =>
      rw [hp, hd] at hps hds
      cases hps; cases hds
      have hz := getElem?_zipWith' (f := nan2 (fun p T => p / (1000 * Ru * T))) hpi hT
      rw [hz] at hdi; cases hdi
      intro z
      refine ⟨fun hz => ?_, fun hz => ?_⟩
      · subst hz
        exact ⟨_, rfl, by field_simp⟩
      · cases p with
        | none => simp [nan2] at hz
        | some p => simp [nan2] at hz; exact ⟨p, rfl, by rw [← hz]; field_simp⟩
  | none =>
    cases hd : st.d with
    | some ds' =>
      rw [hp, hd] at hps hds
      cases hps; cases hds
      have hz := getElem?_zipWith' (f := nan2 (fun d T => d * (1000 * Ru * T))) hdi hT
      rw [hz] at hpi; cases hpi
      intro z
      refine ⟨fun hz => ?_, fun hz => ?_⟩
      · cases d with
        | none => simp [nan2] at hz
        | some d => simp [nan2] at hz; exact ⟨d, rfl, by rw [← hz]; ring⟩
      · subst hz
        exact ⟨_, rfl, by ring⟩
    | none => have := h.some_pd; rw [hp, hd] at this; simp at this

theorem mTdefault_two {E : Env} {varg : List (Val ℝ)} {kw : Kw} (h : varg.length + kw.length ≠ 1) :
    mTdefault E varg kw = kw := by
  unfold mTdefault; rw [if_neg h]

theorem supplies_count {varg : List (Val ℝ)} {kw : Kw} {a b : String} {va vb : Val ℝ}
    (h : Supplies varg kw a va b vb) : varg.length + kw.length = 2 := by
  have := h.args.length_eq
  have hl := h.len
  simp only [supplied, List.length_append, List.length_zip, List.length_cons, List.length_nil] at this
  omega

/-- Every method's result is its value on the rows of the state. -/
theorem method_rows {E : Env} {S : Sys} (hU : Uses E S) {G : Gas} (hmw : G.mw ≠ 0)
    {varg : List (Val ℝ)} {kw : Kw} (hc : varg.length + kw.length ≠ 1)
    {st : State} (hst : argparse E G varg kw = .ok st) (hg : Good G st) (q : Quantity) :
    ∃ xs, method q E G varg kw = .ok xs ∧ xs.length = st.T.length ∧
      ∀ i T p d, Row st i T p d → xs[i]? = some (value E.a S G q T p d) := by
  obtain ⟨ps, hps, lp⟩ := hg.pressure
  obtain ⟨ds, hds, ld⟩ := hg.density
  have row : ∀ {i T p d}, Row st i T p d → st.T[i]? = some T ∧ ps[i]? = some p ∧ ds[i]? = some d := by
    rintro i T p d ⟨h1, ⟨ps', h2, h3⟩, ⟨ds', h4, h5⟩⟩
    rw [hps] at h2; cases h2
    rw [hds] at h4; cases h4
    exact ⟨h1, h3, h5⟩
  cases q <;> simp only [method]
  · refine ⟨_, by rw [mT_eq hU, mTdefault_two hc, hst, exOk], by simp [outs], ?_⟩
    intro i T p d hr
    obtain ⟨r1, r2, r3⟩ := row hr
    simp [outs, r1, value]
  · refine ⟨_, by rw [mP_eq hU, hst, exOk, hps, exOk], by simp [outs, lp], ?_⟩
    intro i T p d hr
    obtain ⟨r1, r2, r3⟩ := row hr
    simp [outs, r2, value]
  · refine ⟨_, by rw [mD_eq hU hmw, hst, exOk, hds, exOk], by simp [outs, ld], ?_⟩
    intro i T p d hr
    obtain ⟨r1, r2, r3⟩ := row hr
    simp [outs, r3, value]
  · refine ⟨_, by rw [mV, mD_eq hU hmw, hst, exOk, hds, exOk, exOk], by simp [outs, ld], ?_⟩
    intro i T p d hr
    obtain ⟨r1, r2, r3⟩ := row hr
    simp [outs, r3, value]
  · refine ⟨_, by rw [mH_eq hU hmw, hst, exOk], by simp [outs], ?_⟩
    intro i T p d hr
    obtain ⟨r1, r2, r3⟩ := row hr
    simp [outs, r1, value]
  · refine ⟨_, by rw [mE_eq hU hmw, hst, exOk], by simp [outs], ?_⟩
    intro i T p d hr
    obtain ⟨r1, r2, r3⟩ := row hr
    simp [outs, r1, value]
  · refine ⟨_, by rw [mS_eq hU hmw, hst, exOk, hps, exOk], by simp [outs, lp], ?_⟩
    intro i T p d hr
    obtain ⟨r1, r2, r3⟩ := row hr
    simp [outs, List.getElem?_map, getElem?_zipWith' r1 r2, value]
  · refine ⟨_, by rw [mG_eq hU hmw, hst, exOk, hps, exOk], by simp [outs, lp], ?_⟩
    intro i T p d hr
    obtain ⟨r1, r2, r3⟩ := row hr
    simp [outs, List.getElem?_map, getElem?_zipWith' r1 r2, value]
  · refine ⟨_, by rw [mF_eq hU hmw, hst, exOk, hps, exOk], by simp [outs, lp], ?_⟩
    intro i T p d hr
    obtain ⟨r1, r2, r3⟩ := row hr
    simp [outs, List.getElem?_map, getElem?_zipWith' r1 r2, value]
  · refine ⟨_, by rw [mCp_eq hU hmw, hst, exOk], by simp [outs], ?_⟩
    intro i T p d hr
    obtain ⟨r1, r2, r3⟩ := row hr
    simp [outs, r1, value]
  · refine ⟨_, by rw [mCv_eq hU hmw, hst, exOk], by simp [outs], ?_⟩
    intro i T p d hr
    obtain ⟨r1, r2, r3⟩ := row hr
    simp [outs, r1, value]
  · refine ⟨_, by rw [mGam, hst, exOk], by simp, ?_⟩
    intro i T p d hr
    obtain ⟨r1, r2, r3⟩ := row hr
    simp [r1, value]

theorem Good.exists_row {G : Gas} {st : State} (h : Good G st) {i : Nat} (hi : i < st.T.length) :
    ∃ T p d, Row st i T p d := by
  obtain ⟨ps, hps, lp⟩ := h.pressure
  obtain ⟨ds, hds, ld⟩ := h.density
  obtain ⟨T, hT⟩ := exists_of_lt hi
  obtain ⟨p, hp⟩ := exists_of_lt (xs := ps) (i := i) (by omega)
  obtain ⟨d, hd⟩ := exists_of_lt (xs := ds) (i := i) (by omega)
  exact ⟨T, p, d, hT, ⟨ps, hps, hp⟩, ⟨ds, hds, hd⟩⟩

theorem Row.unique {st : State} {i : Nat} {T p d T' p' d' : Nan} (h : Row st i T p d)
    (h' : Row st i T' p' d') : T = T' ∧ p = p' ∧ d = d' := by
  obtain ⟨h1, ⟨ps, h2, h3⟩, ⟨ds, h4, h5⟩⟩ := h
  obtain ⟨h1', ⟨ps', h2', h3'⟩, ⟨ds', h4', h5'⟩⟩ := h'
  rw [h2] at h2'; cases h2'
  rw [h4] at h4'; cases h4'
  rw [h1] at h1'; rw [h3] at h3'; rw [h5] at h5'
  exact ⟨by simpa using h1', by simpa using h3', by simpa using h5'⟩

/-- A result of a method, traced to the row it came from. -/
theorem method_result {E : Env} {S : Sys} (hU : Uses E S) {G : Gas} (hmw : G.mw ≠ 0)
    {varg : List (Val ℝ)} {kw : Kw} {a b : String} {va vb : Val ℝ}
    (h : Supplies varg kw a va b vb) {q : Quantity} {xs : List Nan}
    (hx : method q E G varg kw = .ok xs) :
    ∃ st, argparse E G varg kw = .ok st ∧ Good G st ∧ xs.length = st.T.length ∧
      ∀ i T p d, Row st i T p d → xs[i]? = some (value E.a S G q T p d) := by
  have hc : varg.length + kw.length ≠ 1 := by rw [supplies_count h]; decide
  cases hst : argparse E G varg kw with
  | error e =>
    exfalso
    cases q <;> simp only [method] at hx
    · rw [mT_eq hU, mTdefault_two hc, hst, exErr] at hx; cases hx
    · rw [mP_eq hU, hst, exErr] at hx; cases hx
    · rw [mD_eq hU hmw, hst, exErr] at hx; cases hx
    · rw [mV, mD_eq hU hmw, hst, exErr, exErr] at hx; cases hx
    · rw [mH_eq hU hmw, hst, exErr] at hx; cases hx
    · rw [mE_eq hU hmw, hst, exErr] at hx; cases hx
    · rw [mS_eq hU hmw, hst, exErr] at hx; cases hx
    · rw [mG_eq hU hmw, hst, exErr] at hx; cases hx
    · rw [mF_eq hU hmw, hst, exErr] at hx; cases hx
    · rw [mCp_eq hU hmw, hst, exErr] at hx; cases hx
    · rw [mCv_eq hU hmw, hst, exErr] at hx; cases hx
    · rw [mGam, hst, exErr] at hx; cases hx
  | ok st =>
    have hg := good_of_pair hU hmw h hst
    obtain ⟨xs', h1, h2, h3⟩ := method_rows hU hmw hc hst hg q
    rw [hx] at h1; cases h1
    exact ⟨st, rfl, hg, h2, h3⟩

end PyroMat.Gas.Props
