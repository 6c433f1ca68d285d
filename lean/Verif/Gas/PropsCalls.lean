import Verif.Gas.PropsUnits

/-!
# Defaults, `state()`, entropy-pressure relations (C29, C30, C36)
-/

set_option linter.unusedSimpArgs false

namespace PyroMat.Gas.Props

open PyroMat PyroMat.Units PyroMat.Units.Spec PyroMat.Units.Props PyroMat.Gas PyroMat.Gas.Spec
open PyroMat.Config.Defaults

/-- C29, defaults.  A missing property is the configured default: with nothing given the default
temperature and pressure, with only a temperature the default pressure, with only another property
the default temperature - each converted from the unit in which the default is stored to the
working unit, whatever those units are. -/
theorem C29_defaults (E : Env) (S : Sys) (hU : Uses E S) (G : Gas) :
    ∃ (s : Scale) (u : String), E.c.str "def_T_unit" = .ok s.name ∧ E.c.str "def_p_unit" = .ok u ∧
      (pressure E.a).contains u = true ∧
      let T0 := Val.scalar (fromKelvin S.T.name (toKelvin s.name E.c.defT))
      let p0 := Val.scalar (E.c.defp * size (pressure E.a) u / size (pressure E.a) S.p)
      argparse E G [] [] = argparse E G [T0, p0] [] ∧
      (∀ v, argparse E G [v] [] = argparse E G [v, p0] []) ∧
      (∀ v, argparse E G [] [("T", v)] = argparse E G [v, p0] []) ∧
      (∀ n v, n ≠ "T" → argparse E G [] [(n, v)] = argparse E G [T0] [(n, v)]) := by
  obtain ⟨s, hs, hT⟩ := defT_eq hU
  obtain ⟨u, hu, hc, hp⟩ := defp_eq hU
  refine ⟨s, u, hs, hu, hc, ?_, ?_, ?_, ?_⟩
  · unfold argparse bindPos applyDefaults
    simp [hT, hp, exOk, Kw.has]
  · intro v
    unfold argparse bindPos applyDefaults
    simp [hT, hp, exOk, Kw.has]
  · intro v
    unfold argparse bindPos applyDefaults
    simp [hT, hp, exOk, Kw.has]
  · intro n v hn
    have hn' : ("T" == n) = false := by simpa using hn.symm
    unfold argparse bindPos applyDefaults
    simp [hT, hp, exOk, Kw.has, hn, hn', List.lookup_cons]

/-- C36, pressure dependence.  At one temperature the entropy falls by `R ln(p2/p1)` between two
positive pressures. -/
theorem C36_pressure_change (E : Env) (S : Sys) (hU : Uses E S) (G : Gas) (hmw : G.mw ≠ 0)
    (hpref : 0 < G.pref) (hG : Coherent G) (t p1 p2 : ℝ) (h1 : 0 < p1) (h2 : 0 < p2)
    (hlo : G.Tlo ≤ toKelvin S.T.name t) (hhi : toKelvin S.T.name t ≤ G.Thi) (R : ℝ)
    (hR : mR E G = .ok R) :
    ∃ s1 s2, mS E G [.scalar t, .scalar p1] [] = .ok [some s1] ∧
      mS E G [.scalar t, .scalar p2] [] = .ok [some s2] ∧ s2 - s1 = - R * Real.log (p2 / p1) := by
  obtain ⟨h0, s0, c0, sT0, gT0, -, -, k3, -⟩ := hG _ hlo hhi
  have m := fun p => method_Tp hU hmw t p hlo hhi .s
  simp only [value, Gas.sI, Option.bind_some, k3, Option.map_some] at m
  refine ⟨_, _, m p1, m p2, ?_⟩
  rw [mR_eq hU hmw] at hR
  simp only [Except.ok.injEq] at hR
  have hne : Kind.entropy ≠ .temperature := by simp
  rw [← hR, ← inUnits_mul E.a S G.mw hne Ru, ← inUnits_mul E.a S G.mw hne (s0 - _),
    ← inUnits_mul E.a S G.mw hne (s0 - _)]
  have hps : 0 < size (Units.pressure E.a) S.p := ps_pos hU
  have hl : ∀ p, 0 < p → Real.log (internal E.a S G.mw .pressure p / G.pref)
      = Real.log p + Real.log (size (Units.pressure E.a) S.p) - Real.log G.pref := by
    intro p hp
    simp only [internal]
    rw [Real.log_div (by positivity) hpref.ne', Real.log_mul hp.ne' hps.ne']
  rw [hl p1 h1, hl p2 h2, Real.log_div h2.ne' h1.ne']
  ring

/-- C36, round trip.  The pressure computed from an entropy and a temperature within the limits is
positive, and the entropy at that temperature and pressure is the one given, in any units. -/
theorem C36_round_trip (E : Env) (S : Sys) (hU : Uses E S) (G : Gas) (hmw : G.mw ≠ 0)
    (hpref : 0 < G.pref) (hG : Coherent G) (s t : ℝ)
    (hlo : G.Tlo ≤ toKelvin S.T.name t) (hhi : toKelvin S.T.name t ≤ G.Thi) :
    ∃ p, mP E G [] [("s", .scalar s), ("T", .scalar t)] = .ok [some p] ∧ 0 < p ∧
      mP_s E G (.scalar s) (some (.scalar t)) = .ok [some p] ∧
      mS E G [.scalar t, .scalar p] [] = .ok [some s] := by
  obtain ⟨h0, s0, c0, sT0, gT0, -, -, k3, -⟩ := hG _ hlo hhi
  have hsup : Supplies [] [("s", .scalar s), ("T", .scalar t)] "s" (.scalar s) "T" (.scalar t) :=
    ⟨by simp, by simp [supplied], ⟨by simp, by simp, by simp, by simp, by simp⟩⟩
  have hps : 0 < size (Units.pressure E.a) S.p := ps_pos hU
  have e3 : oob G (some (toKelvin S.T.name t)) = false := by
    simp only [oob, decide_eq_false_iff_not, not_or, not_lt, gt_iff_lt]
    exact ⟨hlo, hhi⟩
  have hst : argparse E G [] [("s", .scalar s), ("T", .scalar t)]
      = .ok { T := [some (toKelvin S.T.name t)], p := some [some (G.pref * Real.exp ((s0 - internal E.a S G.mw .entropy s) / Ru))], d := none } := by
    rw [argparse_pair hU hmw hsup]
    unfold pre
    have e1 : stdOf E S G.mw [("s", .scalar s), ("T", .scalar t)]
        = { T := some ⟨[toKelvin S.T.name t], false⟩, s := some ⟨[internal E.a S G.mw .entropy s], false⟩ } := by
      rfl
    have e2 : tempOf G { T := some ⟨[toKelvin S.T.name t], false⟩, s := some ⟨[internal E.a S G.mw .entropy s], false⟩ }
        = .ok (some ⟨[some (toKelvin S.T.name t)], false, false⟩) := rfl
    simp only [e1, e2, exOk]
    unfold solve
    simp only [densityOf, broadcast, List.length_singleton, if_true, exOk]
    unfold rangeTest
    simp [e3, k3]
  have hP : mP E G [] [("s", .scalar s), ("T", .scalar t)]
      = .ok [some (inUnits E.a S G.mw .pressure (G.pref * Real.exp ((s0 - internal E.a S G.mw .entropy s) / Ru)))] := by
    rw [mP_eq hU, hst, exOk]
    simp [State.pressure, exOk, outs]
  refine ⟨_, hP, ?_, hP, ?_⟩
  · simp only [inUnits]
    have := Real.exp_pos ((s0 - internal E.a S G.mw .entropy s) / Ru)
    positivity
  · refine (method_Tp hU hmw t _ hlo hhi .s).trans ?_
    simp only [value, Gas.sI, Option.bind_some, k3, Option.map_some]
    rw [internal_inUnits hU hmw, entropy_pressure hpref, inUnits_internal hU hmw]

/-- C30, `state()`.  The dictionary agrees entry by entry with the individual methods. -/
theorem C30_state (E : Env) (S : Sys) (hU : Uses E S) (G : Gas) (hmw : G.mw ≠ 0) (hG : Coherent G)
    (varg : List (Val ℝ)) (kw : Kw) (a b : String) (va vb : Val ℝ)
    (h : Supplies varg kw a va b vb) (o : StateOut) (ho : mState E G varg kw = .ok o) :
    mT E G varg kw = .ok o.T ∧ mP E G varg kw = .ok o.p ∧ mD E G varg kw = .ok o.d ∧
    mV E G varg kw = .ok o.v ∧ mH E G varg kw = .ok o.h ∧ mE E G varg kw = .ok o.e ∧
    mS E G varg kw = .ok o.s ∧ mCp E G varg kw = .ok o.cp ∧ mCv E G varg kw = .ok o.cv ∧
    mGam E G varg kw = .ok o.gam := by
  have hc : varg.length + kw.length ≠ 1 := by rw [supplies_count h]; decide
  rw [mState_eq hU hmw] at ho
  obtain ⟨st, hst, ho⟩ := bind_ok ho
  obtain ⟨d, hd, ho⟩ := bind_ok ho
  obtain ⟨p, hp, ho⟩ := bind_ok ho
  have hg := good_of_pair hU hmw h hst
  have hcp : st.T.map (fun T => T.bind (fun T => (G.h T).map (·.2))) = st.T.map G.cpI := by
    refine List.map_congr_left (fun T hT => ?_)
    cases T with
    | none => rfl
    | some t =>
      obtain ⟨r1, r2⟩ := hg.range t hT
      obtain ⟨h0, s0, c0, sT0, gT0, k1, k2, -, -⟩ := hG t r1 r2
      simp [Gas.cpI, k1, k2]
  simp only [hcp] at ho
  simp only [Except.ok.injEq] at ho
  subst ho
  refine ⟨?_, ?_, ?_, ?_, ?_, ?_, ?_, ?_, ?_, ?_⟩
  · rw [mT_eq hU, mTdefault_two hc, hst, exOk]
  · rw [mP_eq hU, hst, exOk, hp, exOk]
  · rw [mD_eq hU hmw, hst, exOk, hd, exOk]
  · rw [mV, mD_eq hU hmw, hst, exOk, hd, exOk, exOk]
  · rw [mH_eq hU hmw, hst, exOk]
  · rw [mE_eq hU hmw, hst, exOk]
  · rw [mS_eq hU hmw, hst, exOk, hp, exOk]
  · rw [mCp_eq hU hmw, hst, exOk]
  · rw [mCv_eq hU hmw, hst, exOk]
    congr 2
    rw [List.map_map]
    refine List.map_congr_left (fun T _ => ?_)
    rfl
  · rw [mGam, hst, exOk]
    congr 1
    refine List.ext_getElem? (fun i => ?_)
    simp only [List.getElem?_map, List.getElem?_zipWith]
    cases st.T[i]? with
    | none => rfl
    | some T =>
      simp only [Option.map_some, Gas.gamI, Gas.cpI]
      cases T.bind G.cp <;> rfl

end PyroMat.Gas.Props
