import Verif.Gas.PropsCalls
import Verif.Gas.PropsRange

/-!
# Limits, defaults of `T()`, shared entropies, caller's arrays (C30, C34, C37, C63)
-/

set_option linter.unusedSimpArgs false

namespace PyroMat.Gas.Props

open PyroMat PyroMat.Units PyroMat.Units.Spec PyroMat.Units.Props PyroMat.Gas PyroMat.Gas.Spec
open PyroMat.Config.Defaults

theorem argparse_Tp_out {E : Env} {S : Sys} (hU : Uses E S) {G : Gas} (hmw : G.mw ≠ 0) (x p : ℝ)
    (h : toKelvin S.T.name x < G.Tlo ∨ G.Thi < toKelvin S.T.name x) :
    argparse E G [.scalar x, .scalar p] [] = .error .param := by
  rw [argparse_pair hU hmw (supplies_Tp x p)]
  unfold pre
  have e1 : stdOf E S G.mw [("T", .scalar x), ("p", .scalar p)]
      = { T := some ⟨[toKelvin S.T.name x], false⟩, p := some ⟨[internal E.a S G.mw .pressure p], false⟩ } := by
    rfl
  have e2 : tempOf G { T := some ⟨[toKelvin S.T.name x], false⟩, p := some ⟨[internal E.a S G.mw .pressure p], false⟩ }
      = .ok (some ⟨[some (toKelvin S.T.name x)], false, false⟩) := rfl
  have e3 : oob G (some (toKelvin S.T.name x)) = true := by
    simp only [oob, decide_eq_true_eq, gt_iff_lt]
    exact h
  simp only [e1, e2, exOk]
  unfold solve
  simp only [densityOf, broadcast, List.length_singleton, if_true, exOk]
  unfold rangeTest
  simp [e3]

/-- C34, the limits.  A call on one temperature and one pressure raises a parameter error exactly
when the temperature is outside the limits of the gas (both limits are inside). -/
theorem C34_limits (E : Env) (S : Sys) (hU : Uses E S) (G : Gas) (hmw : G.mw ≠ 0) (q : Quantity)
    (t p : ℝ) :
    method q E G [.scalar t, .scalar p] [] = .error .param ↔
      toKelvin S.T.name t < G.Tlo ∨ G.Thi < toKelvin S.T.name t := by
  constructor
  · intro h
    by_contra hc
    rw [not_or, not_lt, not_lt] at hc
    rw [method_Tp hU hmw t p hc.1 hc.2 q] at h
    cases h
  · intro h
    exact method_error hU hmw (by simp) (argparse_Tp_out hU hmw t p h) q

/-- C34, results in range.  Every temperature a call returns, whatever it was given, is NaN or
within the limits. -/
theorem C34_returned_temperature (E : Env) (S : Sys) (hU : Uses E S) (G : Gas) (hmw : G.mw ≠ 0)
    (varg : List (Val ℝ)) (kw : Kw) (a b : String) (va vb : Val ℝ)
    (h : Supplies varg kw a va b vb) (ts : List Nan) (ht : mT E G varg kw = .ok ts) (t : ℝ)
    (hm : some t ∈ ts) : G.Tlo ≤ toKelvin S.T.name t ∧ toKelvin S.T.name t ≤ G.Thi := by
  obtain ⟨st, hst, hg, hl, hr⟩ := method_result (q := .T) hU hmw h ht
  obtain ⟨i, hi, hti⟩ := List.getElem_of_mem hm
  obtain ⟨T, p, d, hrow⟩ := hg.exists_row (i := i) (by omega)
  have := hr i T p d hrow
  rw [List.getElem?_eq_getElem hi, hti] at this
  simp only [value, Option.some.injEq] at this
  cases T with
  | none => cases this
  | some T0 =>
    simp only [Option.map_some, Option.some.injEq] at this
    have e : toKelvin S.T.name t = T0 := by
      rw [this]
      exact internal_inUnits hU hmw .temperature T0
    rw [e]
    exact hg.range T0 (List.mem_of_getElem? hrow.1)

/-! ## One entropy, several pressures -/

theorem iter1_replicate {f : ℝ → Option (ℝ × ℝ)} {c x0 lo hi : ℝ} {n : Nat} {r : List Nan × Bool}
    (h : iter1 ((List.replicate n c).map (fun y => (f, y))) x0 lo hi = .ok r) (i j : Nat) (hi : i < n)
    (hj : j < n) : r.1[i]? = r.1[j]? := by
  obtain ⟨-, he⟩ := iter1_each h
  obtain ⟨x, w, hx, hx1, -⟩ := he i (f, c) (by simp [List.getElem?_replicate, hi])
  obtain ⟨y, w', hy, hy1, -⟩ := he j (f, c) (by simp [List.getElem?_replicate, hj])
  rw [hx1] at hy1
  simp only [Except.ok.injEq, Prod.mk.injEq, List.cons.injEq, and_true] at hy1
  rw [hx, hy, hy1.1]

/-- C30 fails for one entropy and several pressures.  Whenever such a call returns, two elements
with different pressures cannot both have the entropy given: all elements are given one and the same
temperature. -/
theorem C30_shared_entropy_defect (E : Env) (S : Sys) (hU : Uses E S) (G : Gas) (hmw : G.mw ≠ 0)
    (hpref : 0 < G.pref) (s : ℝ) (ps : List ℝ) (i j : Nat) (pi pj : ℝ) (hi : ps[i]? = some pi)
    (hj : ps[j]? = some pj) (hpi : 0 < pi) (hpj : 0 < pj) (hne : pi ≠ pj)
    (ss : List Nan) (hss : mS E G [] [("s", .scalar s), ("p", .arr ps)] = .ok ss) :
    ¬ (ss[i]? = some (some s) ∧ ss[j]? = some (some s)) := by
  rintro ⟨si, sj⟩
  have hsup : Supplies [] [("s", .scalar s), ("p", .arr ps)] "s" (.scalar s) "p" (.arr ps) :=
    ⟨by simp, by simp [supplied], ⟨by simp, by simp, by simp, by simp, by simp⟩⟩
  obtain ⟨st, hst, hg, hl, hr⟩ := method_result (q := .s) hU hmw hsup hss
  obtain ⟨st0, h0, e1, e2, e3, -⟩ := argparse_range hU hmw hsup hst
  have hlt : i < ps.length ∧ j < ps.length :=
    ⟨(List.getElem?_eq_some_iff.mp hi).1, (List.getElem?_eq_some_iff.mp hj).1⟩
  have hij : i ≠ j := by rintro rfl; rw [hi] at hj; cases hj; exact hne rfl
  have hlen : 1 < ps.length := by omega
  -- what the case split does
  have hst0 : st0.T[i]? = st0.T[j]? ∧
      st0.p = some ((ps.map (internal E.a S G.mw .pressure)).map some) := by
    unfold pre at h0
    have e : stdOf E S G.mw [("s", .scalar s), ("p", .arr ps)]
        = { s := some ⟨[internal E.a S G.mw .entropy s], false⟩, p := some ⟨ps.map (internal E.a S G.mw .pressure), (isInternal S "p")⟩ } := by
      simp only [stdOf, stdArg, List.lookup_cons, List.lookup_nil]
      rfl
    rw [e] at h0
    have hT : tempOf G { s := some ⟨[internal E.a S G.mw .entropy s], false⟩, p := some ⟨ps.map (internal E.a S G.mw .pressure), (isInternal S "p")⟩ } = .ok none := rfl
    rw [hT, exOk] at h0
    unfold solve at h0
    simp only [densityOf] at h0
    have hb : broadcast [internal E.a S G.mw .entropy s] (ps.map (internal E.a S G.mw .pressure))
        = .ok (List.replicate ps.length (internal E.a S G.mw .entropy s), ps.map (internal E.a S G.mw .pressure)) := by
      unfold broadcast
      rw [if_neg (by simp; omega)]
      simp
    rw [hb, exOk] at h0
    simp only [adjustS, hb, exOk, List.length_map, hlen, if_true] at h0
    obtain ⟨r, hr, h0⟩ := bind_ok h0
    cases h0
    exact ⟨iter1_replicate hr i j hlt.1 hlt.2, rfl⟩
  obtain ⟨hTT, hpp⟩ := hst0
  obtain ⟨h1, -⟩ := List.getElem?_eq_some_iff.mp si
  obtain ⟨h2, -⟩ := List.getElem?_eq_some_iff.mp sj
  obtain ⟨T1, p1, d1, r1⟩ := hg.exists_row (i := i) (by omega)
  obtain ⟨T2, p2, d2, r2⟩ := hg.exists_row (i := j) (by omega)
  have v1 := hr i _ _ _ r1
  have v2 := hr j _ _ _ r2
  rw [si] at v1
  rw [sj] at v2
  have hT12 : T1 = T2 := by
    have a1 := r1.1
    have a2 := r2.1
    rw [e1, List.getElem?_map] at a1 a2
    rw [hTT, a2] at a1
    exact (Option.some.inj a1).symm
  have hpr : ∀ {k T p d x}, Row st k T p d → ps[k]? = some x → p = some (internal E.a S G.mw .pressure x) := by
    intro k T p d x hrow hk
    obtain ⟨-, ⟨qs, hqs, hqk⟩, -⟩ := hrow
    unfold State.pressure at hqs
    rw [e2, hpp] at hqs
    simp only [Except.ok.injEq] at hqs
    subst hqs
    simp only [List.getElem?_map, hk, Option.map_some, Option.some.injEq] at hqk
    exact hqk.symm
  rw [hpr r1 hi] at v1
  rw [hpr r2 hj, ← hT12] at v2
  simp only [value, Option.some.injEq] at v1 v2
  cases T1 with
  | none => cases v1
  | some t =>
    simp only [Gas.sI, Option.bind_some] at v1 v2
    cases hs : G.s t with
    | none => rw [hs] at v1; cases v1
    | some q =>
      rw [hs] at v1 v2
      simp only [Option.map_some, Option.some.injEq] at v1 v2
      have := congrArg (internal E.a S G.mw .entropy) (v1.symm.trans v2)
      rw [internal_inUnits hU hmw, internal_inUnits hU hmw] at this
      have hps : 0 < size (Units.pressure E.a) S.p := ps_pos hU
      have hRu : (0:ℝ) < Ru := by norm_num [Ru, const_Ru, const_k, const_Na]
      have h3 : Real.log (internal E.a S G.mw .pressure pi / G.pref)
          = Real.log (internal E.a S G.mw .pressure pj / G.pref) := by
        have : Ru * Real.log (internal E.a S G.mw .pressure pi / G.pref)
          = Ru * Real.log (internal E.a S G.mw .pressure pj / G.pref) := by linarith
        exact mul_left_cancel₀ hRu.ne' this
      simp only [internal] at h3
      have h4 := Real.log_injOn_pos (by simp only [Set.mem_Ioi]; positivity)
        (by simp only [Set.mem_Ioi]; positivity) h3
      rw [div_left_inj' hpref.ne', mul_left_inj' hps.ne'] at h4
      exact hne h4

/-! ## The caller's arrays -/

theorem caller_own {t : TArg} {l : List Nan} (h : (if t.own then some t.xs else none) = some l) :
    ∃ t', some t = some t' ∧ t'.own = true ∧ l = t'.xs := by
  cases ho : t.own with
  | false => rw [ho] at h; cases h
  | true => rw [ho] at h; exact ⟨t, rfl, ho, (Option.some.inj h).symm⟩

/-- What the case split writes to arrays of the caller. -/
theorem solve_caller {E : Env} {G : Gas} {k : Std} {T : Option TArg} {st : State}
    (h : solve E G k T = .ok st) :
    (∀ l, st.callerT = some l → ∃ t, T = some t ∧ t.own = true ∧ l = t.xs) ∧
    (st.callerS.isSome = true → k.s.isSome = true ∧ k.p.isSome = true) := by
  unfold solve at h
  dsimp only at h
  cases hs : k.s with
  | some s =>
    rw [hs] at h
    cases hd : densityOf k with
    | some d =>
      rw [hd] at h
      obtain ⟨⟨sb, db⟩, -, h⟩ := bind_ok h
      obtain ⟨r, -, h⟩ := bind_ok h
      cases h; simp
    | none =>
      rw [hd] at h
      cases hp : k.p with
      | some p =>
        rw [hp] at h
        obtain ⟨⟨sb, db⟩, -, h⟩ := bind_ok h
        obtain ⟨r, -, h⟩ := bind_ok h
        obtain ⟨r, -, h⟩ := bind_ok h
        cases h; simp
      | none =>
        rw [hp] at h
        cases T with
        | none => cases h
        | some t =>
          obtain ⟨⟨sb, db⟩, -, h⟩ := bind_ok h
          cases h
          exact ⟨fun l hl => caller_own hl, by simp⟩
  | none =>
    rw [hs] at h
    cases T with
    | some t =>
      cases hp : k.p with
      | some p =>
        rw [hp] at h
        obtain ⟨⟨sb, db⟩, -, h⟩ := bind_ok h
        cases h
        exact ⟨fun l hl => caller_own hl, by simp⟩
      | none =>
        rw [hp] at h
        cases hd : densityOf k with
        | none => rw [hd] at h; cases h
        | some d =>
          rw [hd] at h
          obtain ⟨⟨sb, db⟩, -, h⟩ := bind_ok h
          cases h
          exact ⟨fun l hl => caller_own hl, by simp⟩
    | none =>
      cases hp : k.p with
      | none => rw [hp] at h; cases h
      | some p =>
        rw [hp] at h
        cases hd : densityOf k with
        | none => rw [hd] at h; cases h
        | some d =>
          rw [hd] at h
          obtain ⟨⟨sb, db⟩, -, h⟩ := bind_ok h
          cases h; simp

/-- C63.  Evaluating a property leaves an array given to it as it was, provided it is not an
entropy given with pressures, and all temperatures given are within the limits.  Those two cases
fail: `C63_temperature_defect`, `C63_entropy_defect`. -/
theorem C63_unchanged_partial (E : Env) (S : Sys) (hU : Uses E S) (G : Gas) (hmw : G.mw ≠ 0)
    (varg : List (Val ℝ)) (kw : Kw) (a b : String) (va vb : Val ℝ)
    (h : Supplies varg kw a va b vb) (st : State) (hst : argparse E G varg kw = .ok st) :
    ((a = "s" → b ≠ "p") → (b = "s" → a ≠ "p") → st.callerS = none) ∧
    (a = "T" → (∀ x ∈ Val.elems va, G.Tlo ≤ toKelvin S.T.name x ∧ toKelvin S.T.name x ≤ G.Thi) →
      st.callerT = none ∨ st.callerT = some ((Val.elems va).map some)) ∧
    (a ≠ "T" → b ≠ "T" → st.callerT = none) := by
  have hab : a ≠ b := by simpa using h.ok.distinct
  have hst' := hst
  rw [argparse_pair hU hmw h] at hst'
  obtain ⟨st0, h0, h2⟩ := bind_ok hst'
  have hall : st.callerS = st0.callerS ∧ ∀ l, st.callerT = some l →
      ∃ l0, st0.callerT = some l0 ∧ (l = l0 ∨ l = l0.map (fun T => if oob G T then none else T)) := by
    unfold rangeTest at h2
    split at h2
    · cases h2
    · split at h2
      · cases h2
        refine ⟨rfl, fun l hl => ?_⟩
        cases hc : st0.callerT with
        | none => rw [hc] at hl; cases hl
        | some l0 =>
          rw [hc] at hl
          exact ⟨l0, rfl, Or.inr (Option.some.inj hl).symm⟩
      · cases h2
        exact ⟨rfl, fun l hl => ⟨l, hl, Or.inl rfl⟩⟩
  obtain ⟨hS, hC⟩ := hall
  unfold pre at h0
  obtain ⟨T, hT, h0⟩ := bind_ok h0
  obtain ⟨c1, c2⟩ := solve_caller h0
  obtain ⟨q1, q2, q3, q4⟩ := presence hT
  obtain ⟨k1, k2, k3⟩ := stdArg_of E S G.mw va vb hab
  have own : ∀ t, T = some t → t.own = true →
      ∃ A, (stdOf E S G.mw [(a, va), (b, vb)]).T = some A ∧ A.own = true ∧ t.xs = A.xs.map some := by
    intro t ht ho
    subst ht
    unfold tempOf at hT
    split at hT
    · obtain ⟨r, -, hT⟩ := bind_ok hT; cases hT; cases ho
    · split at hT
      · obtain ⟨r, -, hT⟩ := bind_ok hT; cases hT; cases ho
      · simp only [Except.ok.injEq, Option.map_eq_some_iff] at hT
        obtain ⟨A, hA, rfl⟩ := hT
        exact ⟨A, hA, ho, rfl⟩
  refine ⟨fun n1 n2 => ?_, fun ha hr => ?_, fun n1 n2 => ?_⟩
  · rw [hS]
    cases hc : st0.callerS with
    | none => rfl
    | some l =>
      exfalso
      obtain ⟨m1, m2⟩ := c2 (by rw [hc]; rfl)
      rw [q1] at m1
      rw [q3] at m2
      simp only [Bool.or_eq_true, beq_iff_eq] at m1 m2
      rcases m1 with m1 | m1 <;> rcases m2 with m2 | m2
      · rw [m1] at m2; exact absurd m2 (by decide)
      · exact n1 m1 m2
      · exact n2 m1 m2
      · rw [m1] at m2; exact absurd m2 (by decide)
  · cases hc : st.callerT with
    | none => exact Or.inl rfl
    | some l =>
      right
      obtain ⟨l0, hl0, hl⟩ := hC l hc
      obtain ⟨t, ht, ho, rfl⟩ := c1 l0 hl0
      obtain ⟨A, hA, hAo, hxs⟩ := own t ht ho
      subst ha
      have hA' : stdArg E S G.mw [("T", va), (b, vb)] "T" = some A := hA
      rw [k1] at hA'
      cases hA'
      simp only [Bool.and_eq_true, isInternal, beq_iff_eq] at hAo
      have hid : ∀ x : ℝ, toKelvin S.T.name x = x := by intro x; rw [hAo.2]; rfl
      have hx : t.xs = (Val.elems va).map some := by
        rw [hxs]
        congr 1
        exact (List.map_congr_left (g := id) (fun x _ => hid x)).trans (List.map_id _)
      rw [hx] at hl
      rcases hl with rfl | rfl
      · rfl
      · congr 1
        rw [List.map_map]
        refine List.map_congr_left (fun x hx => ?_)
        obtain ⟨r1, r2⟩ := hr x hx
        rw [hid] at r1 r2
        exact in_range_keep r1 r2
  · cases hc : st.callerT with
    | none => rfl
    | some l =>
      exfalso
      obtain ⟨l0, hl0, hl⟩ := hC l hc
      obtain ⟨t, ht, ho, rfl⟩ := c1 l0 hl0
      obtain ⟨A, hA, -, -⟩ := own t ht ho
      have hA' : stdArg E S G.mw [(a, va), (b, vb)] "T" = some A := hA
      rw [k3 "T" n1.symm n2.symm] at hA'
      cases hA'

/-- Working units kelvin, kJ, kmol; otherwise the standard configuration. -/
noncomputable def kmolEnv : Env where
  a := SetupArgs.default
  c := { defT := 298.15, defp := 1.01325, str := fun k => match k with
    | "unit_temperature" => .ok "K" | "unit_pressure" => .ok "Pa" | "unit_volume" => .ok "m3"
    | "unit_energy" => .ok "kJ" | "unit_matter" => .ok "kmol" | "def_T_unit" => .ok "K"
    | "def_p_unit" => .ok "bar" | _ => .error .param }
  cell := fun _ ws => ws.getLastD 0

def kmolSys : Sys := ⟨.K, "Pa", "m3", "kJ", "kmol"⟩

theorem kmolEnv_uses : Uses kmolEnv kmolSys where
  pos := by constructor <;> norm_num [kmolEnv, SetupArgs.default]
  valid := ⟨rfl, rfl, rfl, Or.inr rfl⟩
  T := rfl
  p := rfl
  v := rfl
  e := rfl
  m := rfl
  defT := ⟨.K, rfl⟩
  defp := ⟨"bar", rfl, rfl⟩

/-- A gas of constant heat capacity 30 kJ/kmol/K. -/
def constData : Data where
  Tlim := [200, 600]
  C := [⟨30, 0, 0, 0, 0, 0, 200⟩]
  mw := 28
  pref := 1e5

theorem constData_wf : WellFormed constData := by
  constructor <;> norm_num [constData]

/-- C63 fails for temperatures: with the working temperature unit kelvin, the element of the
caller's temperature array that is out of range is overwritten with NaN. -/
theorem C63_temperature_defect : ∃ st, argparse kmolEnv (ig constData) [.arr [100, 300], .scalar 1e5] [] = .ok st ∧
    st.callerT = some [none, some 300] := by
  have hsup : Supplies [.arr [100, 300], .scalar 1e5] [] "T" (.arr [100, 300]) "p" (.scalar 1e5) :=
    ⟨by simp, by simp [supplied], ⟨by simp, by simp, by simp, by simp, by simp⟩⟩
  have hmw : (ig constData).mw ≠ 0 := by norm_num [ig, constData]
  rw [argparse_pair kmolEnv_uses hmw hsup]
  have e1 : stdOf kmolEnv kmolSys (ig constData).mw [("T", .arr [100, 300]), ("p", .scalar 1e5)]
      = { T := some ⟨[100, 300], true⟩, p := some ⟨[internal kmolEnv.a kmolSys (ig constData).mw .pressure 1e5], false⟩ } := by
    simp only [stdOf, stdArg, List.lookup_cons, List.lookup_nil]
    rfl
  unfold pre
  rw [e1]
  have e2 : tempOf (ig constData) { T := some ⟨[100, 300], true⟩, p := some ⟨[internal kmolEnv.a kmolSys (ig constData).mw .pressure 1e5], false⟩ }
      = .ok (some ⟨[some 100, some 300], true, false⟩) := rfl
  rw [e2]
  simp only [exOk]
  unfold solve
  simp only [densityOf, broadcast, List.length_cons, List.length_nil, exOk]
  have o1 : oob (ig constData) (some 100) = true := by norm_num [oob, ig, constData]
  have o2 : oob (ig constData) (some 300) = false := by norm_num [oob, ig, constData]
  norm_num [rangeTest, o1, o2, exOk]

/-- C63 fails for entropies: with working units kJ, kmol and kelvin, a successful call with an array
of two or more entropies and a pressure adds `R ln(p/p_ref)` to every element of the caller's
array. -/
theorem C63_entropy_defect (G : Gas) (hmw : G.mw ≠ 0) (s : List ℝ) (hs : 2 ≤ s.length) (p : ℝ) (st : State)
    (hst : argparse kmolEnv G [] [("s", .arr s), ("p", .scalar p)] = .ok st) :
    st.callerS = some (s.map (fun x => x + Ru * Real.log (p / G.pref))) := by
  have hsup : Supplies [] [("s", .arr s), ("p", .scalar p)] "s" (.arr s) "p" (.scalar p) :=
    ⟨by simp, by simp [supplied], ⟨by simp, by simp, by simp, by simp, by simp⟩⟩
  rw [argparse_pair kmolEnv_uses hmw hsup] at hst
  obtain ⟨st0, h0, h2⟩ := bind_ok hst
  have hSS : st.callerS = st0.callerS := by
    unfold rangeTest at h2
    split at h2
    · cases h2
    · split at h2 <;> cases h2 <;> rfl
  have hm : s.map (internal kmolEnv.a kmolSys G.mw .entropy) = s := by
    rw [List.map_congr_left (g := id) (fun x _ => ?_), List.map_id]
    have e1 : size energy kmolSys.e = 1000 := rfl
    have e2 : size temperature kmolSys.T.name = 1.8 := rfl
    have e3 : msize kmolEnv.a G.mw kmolSys.m = 1 := by
      show ((matterScale (SetupArgs.default : SetupArgs ℝ) G.mw "kmol").getD 1) = 1
      have : matterScale (SetupArgs.default : SetupArgs ℝ) G.mw "kmol" = some 1 := rfl
      rw [this]; rfl
    norm_num [internal, e1, e2, e3]
  have hp : internal kmolEnv.a kmolSys G.mw .pressure p = p := by
    have : size (pressure kmolEnv.a) kmolSys.p = 1 := rfl
    simp [internal, this]
  have e1 : stdOf kmolEnv kmolSys G.mw [("s", .arr s), ("p", .scalar p)]
      = { s := some ⟨s, true⟩, p := some ⟨[p], false⟩ } := by
    have : stdOf kmolEnv kmolSys G.mw [("s", .arr s), ("p", .scalar p)]
      = { s := some ⟨s.map (internal kmolEnv.a kmolSys G.mw .entropy), true⟩, p := some ⟨[internal kmolEnv.a kmolSys G.mw .pressure p], false⟩ } := by
      simp only [stdOf, stdArg, List.lookup_cons, List.lookup_nil]
      rfl
    rw [this, hm, hp]
  unfold pre at h0
  rw [e1] at h0
  have e2 : tempOf G { s := some ⟨s, true⟩, p := some ⟨[p], false⟩ } = .ok none := rfl
  rw [e2, exOk] at h0
  unfold solve at h0
  simp only [densityOf] at h0
  have hb : broadcast s [p] = .ok (s, List.replicate s.length p) := by
    unfold broadcast
    rw [if_neg (by simp; omega)]
    match s, hs with
    | _ :: _ :: _, _ => rfl
  obtain ⟨⟨sb, pb⟩, hb', h0⟩ := bind_ok h0
  obtain ⟨sa, hsa, h0⟩ := bind_ok h0
  obtain ⟨r, hr, h0⟩ := bind_ok h0
  cases h0
  have hsa' : sa = s.map (fun x => x + Ru * Real.log (p / G.pref)) := by
    unfold adjustS at hsa
    rw [hb, exOk] at hsa
    match s, hs, hsa with
    | x :: y :: l, _, hsa =>
      simp only [Except.ok.injEq] at hsa
      rw [← hsa]
      refine List.ext_getElem? (fun i => ?_)
      simp only [List.getElem?_zipWith, List.getElem?_map, List.getElem?_replicate]
      by_cases hi : i < (x :: y :: l).length
      · rw [List.getElem?_eq_getElem hi, if_pos hi]; rfl
      · rw [List.getElem?_eq_none (by omega), if_neg hi]; rfl
  rw [hSS]
  simp only [if_true, hsa', Option.some.injEq]
  rw [List.take_of_length_le (by simp)]

/-! ## The default pressure of `T()` -/

theorem mT_density {E : Env} {S : Sys} (hU : Uses E S) {G : Gas} (hmw : G.mw ≠ 0) (d : ℝ) :
    mT E G [] [("d", .scalar d)] =
      if oob G (some (internal E.a S G.mw .pressure E.c.defp / (1000 * Ru * internal E.a S G.mw .density d)))
      then .error .param
      else .ok [some (inUnits E.a S G.mw .temperature
        (internal E.a S G.mw .pressure E.c.defp / (1000 * Ru * internal E.a S G.mw .density d)))] := by
  have hsup : Supplies [] [("p", .scalar E.c.defp), ("d", .scalar d)] "p" (.scalar E.c.defp) "d" (.scalar d) :=
    ⟨by simp, by simp [supplied], ⟨by simp, by simp, by simp, by simp, by simp⟩⟩
  rw [mT_eq hU]
  have hd : mTdefault E [] [("d", .scalar d)] = [("p", .scalar E.c.defp), ("d", .scalar d)] := by
    simp [mTdefault]
  rw [hd, argparse_pair hU hmw hsup]
  have e1 : stdOf E S G.mw [("p", .scalar E.c.defp), ("d", .scalar d)]
      = { p := some ⟨[internal E.a S G.mw .pressure E.c.defp], false⟩, d := some ⟨[internal E.a S G.mw .density d], false⟩ } := by
    simp only [stdOf, stdArg, List.lookup_cons, List.lookup_nil]
    rfl
  unfold pre
  rw [e1]
  have e2 : tempOf G { p := some ⟨[internal E.a S G.mw .pressure E.c.defp], false⟩, d := some ⟨[internal E.a S G.mw .density d], false⟩ }
      = .ok none := rfl
  rw [e2, exOk]
  unfold solve
  simp only [densityOf, broadcast, List.length_singleton, if_true, exOk]
  rw [range_scalar (v := some (internal E.a S G.mw .pressure E.c.defp / (1000 * Ru * internal E.a S G.mw .density d)))
    (by simp)]
  split
  · rw [exErr]
  · rw [exOk]; rfl

/-- The configuration `kmolEnv` with pressures in bar. -/
noncomputable def barEnv : Env where
  a := SetupArgs.default
  c := { defT := 298.15, defp := 1.01325, str := fun k => match k with
    | "unit_temperature" => .ok "K" | "unit_pressure" => .ok "bar" | "unit_volume" => .ok "m3"
    | "unit_energy" => .ok "kJ" | "unit_matter" => .ok "kmol" | "def_T_unit" => .ok "K"
    | "def_p_unit" => .ok "bar" | _ => .error .param }
  cell := fun _ ws => ws.getLastD 0

def barSys : Sys := ⟨.K, "bar", "m3", "kJ", "kmol"⟩

theorem barEnv_uses : Uses barEnv barSys where
  pos := by constructor <;> norm_num [barEnv, SetupArgs.default]
  valid := ⟨rfl, rfl, rfl, Or.inr rfl⟩
  T := rfl
  p := rfl
  v := rfl
  e := rfl
  m := rfl
  defT := ⟨.K, rfl⟩
  defp := ⟨"bar", rfl, rfl⟩

/-- C37 fails for `T()` with a single argument.  Two configurations that differ only in the
working pressure unit (bar, Pa), with the same default pressure 1.01325 stored in bar: the same
density gives 300 K under the first and a parameter error under the second, because the stored
number is used without conversion. -/
theorem C37_T_default_defect : ∃ d : ℝ, 0 < d ∧
    mT barEnv (ig constData) [] [("d", .scalar d)] = .ok [some 300] ∧
    mT kmolEnv (ig constData) [] [("d", .scalar d)] = .error .param := by
  have hmw : (ig constData).mw ≠ 0 := by norm_num [ig, constData]
  have hRu : (0:ℝ) < Ru := by norm_num [Ru, const_Ru, const_k, const_Na]
  have p1 : internal barEnv.a barSys (ig constData).mw .pressure barEnv.c.defp = 101325 := by
    have : size (pressure barEnv.a) barSys.p = 1e5 := rfl
    simp only [internal]
    rw [this]
    norm_num [barEnv]
  have p2 : internal kmolEnv.a kmolSys (ig constData).mw .pressure kmolEnv.c.defp = 1.01325 := by
    have : size (pressure kmolEnv.a) kmolSys.p = 1 := rfl
    simp only [internal]
    rw [this]
    norm_num [kmolEnv]
  have dd : ∀ d : ℝ, internal barEnv.a barSys (ig constData).mw .density d = d := by
    intro d
    have e1 : size volume barSys.v = 1 ^ 3 := rfl
    have e3 : msize barEnv.a (ig constData).mw barSys.m = 1 := by
      have : matterScale (SetupArgs.default : SetupArgs ℝ) (ig constData).mw "kmol" = some 1 := rfl
      show ((matterScale (SetupArgs.default : SetupArgs ℝ) (ig constData).mw "kmol").getD 1) = 1
      rw [this]; rfl
    norm_num [internal, e1, e3]
  have dd2 : ∀ d : ℝ, internal kmolEnv.a kmolSys (ig constData).mw .density d = d := dd
  refine ⟨101325 / (1000 * Ru * 300), by positivity, ?_, ?_⟩
  · rw [mT_density barEnv_uses hmw, p1, dd]
    have e : (101325:ℝ) / (1000 * Ru * (101325 / (1000 * Ru * 300))) = 300 := by field_simp
    rw [e]
    have o : oob (ig constData) (some 300) = false := by norm_num [oob, ig, constData]
    rw [o]
    rfl
  · rw [mT_density kmolEnv_uses hmw, p2, dd2]
    have e : (1.01325:ℝ) / (1000 * Ru * (101325 / (1000 * Ru * 300))) = 0.003 := by
      field_simp; norm_num
    rw [e]
    have o : oob (ig constData) (some 0.003) = true := by norm_num [oob, ig, constData]
    rw [o]
    rfl

end PyroMat.Gas.Props
