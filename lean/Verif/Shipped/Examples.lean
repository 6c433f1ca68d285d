import Verif.Gas.Examples
import Verif.Shipped.PropsFall
import Verif.Shipped.PropsGas
import Verif.Shipped.PropsRound

/-!
# The hypotheses of C94, C95 and C96 are met
-/

set_option linter.unusedSimpArgs false

namespace PyroMat.Shipped.Props

open PyroMat PyroMat.Units PyroMat.Units.Spec PyroMat.Units.Props PyroMat.Gas PyroMat.Gas.Spec
  PyroMat.Gas.Props PyroMat.Shipped

/-- There are shipped gases of both classes: argon is one of class `ig2`, from 200 to 6000 K, and
`ig.Rb` one of class `ig`. -/
theorem shipped_argon : ∃ f ∈ shipped, f.id = "ig.Ar" ∧ f.gas.Tlo = 200 ∧ f.gas.Thi = 6000 := by
  have h : (shipped.any fun f => f.id == "ig.Ar" && mK (f.Tlim.headD ⟨0, 0⟩) == 200000
      && mK (f.Tlim.getLastD ⟨0, 0⟩) == 6000000) = true := by decide +kernel
  obtain ⟨f, hf, he⟩ := List.any_eq_true.mp h
  simp only [Bool.and_eq_true, beq_iff_eq] at he
  obtain ⟨b, hb⟩ := shipped_checked f hf
  have hok := walk_ok _ _ _ _ _ (check_walk hb)
  have hne : f.Tlim ≠ [] := by
    intro hc
    have := walk_length _ _ _ _ _ (check_walk hb)
    rw [hc] at this; simp at this
  have h1 : f.gas.Tlo = (f.Tlim.headD ⟨0, 0⟩).val := by
    rw [gas_Tlo]
    cases hl : f.Tlim with
    | nil => exact absurd hl hne
    | cons t ts => simp [File.data, hl]
  have h2 : f.gas.Thi = (f.Tlim.getLastD ⟨0, 0⟩).val := by
    rw [gas_Thi]
    simp only [File.data, List.getLastD_eq_getLast?, List.getLast?_map]
    cases hl : f.Tlim.getLast? with
    | none => rw [List.getLast?_eq_none_iff] at hl; exact absurd hl hne
    | some t => simp
  have m1 : f.Tlim.headD ⟨0, 0⟩ ∈ f.Tlim := by
    cases hl : f.Tlim with
    | nil => exact absurd hl hne
    | cons t ts => simp
  have m2 : f.Tlim.getLastD ⟨0, 0⟩ ∈ f.Tlim := by
    rw [List.getLastD_eq_getLast?, List.getLast?_eq_some_getLast hne, Option.getD_some]
    exact List.getLast_mem hne
  have v1 := (mK_val (hok _ m1)).1
  have v2 := (mK_val (hok _ m2)).1
  rw [he.1.2] at v1
  rw [he.2] at v2
  refine ⟨f, hf, he.1.1, ?_, ?_⟩
  · rw [h1]; push_cast at v1; linarith
  · rw [h2]; push_cast at v2; linarith

/-- A call that gives a state, for any shipped gas: its middle temperature. -/
example (f : File) (hf : f ∈ shipped) : ∃ t, Supplies [.scalar t, .scalar 1] [] "T" (.scalar t) "p" (.scalar 1) ∧
    Gives exampleEnv f.gas [.scalar t, .scalar 1] [] .T 0 t := by
  obtain ⟨b, hb⟩ := shipped_checked f hf
  have hl := limits_le hb
  have hK : ∀ x : ℝ, toKelvin exampleSys.T.name x = x := fun x => rfl
  refine ⟨(f.gas.Tlo + f.gas.Thi) / 2, supplies_Tp _ _, _,
    method_Tp exampleEnv_uses (gas_mw_pos hb).ne' _ 1 (by rw [hK]; linarith) (by rw [hK]; linarith) .T, ?_⟩
  have : ∀ x, inUnits exampleEnv.a exampleSys f.gas.mw .temperature x = x := fun x => rfl
  simp [value, this, hK]

/-- The inversion of an enthalpy converges at once, without a warning, at the middle temperature of
any gas whose enthalpy is regular. -/
theorem middle_enthalpy_of (G : Gas) (hmw : G.mw ≠ 0) (hl : G.Tlo ≤ G.Thi) (m M J : ℝ)
    (reg : Regular G.h G.Tlo G.Thi m M J) : ∃ x st, (∃ c, G.h (0.5 * (G.Tlo + G.Thi)) = some (x, c)) ∧
    argparse kmolEnv G [] [("h", .scalar x), ("p", .scalar 1e5)] = .ok st ∧ st.T.length = 1 ∧ st.warned = false := by
  set t := 0.5 * (G.Tlo + G.Thi) with ht
  have t1 : G.Tlo ≤ t := by rw [ht]; norm_num; linarith
  have t2 : t ≤ G.Thi := by rw [ht]; norm_num; linarith
  obtain ⟨x, c, hf0, hm⟩ := reg.slope t t1 t2
  have hc : c ≠ 0 := by
    rintro rfl
    have := reg.m_pos
    simp at hm
    linarith
  have hsup : Supplies [] [("h", .scalar x), ("p", .scalar 1e5)] "h" (.scalar x) "p" (.scalar 1e5) :=
    ⟨by simp, by simp [supplied], ⟨by simp, by simp, by simp, by simp, by simp⟩⟩
  suffices hsuf : ∃ st, argparse kmolEnv G [] [("h", .scalar x), ("p", .scalar 1e5)] = .ok st ∧ st.T.length = 1 ∧
      st.warned = false by
    obtain ⟨st, hst⟩ := hsuf
    exact ⟨x, st, ⟨c, hf0⟩, hst⟩
  rw [argparse_pair kmolEnv_uses hmw hsup]
  have hh : internal kmolEnv.a kmolSys G.mw .energy x = x := by
    have e1 : size energy kmolSys.e = 1000 := rfl
    have e3 : msize kmolEnv.a G.mw kmolSys.m = 1 := by
      have : matterScale (SetupArgs.default : SetupArgs ℝ) G.mw "kmol" = some 1 := rfl
      show ((matterScale (SetupArgs.default : SetupArgs ℝ) G.mw "kmol").getD 1) = 1
      rw [this]; rfl
    simp only [internal]
    rw [e1, e3]
    norm_num
  have e1 : stdOf kmolEnv kmolSys G.mw [("h", .scalar x), ("p", .scalar 1e5)]
      = { h := some ⟨[internal kmolEnv.a kmolSys G.mw .energy x], false⟩, p := some ⟨[internal kmolEnv.a kmolSys G.mw .pressure 1e5], false⟩ } := by
    simp only [stdOf, stdArg, List.lookup_cons, List.lookup_nil]
    rfl
  unfold pre
  rw [e1, hh]
  have hit : iter1 [(G.h, x)] t G.Tlo G.Thi = .ok ([some t], false) := by
    have hlo : ¬ (t < G.Tlo ∨ t > G.Thi) := by
      rintro (h | h) <;> linarith
    have hs : stepEl 1e-6 G.Tlo G.Thi 20 ⟨G.h, x, some t, true⟩
        = .ok ⟨G.h, x, some t, false⟩ := by
      unfold stepEl
      simp only [if_true, hf0, if_neg hc, sub_self, zero_div, add_zero, abs_zero]
      unfold halve
      rw [if_neg hlo, exOk]
      simp
      positivity
    unfold iter1
    simp only [List.map_cons, List.map_nil]
    unfold iterLoop
    simp only [List.any_cons, List.any_nil, Bool.or_false, if_true, List.mapM_cons, List.mapM_nil, hs, exOk]
    unfold iterLoop
    simp [exOk, pure, Except.pure]
  have e2 : ∀ p, tempOf G { h := some ⟨[x], false⟩, p := some ⟨[p], false⟩ }
      = .ok (some ⟨[some t], false, false⟩) := by
    intro p
    unfold tempOf
    simp only [List.map_cons, List.map_nil, ← ht, hit, exOk]
  rw [e2, exOk]
  unfold solve
  simp only [densityOf, broadcast, List.length_singleton, if_true, exOk]
  have o : oob G (some t) = false := by simp [oob, t1, t2]
  rw [range_scalar (v := some t) (by simp), o]
  exact ⟨_, rfl, rfl, rfl⟩

/-- The same for every shipped gas: a call to which C96 applies. -/
theorem middle_enthalpy (f : File) (hf : f ∈ shipped) : ∃ x st,
    (∃ c, f.gas.h (0.5 * (f.gas.Tlo + f.gas.Thi)) = some (x, c)) ∧
    argparse kmolEnv f.gas [] [("h", .scalar x), ("p", .scalar 1e5)] = .ok st ∧ st.T.length = 1 ∧ st.warned = false := by
  obtain ⟨b, hb⟩ := shipped_checked f hf
  exact middle_enthalpy_of _ (gas_mw_pos hb).ne' (limits_le hb) _ _ _ (regular_h hb)

/-- C96 instantiated for every shipped gas. -/
example (f : File) (hf : f ∈ shipped) : ∃ x hs y,
    mH kmolEnv f.gas [] [("h", .scalar x), ("p", .scalar 1e5)] = .ok hs ∧ hs[0]? = some (some y) ∧
    |y - x| ≤ 8e-6 * |x| + |inUnits kmolEnv.a kmolSys f.gas.mw .energy (if f.id = "ig.Rb" then 300 else 30)| := by
  obtain ⟨b, hb⟩ := shipped_checked f hf
  have hmw := (gas_mw_pos hb).ne'
  obtain ⟨x, st, -, hst, hT, hw⟩ := middle_enthalpy f hf
  have hsup : Supplies [] [("h", .scalar x), ("p", .scalar 1e5)] "h" (.scalar x) "p" (.scalar 1e5) :=
    ⟨by simp, by simp [supplied], ⟨by simp, by simp, by simp, by simp, by simp⟩⟩
  obtain ⟨hs, h1, h2, -⟩ := method_rows kmolEnv_uses hmw (by simp) hst (good_of_pair kmolEnv_uses hmw hsup hst) .h
  have hq : Silent kmolEnv f.gas [] [("h", .scalar x), ("p", .scalar 1e5)] := by
    intro st' h'
    rw [hst] at h'; cases h'; exact hw
  have hlen : 0 < hs.length := by rw [h2, hT]; norm_num
  obtain ⟨x', y, hx, hy, hbd⟩ := C96_given_enthalpy f hf kmolEnv kmolSys kmolEnv_uses [] _ "p" _ _ hsup hq hs h1 0 hlen
  have : x' = x := by simpa [nth, Val.elems] using hx.symm
  subst this
  exact ⟨x', hs, y, h1, hy, hbd⟩

/-- The round trip of C96 instantiated for every shipped gas. -/
example (f : File) (hf : f ∈ shipped) : ∃ t0 x t R,
    mH kmolEnv f.gas [.scalar t0, .scalar 1e5] [] = .ok [some x] ∧
    Gives kmolEnv f.gas [] [("h", .scalar x), ("p", .scalar 1e5)] .T 0 t ∧ 0 < R ∧
    2.33 * R * |t - t0| ≤ 8e-6 * |x| + 2 * |inUnits kmolEnv.a kmolSys f.gas.mw .energy (if f.id = "ig.Rb" then 300 else 30)| := by
  obtain ⟨b, hb⟩ := shipped_checked f hf
  have hmw := (gas_mw_pos hb).ne'
  have hl := limits_le hb
  obtain ⟨x, st, ⟨c, hc⟩, hst, hT, hw⟩ := middle_enthalpy f hf
  have hsup : Supplies [] [("h", .scalar x), ("p", .scalar 1e5)] "h" (.scalar x) "p" (.scalar 1e5) :=
    ⟨by simp, by simp [supplied], ⟨by simp, by simp, by simp, by simp, by simp⟩⟩
  have hgood := good_of_pair kmolEnv_uses hmw hsup hst
  have hq : Silent kmolEnv f.gas [] [("h", .scalar x), ("p", .scalar 1e5)] := by
    intro st' h'
    rw [hst] at h'; cases h'; exact hw
  have hK : ∀ x : ℝ, toKelvin kmolSys.T.name x = x := fun x => rfl
  have hh : inUnits kmolEnv.a kmolSys f.gas.mw .energy x = x := by
    have e1 : size energy kmolSys.e = 1000 := rfl
    have e3 : msize kmolEnv.a f.gas.mw kmolSys.m = 1 := by
      have : matterScale (SetupArgs.default : SetupArgs ℝ) f.gas.mw "kmol" = some 1 := rfl
      show ((matterScale (SetupArgs.default : SetupArgs ℝ) f.gas.mw "kmol").getD 1) = 1
      rw [this]; rfl
    simp only [inUnits]
    rw [e1, e3]
    norm_num
  have h0 : mH kmolEnv f.gas [.scalar (0.5 * (f.gas.Tlo + f.gas.Thi)), .scalar 1e5] [] = .ok [some x] := by
    have := method_Tp kmolEnv_uses hmw (0.5 * (f.gas.Tlo + f.gas.Thi)) 1e5
      (by rw [hK]; norm_num; linarith) (by rw [hK]; norm_num; linarith) .h
    rw [hK] at this
    simp only [value, Gas.hI, hc, Option.bind_some, Option.map_some, hh] at this
    exact this
  obtain ⟨hs, h1, h2, -⟩ := method_rows kmolEnv_uses hmw (by simp) hst hgood .h
  have hlen : 0 < hs.length := by rw [h2, hT]; norm_num
  obtain ⟨x', y, -, hy, -⟩ := C96_given_enthalpy f hf kmolEnv kmolSys kmolEnv_uses [] _ "p" _ _ hsup hq hs h1 0 hlen
  obtain ⟨Ts, k1, k2, k3⟩ := method_rows kmolEnv_uses hmw (by simp) hst hgood .T
  obtain ⟨st', T, P, D', hst', hg, hr, hval, -⟩ := same_row kmolEnv_uses hmw hsup (q := .h) h1 hy
  have vy := hval .h _ _ h1 hy
  cases T with
  | none => simp [value, Gas.hI] at vy
  | some T0 =>
    have hTs : Gives kmolEnv f.gas [] [("h", .scalar x), ("p", .scalar 1e5)] .T 0
        (inUnits kmolEnv.a kmolSys f.gas.mw .temperature T0) := by
      rw [hst] at hst'; cases hst'
      exact ⟨Ts, k1, by rw [k3 0 _ _ _ hr]; simp [value]⟩
    obtain ⟨R, -, r1, r2⟩ := C96_temperature_from_enthalpy f hf kmolEnv kmolSys kmolEnv_uses [] _ "p" _ _ hsup hq 0 _ hTs
      _ _ x (by simp [nth, Val.elems]) h0
    exact ⟨_, x, _, R, h0, hTs, r1, r2⟩

end PyroMat.Shipped.Props
