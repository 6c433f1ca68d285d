import Verif.Gas.Examples
import Verif.Shipped.PropsEntropy

/-!
# The hypotheses of C103 are met
-/

set_option linter.unusedSimpArgs false

namespace PyroMat.Shipped.Props

open PyroMat PyroMat.Units PyroMat.Units.Spec PyroMat.Units.Props PyroMat.Gas PyroMat.Gas.Spec
  PyroMat.Gas.Props PyroMat.Shipped

/-- An inversion that starts at the answer ends at once, without a warning. -/
theorem iter1_here {g : ℝ → Option (ℝ × ℝ)} {lo hi x c : ℝ} (hl : lo ≤ hi)
    (h : g (0.5 * (lo + hi)) = some (x, c)) (hc : c ≠ 0) :
    iter1 [(g, x)] (0.5 * (lo + hi)) lo hi = .ok ([some (0.5 * (lo + hi))], false) := by
  set t := 0.5 * (lo + hi) with ht
  have t1 : lo ≤ t := by rw [ht]; norm_num; linarith
  have t2 : t ≤ hi := by rw [ht]; norm_num; linarith
  have hlo : ¬ (t < lo ∨ t > hi) := by
    rintro (h | h) <;> linarith
  have hs : stepEl 1e-6 lo hi 20 ⟨g, x, some t, true⟩ = .ok ⟨g, x, some t, false⟩ := by
    unfold stepEl
    simp only [if_true, h, if_neg hc, sub_self, zero_div, add_zero, abs_zero]
    unfold halve
    rw [if_neg hlo, exOk]
    simp
    positivity
  unfold iter1
  simp only [List.map_cons, List.map_nil]
  unfold iterLoop
  simp only [List.any_cons, List.any_nil, Bool.or_false, if_true, List.mapM_cons, List.mapM_nil, hs, exOk]
  unfold iterLoop
  simp [exOk, pure, Except.pure]

/-- For every shipped gas, the entropy at its middle temperature and the pressure `p`: a call that prints no
warning. -/
theorem middle_entropy (f : File) (hf : f ∈ shipped) (p : ℝ) : ∃ x st,
    mS kmolEnv f.gas [.scalar (0.5 * (f.gas.Tlo + f.gas.Thi)), .scalar p] [] = .ok [some x] ∧
    argparse kmolEnv f.gas [] [("s", .scalar x), ("p", .scalar p)] = .ok st ∧ st.T.length = 1 ∧ st.warned = false := by
  obtain ⟨b, hb⟩ := shipped_checked f hf
  have hmw := (gas_mw_pos hb).ne'
  have hl := limits_le hb
  set t := 0.5 * (f.gas.Tlo + f.gas.Thi) with ht
  have t1 : f.gas.Tlo ≤ t := by rw [ht]; norm_num; linarith
  have t2 : t ≤ f.gas.Thi := by rw [ht]; norm_num; linarith
  obtain ⟨q1, -, s, cp, e, -, l, -⟩ := s_size hf hb t t1 t2
  have h233 : (233 : ℝ) ≤ b.1 := by exact_mod_cast (check_nums hb).1
  have hR : 0 < Ru := Shipped.Ru_pos
  have b0 : (0 : ℝ) < b.1 := by linarith
  have hc : cp / t ≠ 0 := (div_pos (lt_of_lt_of_le (by positivity) l) (by linarith)).ne'
  set P := internal kmolEnv.a kmolSys f.gas.mw .pressure p with hP
  set x := inUnits kmolEnv.a kmolSys f.gas.mw .entropy (s - Ru * Real.log (P / f.gas.pref)) with hx
  have hsup : Supplies [] [("s", .scalar x), ("p", .scalar p)] "s" (.scalar x) "p" (.scalar p) :=
    ⟨by simp, by simp [supplied], ⟨by simp, by simp, by simp, by simp, by simp⟩⟩
  have hK : ∀ x : ℝ, toKelvin kmolSys.T.name x = x := fun x => rfl
  refine ⟨x, ?_⟩
  suffices hsuf : ∃ st, argparse kmolEnv f.gas [] [("s", .scalar x), ("p", .scalar p)] = .ok st ∧ st.T.length = 1 ∧
      st.warned = false by
    obtain ⟨st, hst⟩ := hsuf
    refine ⟨st, ?_, hst⟩
    have := method_Tp kmolEnv_uses hmw t p (by rw [hK]; exact t1) (by rw [hK]; exact t2) .s
    rw [hK] at this
    simp only [value, Gas.sI, e, Option.bind_some, Option.map_some, ← hP, ← hx] at this
    exact this
  rw [argparse_pair kmolEnv_uses hmw hsup]
  have e1 : stdOf kmolEnv kmolSys f.gas.mw [("s", .scalar x), ("p", .scalar p)]
      = { s := some ⟨[internal kmolEnv.a kmolSys f.gas.mw .entropy x], false⟩, p := some ⟨[P], false⟩ } := by
    simp only [stdOf, stdArg, List.lookup_cons, List.lookup_nil]
    rfl
  have hh : internal kmolEnv.a kmolSys f.gas.mw .entropy x + Ru * Real.log (P / f.gas.pref) = s := by
    rw [hx, internal_inUnits kmolEnv_uses hmw]
    ring
  have hit := iter1_here (g := f.gas.s) hl e hc
  rw [← ht] at hit
  unfold pre
  rw [e1]
  have e2 : tempOf f.gas { s := some ⟨[internal kmolEnv.a kmolSys f.gas.mw .entropy x], false⟩, p := some ⟨[P], false⟩ }
      = .ok none := rfl
  rw [e2, exOk]
  unfold solve
  simp only [densityOf, broadcast, adjustS, List.length_singleton, if_true, exOk, List.zipWith_cons_cons,
    List.zipWith_nil_right, lt_irrefl, if_false, List.map_cons, List.map_nil, hh, ← ht, hit]
  have o : oob f.gas (some t) = false := by simp [oob, t1, t2]
  rw [range_scalar (v := some t) (by simp), o]
  exact ⟨_, rfl, rfl, rfl⟩

/-- C103 instantiated for every shipped gas at 10 bar: both the entropy and the temperature come back. -/
example (f : File) (hf : f ∈ shipped) : ∃ t0 x y t R,
    mS kmolEnv f.gas [.scalar t0, .scalar 10] [] = .ok [some x] ∧
    Gives kmolEnv f.gas [] [("s", .scalar x), ("p", .scalar 10)] .s 0 y ∧
    Gives kmolEnv f.gas [] [("s", .scalar x), ("p", .scalar 10)] .T 0 t ∧ 0 < R ∧
    |y - x| ≤ 8.1e-6 * |x + R * Real.log (internal kmolEnv.a kmolSys f.gas.mw .pressure 10 / f.gas.pref)|
      + |inUnits kmolEnv.a kmolSys f.gas.mw .entropy 0.08| ∧
    2.33 * R * |Real.log (toKelvin kmolSys.T.name t / toKelvin kmolSys.T.name t0)|
      ≤ 8.1e-6 * |x + R * Real.log (internal kmolEnv.a kmolSys f.gas.mw .pressure 10 / f.gas.pref)|
        + 2 * |inUnits kmolEnv.a kmolSys f.gas.mw .entropy 0.08| := by
  obtain ⟨b, hb⟩ := shipped_checked f hf
  have hmw := (gas_mw_pos hb).ne'
  obtain ⟨x, st, h0, hst, hT, hw⟩ := middle_entropy f hf 10
  have hsup : Supplies [] [("s", .scalar x), ("p", .scalar 10)] "s" (.scalar x) "p" (.scalar 10) :=
    ⟨by simp, by simp [supplied], ⟨by simp, by simp, by simp, by simp, by simp⟩⟩
  have hgood := good_of_pair kmolEnv_uses hmw hsup hst
  have hq : Silent kmolEnv f.gas [] [("s", .scalar x), ("p", .scalar 10)] := by
    intro st' h'
    rw [hst] at h'; cases h'; exact hw
  have hone : (Val.elems (.scalar x : Val ℝ)).length ≠ 1 ∨ (Val.elems (.scalar 10 : Val ℝ)).length ≤ 1 := Or.inr (by simp [Val.elems])
  obtain ⟨ss, h1, h2, -⟩ := method_rows kmolEnv_uses hmw (by simp) hst hgood .s
  have hlen : 0 < ss.length := by rw [h2, hT]; norm_num
  obtain ⟨x', p', y, hx', hp', hy, hbd⟩ := C103_given_entropy_pressure_partial f hf kmolEnv kmolSys kmolEnv_uses [] _ _ _ hsup hone hq
    _ (mR_eq kmolEnv_uses hmw) ss h1 0 hlen
  have ex : x' = x := by simpa [nth, Val.elems] using hx'.symm
  have ep : p' = 10 := by simpa [nth, Val.elems] using hp'.symm
  subst ex ep
  obtain ⟨Ts, k1, k2, k3⟩ := method_rows kmolEnv_uses hmw (by simp) hst hgood .T
  obtain ⟨st', T, P, D', hst', hg, hr, hval, -⟩ := same_row kmolEnv_uses hmw hsup (q := .s) h1 hy
  have vy := hval .s _ _ h1 hy
  cases T with
  | none => simp [value, Gas.sI] at vy
  | some T0 =>
    have hTs : Gives kmolEnv f.gas [] [("s", .scalar x'), ("p", .scalar 10)] .T 0
        (inUnits kmolEnv.a kmolSys f.gas.mw .temperature T0) := by
      rw [hst] at hst'; cases hst'
      exact ⟨Ts, k1, by rw [k3 0 _ _ _ hr]; simp [value]⟩
    obtain ⟨R, r0, r1, r2⟩ := C103_temperature_from_entropy_partial f hf kmolEnv kmolSys kmolEnv_uses [] _ _ _ hsup hone hq 0 _ hTs
      _ _ x' (by simp [nth, Val.elems]) (by simp [nth, Val.elems]) h0
    rw [mR_eq kmolEnv_uses hmw] at r0
    cases r0
    exact ⟨_, x', y, _, _, h0, ⟨ss, h1, hy⟩, hTs, r1, hbd, r2⟩

/-- For every shipped gas, the entropy at its middle temperature and the density 0.02 kmol/m³: a call that prints no
warning. -/
theorem middle_entropy_density (f : File) (hf : f ∈ shipped) (d : ℝ) : ∃ x st,
    argparse kmolEnv f.gas [] [("s", .scalar x), ("d", .scalar d)] = .ok st ∧ st.T.length = 1 ∧ st.warned = false := by
  obtain ⟨b, hb⟩ := shipped_checked f hf
  have hmw := (gas_mw_pos hb).ne'
  have hl := limits_le hb
  set t := 0.5 * (f.gas.Tlo + f.gas.Thi) with ht
  have t1 : f.gas.Tlo ≤ t := by rw [ht]; norm_num; linarith
  have t2 : t ≤ f.gas.Thi := by rw [ht]; norm_num; linarith
  obtain ⟨q1, -, s, cp, e, -, l, -⟩ := s_size hf hb t t1 t2
  have h233 : (233 : ℝ) ≤ b.1 := by exact_mod_cast (check_nums hb).1
  have hR : 0 < Ru := Shipped.Ru_pos
  have t0 : 0 < t := by linarith
  have hcR : Ru < cp := by nlinarith
  have hc : cp / t - Ru / t ≠ 0 := by
    rw [← sub_div]
    exact (div_pos (by linarith) t0).ne'
  set D := internal kmolEnv.a kmolSys f.gas.mw .density d with hD
  set s' := s - Ru * Real.log (D * (1000 * Ru) * t / f.gas.pref) with hs'
  have e' : f.gas.sditer D t = some (s', cp / t - Ru / t) := by
    simp only [Gas.sditer, e, Option.map_some, hs']
  set x := inUnits kmolEnv.a kmolSys f.gas.mw .entropy s' with hx
  have hsup : Supplies [] [("s", .scalar x), ("d", .scalar d)] "s" (.scalar x) "d" (.scalar d) :=
    ⟨by simp, by simp [supplied], ⟨by simp, by simp, by simp, by simp, by simp⟩⟩
  refine ⟨x, ?_⟩
  rw [argparse_pair kmolEnv_uses hmw hsup]
  have hh : internal kmolEnv.a kmolSys f.gas.mw .entropy x = s' := by
    rw [hx, internal_inUnits kmolEnv_uses hmw]
  have e1 : stdOf kmolEnv kmolSys f.gas.mw [("s", .scalar x), ("d", .scalar d)]
      = { s := some ⟨[s'], false⟩, d := some ⟨[D], false⟩ } := by
    rw [← hh]
    simp only [stdOf, stdArg, List.lookup_cons, List.lookup_nil]
    rfl
  have hit := iter1_here (g := f.gas.sditer D) hl e' hc
  rw [← ht] at hit
  unfold pre
  rw [e1]
  have e2 : tempOf f.gas { s := some ⟨[s'], false⟩, d := some ⟨[D], false⟩ } = .ok none := rfl
  rw [e2, exOk]
  unfold solve
  simp only [densityOf, broadcast, List.length_singleton, if_true, exOk, List.zipWith_cons_cons,
    List.zipWith_nil_right, List.map_cons, List.map_nil, ← ht, hit]
  have o : oob f.gas (some t) = false := by simp [oob, t1, t2]
  rw [range_scalar (v := some t) (by simp), o]
  exact ⟨_, rfl, rfl, rfl⟩

/-- C103 instantiated for every shipped gas at 0.02 kmol/m³. -/
example (f : File) (hf : f ∈ shipped) : ∃ x y,
    Gives kmolEnv f.gas [] [("s", .scalar x), ("d", .scalar 0.02)] .s 0 y ∧
    |y - x| ≤ 1.01e-5 * |x| + |inUnits kmolEnv.a kmolSys f.gas.mw .entropy 0.08| := by
  obtain ⟨b, hb⟩ := shipped_checked f hf
  have hmw := (gas_mw_pos hb).ne'
  obtain ⟨x, st, hst, hT, hw⟩ := middle_entropy_density f hf 0.02
  have hsup : Supplies [] [("s", .scalar x), ("d", .scalar 0.02)] "s" (.scalar x) "d" (.scalar 0.02) :=
    ⟨by simp, by simp [supplied], ⟨by simp, by simp, by simp, by simp, by simp⟩⟩
  have hgood := good_of_pair kmolEnv_uses hmw hsup hst
  have hq : Silent kmolEnv f.gas [] [("s", .scalar x), ("d", .scalar 0.02)] := by
    intro st' h'
    rw [hst] at h'; cases h'; exact hw
  obtain ⟨ss, h1, h2, -⟩ := method_rows kmolEnv_uses hmw (by simp) hst hgood .s
  have hlen : 0 < ss.length := by rw [h2, hT]; norm_num
  obtain ⟨x', y, hx', hy, hbd⟩ := C103_given_entropy_density f hf kmolEnv kmolSys kmolEnv_uses [] _ _ _ hsup
    (by
      intro d hd
      have : d = 0.02 := by simpa [Val.elems] using hd
      subst this
      have : internal kmolEnv.a kmolSys f.gas.mw .density 0.02 = 0.02 := by
        have e1 : size volume kmolSys.v = 1 ^ 3 := rfl
        have e3 : msize kmolEnv.a f.gas.mw kmolSys.m = 1 := by
          have : matterScale (SetupArgs.default : SetupArgs ℝ) f.gas.mw "kmol" = some 1 := rfl
          show ((matterScale (SetupArgs.default : SetupArgs ℝ) f.gas.mw "kmol").getD 1) = 1
          rw [this]; rfl
        norm_num [internal, e1, e3]
      rw [this]; norm_num) hq ss h1 0 hlen
  have ex : x' = x := by simpa [nth, Val.elems] using hx'.symm
  subst ex
  exact ⟨x', y, ⟨ss, h1, hy⟩, hbd⟩

end PyroMat.Shipped.Props
