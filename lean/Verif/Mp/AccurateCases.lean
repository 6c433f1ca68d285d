import Verif.Mp.PropsAccurate

/-!
# Calls that meet the hypotheses of C70

A substance with the pressure of an ideal gas, for which every inversion converges in one step.
-/

set_option linter.unusedSimpArgs false

namespace PyroMat.Mp.Props

open PyroMat PyroMat.Units PyroMat.Units.Spec PyroMat.Units.Props PyroMat.Gas PyroMat.Gas.Spec
open PyroMat.Gas.Props PyroMat.Mp PyroMat.Mp.Spec PyroMat.Config.Defaults

/-- Pressure `T d`, energy `T`, entropy `1 - d`, with a critical temperature of 200 K. -/
noncomputable def gasSub : Sub where
  mw := 18
  Tlo := 250
  Thi := 1000
  plo := 0
  phi := 1e6
  dlo := 0
  dhi := 10000
  Tt := 100
  Tc := 200
  pt := 100
  pc := 200
  F := ⟨1, 1, 1, 1, 1, fun t d => ⟨d, 1 / t, 1, -(1 / t) ^ 2, 0, 0⟩, fun _ _ => ⟨0, 0, 0, 0, 0, 0⟩⟩
  ps := fun T => T
  dsl := fun T => 800 - T
  dsv := fun _ => 1
  psT := fun _ => 1
  dslT := fun _ => -1
  dsvT := fun _ => 0

theorem gas_good : GoodSub gasSub 50 := by
  refine ⟨⟨by norm_num [gasSub], fun T _ _ => by norm_num [gasSub], fun T _ h => ?_⟩, by norm_num [gasSub],
    by norm_num [gasSub], by norm_num [gasSub], by norm_num [gasSub], by norm_num [gasSub]⟩
  simp only [gasSub] at h ⊢; linarith

theorem gas_p (T d : ℝ) : gasSub.F.p T d = ⟨T * d, d, T⟩ := by
  simp [Fluid.p, gasSub, Fluid.ar]

theorem gas_e {T : ℝ} (h : T ≠ 0) (d : ℝ) : gasSub.F.e T d = ⟨T, 1, 0⟩ := by
  simp only [Fluid.e, gasSub, Fluid.ar, Fluid.ao, Q3.mk.injEq]
  refine ⟨by field_simp; norm_num, by field_simp; norm_num, by norm_num⟩

theorem gas_s {T : ℝ} (h : T ≠ 0) (d : ℝ) : (gasSub.F.s T d).v = 1 - d ∧ (gasSub.F.s T d).vd = -1 := by
  simp only [Fluid.s, gasSub, Fluid.ar, Fluid.ao]
  constructor <;> field_simp <;> norm_num

/-- Newton's step on a straight line. -/
theorem newton_line {c b x r : ℝ} {P : Prob} (hc : c ≠ 0) (hf : P.f x = c * x + b) (hd : P.df x = c)
    (hy : P.y = c * r + b) : newton P x = .fin r := by
  unfold newton
  rw [hd, if_neg hc, hf, hy]
  congr 1
  field_simp
  ring

theorem middle_same {s : HSt} {r : ℝ} (ha : s.xa = .fin r) (hb : s.xb = .fin r) : middle s = .fin r := by
  unfold middle
  rw [ha, hb]
  simp only [Cand.lt, lt_irrefl, decide_false]
  rcases lt_trichotomy r s.xc with h | h | h
  · simp [h, h.le, not_lt.mpr h.le]
  · simp [h]
  · simp [h, not_lt.mpr h.le]

theorem relGt_sub {a den ep : ℝ} (h : 0 ≤ ep) : ¬ relGt (a - a) den ep := by
  unfold relGt
  by_cases hd : den = 0 <;> simp [hd, h]

/-- The bracketed solver on a straight line finds the solution in one pass. -/
theorem hybrid_line {P : Prob} {c b r lo hi : ℝ} {x0 : Option ℝ} (N : Nat) (hc : c ≠ 0)
    (hf : ∀ x, lo ≤ x → x ≤ hi → P.f x = c * x + b ∧ P.df x = c) (hy : P.y = c * r + b) (h1 : lo < r) (h2 : r < hi) :
    ∃ f, noWarning (runHybrid N [⟨P, lo, hi, true, x0⟩]) = .ok f ∧ f 0 = some r := by
  have hlo := hf lo le_rfl (h1.trans h2).le
  have hhi := hf hi (h1.trans h2).le le_rfl
  have hr := hf r h1.le h2.le
  have na : newton P lo = .fin r := newton_line hc hlo.1 hlo.2 hy
  have nb : newton P hi = .fin r := newton_line hc hhi.1 hhi.2 hy
  have hu : ¬ unbracketed P lo hi := by
    unfold unbracketed
    rw [hlo.1, hhi.1, hy]
    rcases lt_or_gt_of_ne hc with hc | hc
    · have e1 : c * r + b ≤ c * lo + b := by nlinarith
      have e2 : ¬ c * r + b ≤ c * hi + b := by nlinarith
      exact fun h => e2 (h.mp e1)
    · have e1 : ¬ c * r + b ≤ c * lo + b := by nlinarith
      have e2 : c * r + b ≤ c * hi + b := by nlinarith
      exact fun h => e1 (h.mpr e2)
  have hg : guess (hstart P lo hi x0) = .fin r := by
    have ob : ¬ oob (hstart P lo hi x0) (.fin r) := by
      simp only [oob, hstart, Cand.lt]; push Not; exact ⟨h1.le, h2.le⟩
    unfold guess
    have ea : (hstart P lo hi x0).xa = .fin r := na
    have eb : (hstart P lo hi x0).xb = .fin r := nb
    rw [eb, if_neg ob, ea, if_neg ob, middle_same ea eb]
  have hs : hstep P 1e-6 (hstart P lo hi x0) = update P 1e-6 (hstart P lo hi x0) r := by
    have ha : (hstart P lo hi x0).active = true := rfl
    unfold hstep; rw [if_pos ha, hg]
  have hoff : (update P 1e-6 (hstart P lo hi x0) r).active = false := by
    unfold update
    simp only [decide_eq_false_iff_not, not_and]
    intro _
    rw [hr.1, hy]
    exact relGt_sub (by norm_num)
  have hloop1 : hloop 1e-6 (N + 1) [(P, hstart P lo hi x0)]
      = ([(P, update P 1e-6 (hstart P lo hi x0) r)], false) := by
    have h1 : hloop 1e-6 (N + 1) [(P, hstart P lo hi x0)] = hloop 1e-6 N [(P, hstep P 1e-6 (hstart P lo hi x0))] := by
      conv_lhs => unfold hloop
      rw [if_pos (by simp [hstart])]
      rfl
    rw [h1, hs]
    cases N with
    | zero => simp [hloop, hoff]
    | succ N => unfold hloop; rw [if_neg (by simp [hoff])]
  refine ⟨fun n => ([some r][n]?).getD none, ?_, rfl⟩
  · unfold runHybrid hybrid1
    rw [if_neg (by simp [hu])]
    have hi : hinit ⟨P, lo, hi, true, x0⟩ = (P, hstart P lo hi x0) := by
      unfold hinit; simp [hu]
    simp only [List.map_cons, List.map_nil, hi, hloop1, exOk]
    rfl

/-- What is passed on of an argument. -/
theorem arg_of {E : Env} {U : Sys} (hU : Uses E U) {mw : ℝ} (hmw : mw ≠ 0) {kw : Kw} {n : String} {u : ℝ}
    (h : kw.lookup n = some (.scalar (inUnitsKg E.a U mw (kindOf n) u))) : argKg E U mw kw n = some ⟨[u], false⟩ := by
  unfold argKg
  rw [h]
  show some (Arg.mk [internalKg E.a U mw (kindOf n) _] _) = _
  rw [internalKg_inUnitsKg hU hmw]
  rfl

theorem arg_none {E : Env} {U : Sys} {mw : ℝ} {kw : Kw} {n : String} (h : kw.lookup n = none) :
    argKg E U mw kw n = none := by
  unfold argKg; rw [h]; rfl

/-- A value in the units of the example. -/
noncomputable def out (n : String) (u : ℝ) : ℝ := inUnitsKg fullEnv.a exampleSys gasSub.mw (kindOf n) u

theorem si_out (m : MQuantity) (n : String) (u : ℝ) (h : m.kind = kindOf n) :
    si fullEnv exampleSys gasSub m (out n u) = u := by
  unfold si out; rw [h]; exact internalKg_inUnitsKg fullEnv_uses gas_good.dome.mw.ne' _ _

theorem gas_range {lo hi u : ℝ} (h1 : lo ≤ u) (h2 : u ≤ hi) :
    mpRange lo hi (some ⟨[u], false⟩) = .ok (some ⟨[some u], false⟩) := by
  rw [mpRange_some ⟨u, by simp, h1, h2⟩]
  simp [clip_of_mem h1 h2]

theorem gas_d {T p : ℝ} (hT : 250 ≤ T) (hT' : T ≤ 1000) (hp : 1000 ≤ p) (hp' : p ≤ 1e6) :
    ∃ f, noWarning (codeD gasSub [some (some T, some p)]) = .ok f ∧ f 0 = some (p / T) := by
  have h0 : (0 : ℝ) < T := by linarith
  have hst : dStart gasSub T p = (0.1 * p / T, 10000) := by
    unfold dStart
    rw [if_pos (by simp only [gasSub]; linarith)]
    simp [gasSub]
  have hlow : dLower gasSub T p (0.1 * p / T) = 0.1 * p / T := by
    have h : ¬ (gasSub.F.p T (0.1 * p / T / 2 ^ 0)).v > p := by
      rw [gas_p]
      have : T * (0.1 * p / T / 2 ^ 0) = 0.1 * p := by field_simp
      simp only [this]
      linarith
    unfold dLower
    have hex : ∃ n : Nat, ¬ (gasSub.F.p T (0.1 * p / T / 2 ^ n)).v > p := ⟨0, h⟩
    rw [dif_pos hex]
    have : Nat.find hex = 0 := (Nat.find_eq_zero hex).mpr h
    rw [this]
    norm_num
  unfold codeD
  have : [some (some T, some p)].map (dIn gasSub) = [⟨⟨fun d => (gasSub.F.p T d).v, fun d => (gasSub.F.p T d).vd, p⟩,
      0.1 * p / T, 10000, true, some 0⟩] := by
    simp only [List.map_cons, List.map_nil, dIn, hst, hlow]
  rw [this]
  refine hybrid_line 50 (c := T) (b := 0) h0.ne' (fun x _ _ => by simp [gas_p]) (by field_simp; simp) ?_ ?_
  · rw [div_lt_div_iff_of_pos_right h0]; linarith
  · rw [div_lt_iff₀ h0]; nlinarith

/-- The hypotheses of `C70_pressure` are met: 500 K and 10000 Pa, for which the density 20 kg/m3 is
found. -/
example : MpGives fullEnv gasSub (quietSol gasSub) [] [("T", .scalar (out "T" 500)), ("p", .scalar (out "p" 10000))]
      .T 0 (out "T" 500) ∧
    MpGives fullEnv gasSub (quietSol gasSub) [] [("T", .scalar (out "T" 500)), ("p", .scalar (out "p" 10000))]
      .d 0 (out "d" 20) ∧
    MpGives fullEnv gasSub (quietSol gasSub) [] [("T", .scalar (out "T" 500)), ("p", .scalar (out "p" 10000))]
      .x 0 (-1) ∧ gasSub.plo ≤ si fullEnv exampleSys gasSub .p (out "p" 10000) ∧
    si fullEnv exampleSys gasSub .p (out "p" 10000) ≤ gasSub.phi := by
  have hmw : gasSub.mw ≠ 0 := gas_good.dome.mw.ne'
  obtain ⟨f, hf, f0⟩ := gas_d (T := 500) (p := 10000) (by norm_num) (by norm_num) (by norm_num) (by norm_num)
  obtain ⟨o1, o2, hr⟩ : ∃ o1 o2, mpArgparse fullEnv gasSub (quietSol gasSub) []
      [("T", .scalar (out "T" 500)), ("p", .scalar (out "p" 10000))]
      = .ok { pts := [onePt (some 500) (some 20)], callerT := o1, callerP := o2 } := by
    rw [argparse_two fullEnv_uses hmw]
    have r : mpRules [("T", .scalar (out "T" 500)), ("p", .scalar (out "p" 10000))] = .ok () := by
      simp [mpRules, mpLegal, Kw.has, List.lookup]
    rw [r, exOk, parsed, arg_of fullEnv_uses hmw (n := "T") rfl, arg_of fullEnv_uses hmw (n := "p") rfl,
      gas_range (by norm_num [gasSub]) (by norm_num [gasSub]), exOk,
      gas_range (by norm_num [gasSub]) (by norm_num [gasSub]), exOk, arg_none (n := "x") rfl, arg_none (n := "d") rfl,
      arg_none (n := "v") rfl, arg_none (n := "e") rfl, arg_none (n := "h") rfl, arg_none (n := "s") rfl]
    refine ⟨none, none, ?_⟩
    have hd : (quietSol gasSub).d [some (some 500, some 10000)] = .ok f := hf
    simp only [mpQuality, exOk, mpDensity, mpInv, mpSolve, mpSolveBasic, mpTPX, broadcast, List.length_cons,
      List.length_nil, if_true, List.zip_cons_cons, List.zip_nil_right, List.map_cons, List.map_nil,
      show ((-1 : ℝ) < 0) from by norm_num, hd, List.mapIdx_cons, List.mapIdx_nil, f0]
    norm_num [ptTPX, badTX, onePt, NArg.mine]
  refine ⟨?_, ?_, ?_, ?_, ?_⟩
  · exact (gives_iff fullEnv_uses hmw hr (by simp) rfl _).mpr rfl
  · exact (gives_iff fullEnv_uses hmw hr (by simp) rfl _).mpr rfl
  · exact (gives_iff fullEnv_uses hmw hr (by simp) rfl _).mpr rfl
  · rw [si_out .p "p" _ rfl]; norm_num [gasSub]
  · rw [si_out .p "p" _ rfl]; norm_num [gasSub]

/-- The hypotheses of `C70_with_density` are met: energy 500 J/kg and density 20 kg/m3. -/
example : MpGives fullEnv gasSub (quietSol gasSub) [] [("e", .scalar (out "e" 500)), ("d", .scalar (out "d" 20))]
      .T 0 (out "T" 500) ∧
    MpGives fullEnv gasSub (quietSol gasSub) [] [("e", .scalar (out "e" 500)), ("d", .scalar (out "d" 20))]
      .d 0 (out "d" 20) := by
  have hmw : gasSub.mw ≠ 0 := gas_good.dome.mw.ne'
  obtain ⟨f, hf, f0⟩ : ∃ f, (quietSol gasSub).Thd .e [(500, 20)] = .ok f ∧ f 0 = some 500 := by
    refine hybrid_line (P := tdProb gasSub (gasSub.invQ .e) 20 500) 50 (c := 1) (b := 0) (by norm_num) ?_
      (by norm_num [tdProb]) (by norm_num [gasSub]) (by norm_num [gasSub])
    intro x h1 h2
    have h1 : (250 : ℝ) ≤ x := h1
    have ht : tditer gasSub (gasSub.invQ .e) x 20 = ⟨x, 1, 0⟩ := by
      unfold tditer
      rw [if_neg (by simp only [gasSub]; intro h; linarith [h.1])]
      exact gas_e (by linarith) _
    simp [tdProb, ht]
  obtain ⟨o, hr⟩ : ∃ o, mpArgparse fullEnv gasSub (quietSol gasSub) []
      [("e", .scalar (out "e" 500)), ("d", .scalar (out "d" 20))]
      = .ok { pts := [onePt (some 500) (some 20)], callerD := o } := by
    rw [argparse_two fullEnv_uses hmw]
    have r : mpRules [("e", .scalar (out "e" 500)), ("d", .scalar (out "d" 20))] = .ok () := by
      simp [mpRules, mpLegal, Kw.has, List.lookup]
    rw [r, exOk, parsed, arg_of fullEnv_uses hmw (n := "e") rfl, arg_of fullEnv_uses hmw (n := "d") rfl,
      arg_none (n := "T") rfl, arg_none (n := "p") rfl, mpRange_none, exOk, mpRange_none, exOk,
      arg_none (n := "x") rfl, arg_none (n := "v") rfl, arg_none (n := "h") rfl, arg_none (n := "s") rfl]
    refine ⟨none, ?_⟩
    have hs : satTD gasSub (satDens gasSub) (some 500) 20 = none := by norm_num [satTD, gasSub]
    simp only [mpQuality, exOk, mpDensity, mpInv, mpSolve, mpSolveInv, mpHD, broadcast, List.length_cons,
      List.length_nil, if_true, List.zip_cons_cons, List.zip_nil_right, hf, List.mapIdx_cons, List.mapIdx_nil, f0, hs]
    rfl
  exact ⟨(gives_iff fullEnv_uses hmw hr (by simp) rfl _).mpr rfl, (gives_iff fullEnv_uses hmw hr (by simp) rfl _).mpr rfl⟩

/-- The hypotheses of `C70_with_temperature` are met: entropy -19 J/kg/K at 500 K. -/
example : MpGives fullEnv gasSub (quietSol gasSub) [] [("s", .scalar (out "s" (-19))), ("T", .scalar (out "T" 500))]
      .T 0 (out "T" 500) ∧
    MpGives fullEnv gasSub (quietSol gasSub) [] [("s", .scalar (out "s" (-19))), ("T", .scalar (out "T" 500))]
      .d 0 (out "d" 20) ∧
    MpGives fullEnv gasSub (quietSol gasSub) [] [("s", .scalar (out "s" (-19))), ("T", .scalar (out "T" 500))]
      .x 0 (-1) := by
  have hmw : gasSub.mw ≠ 0 := gas_good.dome.mw.ne'
  obtain ⟨f, hf, f0⟩ : ∃ f, (quietSol gasSub).dhT .s [some (-19, some 500)] = .ok f ∧ f 0 = some 20 := by
    obtain ⟨f, hf, f0⟩ := hybrid_line (P := ⟨fun d => (gasSub.invQ .s 500 d).v, fun d => (gasSub.invQ .s 500 d).vd, -19⟩)
      (lo := 1) (hi := 10000) (x0 := none) (r := 20) 50 (c := -1) (b := 1) (by norm_num)
      (fun x _ _ => ⟨(gas_s (by norm_num) x).1.trans (by ring),
        (gas_s (by norm_num) x).2⟩) (by norm_num) (by norm_num) (by norm_num)
    refine ⟨f, ?_, f0⟩
    have hst : dhtStart gasSub .s (-19) 500 = (0, 10000) := by
      unfold dhtStart; rw [if_neg (by norm_num [gasSub])]; rfl
    have hlow : dhtLower gasSub .s (-19) 500 0 = .ok 1 := by
      unfold dhtLower
      rw [if_pos rfl]
      have : (0.9999 * gasSub.dlo + 0.0001 * gasSub.dhi : ℝ) = 1 := by norm_num [gasSub]
      rw [this]
      unfold dhtSearch
      rw [if_neg]
      show ¬ (gasSub.F.s 500 1).v < -19
      rw [(gas_s (by norm_num) 1).1]
      norm_num
    show noWarning (codeDhT gasSub .s [some (-19, some 500)]) = .ok f
    unfold codeDhT
    have : [some (-19, some 500)].mapM (dhtIn gasSub .s)
        = .ok [⟨⟨fun d => (gasSub.invQ .s 500 d).v, fun d => (gasSub.invQ .s 500 d).vd, -19⟩, 1, 10000, true, none⟩] := by
      simp only [List.mapM_cons, List.mapM_nil, dhtIn, hst, hlow, exOk]
      rfl
    rw [this, exOk]
    exact hf
  obtain ⟨o, hr⟩ : ∃ o, mpArgparse fullEnv gasSub (quietSol gasSub) []
      [("s", .scalar (out "s" (-19))), ("T", .scalar (out "T" 500))]
      = .ok { pts := [onePt (some 500) (some 20)], callerT := o } := by
    rw [argparse_two fullEnv_uses hmw]
    have r : mpRules [("s", .scalar (out "s" (-19))), ("T", .scalar (out "T" 500))] = .ok () := by
      simp [mpRules, mpLegal, Kw.has, List.lookup]
    rw [r, exOk, parsed, arg_of fullEnv_uses hmw (n := "T") rfl, arg_of fullEnv_uses hmw (n := "s") rfl,
      gas_range (by norm_num [gasSub]) (by norm_num [gasSub]), exOk, arg_none (n := "p") rfl, mpRange_none, exOk,
      arg_none (n := "x") rfl, arg_none (n := "d") rfl, arg_none (n := "v") rfl, arg_none (n := "h") rfl,
      arg_none (n := "e") rfl]
    refine ⟨none, ?_⟩
    have hs : satHT gasSub .s (-19, some 500) = none := by norm_num [satHT, gasSub]
    simp only [mpQuality, exOk, mpDensity, mpInv, mpSolve, mpSolveInv, mpHT, broadcast, List.length_cons,
      List.length_nil, if_true, List.zip_cons_cons, List.zip_nil_right, List.map_cons, List.map_nil, hs,
      Option.isSome_none, Bool.false_eq_true, if_false, hf, List.mapIdx_cons, List.mapIdx_nil, f0]
    rfl
  exact ⟨(gives_iff fullEnv_uses hmw hr (by simp) rfl _).mpr rfl, (gives_iff fullEnv_uses hmw hr (by simp) rfl _).mpr rfl,
    (gives_iff fullEnv_uses hmw hr (by simp) rfl _).mpr rfl⟩

/-- The hypotheses of `C70_saturated` are met: 150 Pa and quality 0.25. -/
example : MpGives fullEnv gasSub (quietSol gasSub) [] [("p", .scalar (out "p" 150)), ("x", .scalar 0.25)]
      .T 0 (out "T" 150) ∧
    (∃ D, MpGives fullEnv gasSub (quietSol gasSub) [] [("p", .scalar (out "p" 150)), ("x", .scalar 0.25)] .d 0 D) ∧
    MpGives fullEnv gasSub (quietSol gasSub) [] [("p", .scalar (out "p" 150)), ("x", .scalar 0.25)] .x 0 0.25 ∧
    gasSub.pt ≤ si fullEnv exampleSys gasSub .p (out "p" 150) ∧
    si fullEnv exampleSys gasSub .p (out "p" 150) ≤ gasSub.pc := by
  have hmw : gasSub.mw ≠ 0 := gas_good.dome.mw.ne'
  obtain ⟨f, hf, f0⟩ : ∃ f, (quietSol gasSub).Ts [some (some 150)] = .ok f ∧ f 0 = some 150 := by
    have hmid : gasSub.Tmid = 150 := by norm_num [Sub.Tmid, gasSub]
    have hstep : stepEl 1e-6 (gasSub.Tt * 0.99) gasSub.Tc 20 (tsEl gasSub (some (some 150)))
        = .ok ⟨fun T => some (gasSub.ps T, gasSub.psT T), 150, some 150, false⟩ := by
      have ha : (decide ((150 : ℝ) ≥ gasSub.pt ∧ (150 : ℝ) ≤ gasSub.pc)) = true := by
        norm_num [gasSub]
      unfold stepEl tsEl
      rw [hmid]
      simp only [ha, if_true]
      simp only [gasSub]
      norm_num [halve]
      rfl
    refine ⟨fun n => ([El.mk (fun T => some (gasSub.ps T, gasSub.psT T)) 150 (some 150) false][n]?).bind (·.x), ?_, rfl⟩
    · show noWarning (codeTs gasSub [some (some 150)]) = _
      unfold codeTs
      have : iterLoop 1e-6 (gasSub.Tt * 0.99) gasSub.Tc 20 20 [tsEl gasSub (some (some 150))]
          = .ok ([⟨fun T => some (gasSub.ps T, gasSub.psT T), 150, some 150, false⟩], false) := by
        unfold iterLoop
        rw [if_pos (by norm_num [tsEl, gasSub])]
        simp only [List.mapM_cons, List.mapM_nil, hstep, exOk, pure, Except.pure]
        show iterLoop 1e-6 (gasSub.Tt * 0.99) gasSub.Tc 20 19 _ = _
        unfold iterLoop
        rw [if_neg (by simp)]
      simp only [List.map_cons, List.map_nil, this, exOk]
      rfl
  obtain ⟨o, o', hr⟩ : ∃ o o', mpArgparse fullEnv gasSub (quietSol gasSub) []
      [("p", .scalar (out "p" 150)), ("x", .scalar 0.25)]
      = .ok { pts := [satPt gasSub (some 150) (some 0.25)], callerP := o, callerX := o' } := by
    rw [argparse_two fullEnv_uses hmw]
    have r : mpRules [("p", .scalar (out "p" 150)), ("x", .scalar 0.25)] = .ok () := by
      simp [mpRules, mpLegal, Kw.has, List.lookup]
    have ex : argKg fullEnv exampleSys gasSub.mw [("p", .scalar (out "p" 150)), ("x", .scalar 0.25)] "x"
        = some ⟨[0.25], false⟩ := by
      rfl
    rw [r, exOk, parsed, arg_of fullEnv_uses hmw (n := "p") rfl, arg_none (n := "T") rfl, mpRange_none, exOk,
      gas_range (by norm_num [gasSub]) (by norm_num [gasSub]), exOk, ex, arg_none (n := "s") rfl,
      arg_none (n := "d") rfl, arg_none (n := "v") rfl, arg_none (n := "h") rfl, arg_none (n := "e") rfl]
    refine ⟨none, none, ?_⟩
    have hpc : ¬ ((150 : ℝ) > gasSub.pc) := by norm_num [gasSub]
    have hq : mpQuality (some ⟨[0.25], false⟩) = .ok () := by
      unfold mpQuality; dsimp only; rw [if_neg (by norm_num)]
    rw [hq, exOk]
    have hx : ¬ ((0.25 : ℝ) < 0) := by norm_num
    simp only [exOk, mpDensity, mpInv, mpSolve, mpSolveBasic, mpPX, broadcast, List.length_cons,
      List.length_nil, if_true, List.zip_cons_cons, List.zip_nil_right, List.map_cons, List.map_nil, List.any_cons,
      List.any_nil, hpc, hx, decide_false, Bool.or_false, Bool.false_eq_true, if_false,
      hf, List.mapIdx_cons, List.mapIdx_nil, f0]
    rfl
  refine ⟨(gives_iff fullEnv_uses hmw hr (by simp) rfl _).mpr rfl, ?_,
    (gives_iff fullEnv_uses hmw hr (by simp) rfl _).mpr rfl, ?_, ?_⟩
  · exact ⟨_, (gives_iff fullEnv_uses hmw hr (by simp) rfl _).mpr rfl⟩
  · rw [si_out .p "p" _ rfl]; norm_num [gasSub]
  · rw [si_out .p "p" _ rfl]; norm_num [gasSub]

/-- The solver on a routine that is a straight line finds the solution in one pass. -/
theorem hybridB_line {F : Batch} {y lo hi : ℝ} (N : Nat) (h1 : lo < y) (h2 : y < hi)
    (hF : ∀ x, lo ≤ x → x ≤ hi → ∃ v, F [some (some x)] = .ok v ∧ v 0 = (some x, some 1)) :
    ∃ f, noWarning (hybridB F 1e-6 N [⟨y, some lo, some hi, true⟩]) = .ok f ∧ f 0 = some y := by
  obtain ⟨va, ha, ha0⟩ := hF lo le_rfl (h1.trans h2).le
  obtain ⟨vb, hb, hb0⟩ := hF hi (h1.trans h2).le le_rfl
  obtain ⟨vr, hr, hr0⟩ := hF y h1.le h2.le
  have hu : unbracketedB ⟨y, some lo, some hi, true⟩ (some lo, some 1) (some hi, some 1) = false := by
    unfold unbracketedB
    rw [decide_eq_false_iff_not]
    simp only [geB, ge_iff_le]
    intro h
    exact absurd (h.mpr h2.le) (not_le.mpr h1)
  have hn : ∀ x, newtonB y (some x) (some x, some 1) = .fin y := by
    intro x; simp [newtonB]
  obtain ⟨s, hs⟩ : ∃ s, s = hinitB ⟨y, some lo, some hi, true⟩ (some lo, some 1) (some hi, some 1) := ⟨_, rfl⟩
  have hact : s.active = true := by rw [hs]; simp [hinitB, hu]
  have ea : s.xa = .fin y := by rw [hs]; exact hn lo
  have eb : s.xb = .fin y := by rw [hs]; exact hn hi
  have hg : guess s = .fin y := by
    have ob : ¬ oob s (.fin y) := by
      rw [hs]; simp only [oob, hinitB, Cand.lt]; push Not; exact ⟨h1.le, h2.le⟩
    unfold guess
    rw [eb, if_neg ob, ea, if_neg ob, middle_same ea eb]
  have hask : askB s = some (some y) := by
    unfold askB; rw [if_pos hact, hg]; rfl
  have hstep : hstepB y 1e-6 s (some y, some 1) = updateB y 1e-6 s y (some y, some 1) := by
    unfold hstepB; rw [hask]
  have hoff : (updateB y 1e-6 s y (some y, some 1)).active = false := by
    unfold updateB
    simp only [Bool.and_eq_false_iff]
    right
    rw [decide_eq_false_iff_not]
    exact relGt_sub (by norm_num)
  have hloop1 : hloopB F 1e-6 (N + 1) [(y, s)] = .ok ([(y, updateB y 1e-6 s y (some y, some 1))], false) := by
    have e : hloopB F 1e-6 (N + 1) [(y, s)] = hloopB F 1e-6 N [(y, updateB y 1e-6 s y (some y, some 1))] := by
      conv_lhs => unfold hloopB
      rw [if_pos (by simp [hact])]
      simp only [List.map_cons, List.map_nil, hask, hr, exOk, List.mapIdx_cons, List.mapIdx_nil, hr0, hstep]
    rw [e]
    cases N with
    | zero => simp [hloopB, hoff]
    | succ N => unfold hloopB; rw [if_neg (by simp [hoff])]
  refine ⟨fun n => ([(y, updateB y 1e-6 s y (some y, some 1))][n]?).bind (·.2.x), ?_, rfl⟩
  unfold hybridB
  simp only [List.map_cons, List.map_nil, if_true, ha, hb, exOk, List.mapIdx_cons, List.mapIdx_nil, ha0, hb0, hu, ← hs,
    hloop1]
  rfl

/-- The hypotheses of `C70_with_pressure_partial` are met: energy 500 J/kg and 10000 Pa. -/
example : MpGives fullEnv gasSub (quietSol gasSub) [] [("e", .scalar (out "e" 500)), ("p", .scalar (out "p" 10000))]
      .T 0 (out "T" 500) ∧
    MpGives fullEnv gasSub (quietSol gasSub) [] [("e", .scalar (out "e" 500)), ("p", .scalar (out "p" 10000))]
      .d 0 (out "d" 20) ∧
    MpGives fullEnv gasSub (quietSol gasSub) [] [("e", .scalar (out "e" 500)), ("p", .scalar (out "p" 10000))]
      .x 0 (-1) ∧
    MpGives fullEnv gasSub (quietSol gasSub) [] [("e", .scalar (out "e" 500)), ("p", .scalar (out "p" 10000))]
      .e 0 (out "e" 500) := by
  have hmw : gasSub.mw ≠ 0 := gas_good.dome.mw.ne'
  obtain ⟨f, hf, f0⟩ := gas_d (T := 500) (p := 10000) (by norm_num) (by norm_num) (by norm_num) (by norm_num)
  have hbet : betweenP gasSub (some 10000) = false := by norm_num [betweenP, gasSub]
  obtain ⟨g, hg, g0⟩ : ∃ g, (quietSol gasSub).Thp .e [some (500, some 10000, none)] = .ok g ∧ g 0 = some 500 := by
    obtain ⟨g, hg, g0⟩ := hybridB_line (F := tpiter (fun q => noWarning (codeD gasSub q)) gasSub (gasSub.invQ .e)
      [some (some 10000)]) (y := 500) (lo := 250) (hi := 1000) 50 (by norm_num) (by norm_num) (by
        intro x h1 h2
        obtain ⟨d, hd, d0⟩ := gas_d (T := x) (p := 10000) h1 h2 (by norm_num) (by norm_num)
        refine ⟨fun n => tpSlope gasSub (gasSub.invQ .e) (([some (some x)][n]?).bind (·.bind id)) (d n), ?_, ?_⟩
        · unfold tpiter
          have : List.zipWith (fun (T p : Option Nan) => T.bind (fun T => p.map (fun p => (T, p)))) [some (some x)]
              [some (some 10000)] = [some (some x, some 10000)] := rfl
          simp only [this, hd, exOk]
        · have hx : x ≠ 0 := by linarith
          show tpSlope gasSub gasSub.F.e (some x) (d 0) = _
          rw [d0]
          simp only [tpSlope, gas_e hx, gas_p, quot, if_neg hx]
          norm_num)
    refine ⟨g, ?_, g0⟩
    show noWarning (codeThp (fun q => noWarning (codeD gasSub q)) gasSub .e [some (500, some 10000, none)]) = .ok g
    unfold codeThp
    have : thpLimits gasSub .e 500 (some 10000) none = (some 250, some 1000) := by
      unfold thpLimits; rw [hbet, if_neg (by simp)]; rfl
    simp only [List.map_cons, List.map_nil, thpIn, this, Option.map_some]
    exact hg
  obtain ⟨o, hr⟩ : ∃ o, mpArgparse fullEnv gasSub (quietSol gasSub) []
      [("e", .scalar (out "e" 500)), ("p", .scalar (out "p" 10000))]
      = .ok { pts := [onePt (some 500) (some 20)], callerP := o } := by
    rw [argparse_two fullEnv_uses hmw]
    have r : mpRules [("e", .scalar (out "e" 500)), ("p", .scalar (out "p" 10000))] = .ok () := by
      simp [mpRules, mpLegal, Kw.has, List.lookup]
    rw [r, exOk, parsed, arg_none (n := "T") rfl, mpRange_none, exOk, arg_of fullEnv_uses hmw (n := "p") rfl,
      gas_range (by norm_num [gasSub]) (by norm_num [gasSub]), exOk, arg_none (n := "x") rfl, arg_none (n := "d") rfl,
      arg_none (n := "v") rfl, arg_of fullEnv_uses hmw (n := "e") rfl, arg_none (n := "h") rfl, arg_none (n := "s") rfl]
    refine ⟨none, ?_⟩
    have hs : ∀ Ts, satHP gasSub .e Ts (500, some 10000) = none := by
      intro Ts; unfold satHP; rw [hbet, if_neg (by simp)]
    have hask : askTs (quietSol gasSub) (betweenP gasSub) [some 10000] = .ok (fun _ => none) := by
      unfold askTs; rw [if_neg (by simp [hbet])]
    have hd : (quietSol gasSub).d [some (some 500, some 10000)] = .ok f := hf
    simp only [mpQuality, exOk, mpDensity, mpInv, mpSolve, mpSolveInv, mpHP, broadcast, List.length_cons,
      List.length_nil, if_true, List.zip_cons_cons, List.zip_nil_right, hask, hs, Option.isSome_none,
      Bool.false_eq_true, if_false, hg, g0, hd, f0, List.mapIdx_cons, List.mapIdx_nil]
    norm_num [NArg.mine]
  refine ⟨(gives_iff fullEnv_uses hmw hr (by simp) rfl _).mpr rfl, (gives_iff fullEnv_uses hmw hr (by simp) rfl _).mpr rfl,
    (gives_iff fullEnv_uses hmw hr (by simp) rfl _).mpr rfl, (gives_iff fullEnv_uses hmw hr (by simp) rfl _).mpr ?_⟩
  show some (inUnitsKg fullEnv.a exampleSys gasSub.mw .energy (gasSub.F.e 500 20).v) = _
  rw [gas_e (by norm_num)]
  rfl

end PyroMat.Mp.Props
