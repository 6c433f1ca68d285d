import Verif.Mp.PropsAnswer

/-!
# Calls that meet the hypotheses of C76 and C77

The substance of `AccurateCases` with data from 100 K up, so that calls below the critical temperature
(200 K) are possible.
-/

set_option linter.unusedSimpArgs false

namespace PyroMat.Mp.Props

open PyroMat PyroMat.Units PyroMat.Units.Spec PyroMat.Units.Props PyroMat.Gas PyroMat.Gas.Spec
open PyroMat.Gas.Props PyroMat.Mp PyroMat.Mp.Spec PyroMat.Config.Defaults

noncomputable def vapSub : Sub := { gasSub with Tlo := 100 }

theorem vap_good : GoodSub vapSub 50 := by
  refine ⟨⟨by norm_num [vapSub, gasSub], fun T _ _ => by norm_num [vapSub, gasSub], fun T _ h => ?_⟩,
    by norm_num [vapSub, gasSub], by norm_num [vapSub, gasSub], by norm_num [vapSub, gasSub],
    by norm_num [vapSub, gasSub], by norm_num [vapSub, gasSub]⟩
  simp only [vapSub, gasSub] at h ⊢; linarith

theorem vap_p (T d : ℝ) : vapSub.F.p T d = ⟨T * d, d, T⟩ := gas_p T d

theorem vap_e {T : ℝ} (h : T ≠ 0) (d : ℝ) : vapSub.inv .e T d = T := congrArg Q3.v (gas_e h d)

theorem vap_s {T : ℝ} (h : T ≠ 0) (d : ℝ) : vapSub.inv .s T d = 1 - d ∧ (vapSub.invQ .s T d).vd = -1 := gas_s h d

theorem si_vap (m : MQuantity) (n : String) (u : ℝ) (h : m.kind = kindOf n) :
    si fullEnv exampleSys vapSub m (out n u) = u := si_out m n u h

theorem vap_T (u : ℝ) : si fullEnv exampleSys vapSub .T (out "T" u) = u := si_vap .T "T" u rfl
theorem vap_P (u : ℝ) : si fullEnv exampleSys vapSub .p (out "p" u) = u := si_vap .p "p" u rfl
theorem vap_D (u : ℝ) : si fullEnv exampleSys vapSub .d (out "d" u) = u := si_vap .d "d" u rfl
theorem vap_S (u : ℝ) : si fullEnv exampleSys vapSub .s (out "s" u) = u := si_vap .s "s" u rfl

/-- Temperature and pressure: 75 Pa at 150 K is vapor. -/
theorem vap_vapor : OnePhase fullEnv vapSub (codeSol vapSub) [("T", .scalar (out "T" 150)), ("p", .scalar (out "p" 75))] := by
  refine C77_temperature_pressure fullEnv exampleSys fullEnv_uses vapSub 50 vap_good _ _ ?_ ?_ ?_ ?_ ?_ ?_ ?_ <;>
    simp only [vap_T, vap_P]
  iterate 6 norm_num [vapSub, gasSub]
  right; left
  refine ⟨by norm_num [vapSub, gasSub], by norm_num [vapSub, gasSub], fun d h0 hd => ?_, ?_⟩
  · rw [vap_p]; norm_num [vapSub, gasSub] at hd ⊢; linarith
  · rw [vap_p]; norm_num [vapSub, gasSub]

/-- 105000 Pa at 150 K is liquid. -/
theorem vap_liquid : OnePhase fullEnv vapSub (codeSol vapSub)
    [("T", .scalar (out "T" 150)), ("p", .scalar (out "p" 105000))] := by
  refine C77_temperature_pressure fullEnv exampleSys fullEnv_uses vapSub 50 vap_good _ _ ?_ ?_ ?_ ?_ ?_ ?_ ?_ <;>
    simp only [vap_T, vap_P]
  iterate 6 norm_num [vapSub, gasSub]
  right; right
  refine ⟨by norm_num [vapSub, gasSub], by norm_num [vapSub, gasSub], ?_, ?_⟩
  · rw [vap_p]; norm_num [vapSub, gasSub]
  · rw [vap_p]; norm_num [vapSub, gasSub]

/-- The temperature given is returned. -/
theorem vap_back {n : String} {y u : ℝ} {t : ℝ} (hn : n ≠ "T")
    (h : MpGives fullEnv vapSub (codeSol vapSub) [] [("T", .scalar (out "T" u)), (n, .scalar y)] .T 0 t) :
    t = out "T" u :=
  C69_direct fullEnv exampleSys fullEnv_uses vapSub 50 vap_good.dome (codeSol vapSub) (good_code vap_good) vap_good.min2
    [] _ (by simp [hn.symm]) .T (.inl rfl) (.scalar (out "T" u)) (by simp [supplied, MQuantity.name]) 0 _ _
    (by simp [Elem, Val.elems]) h

/-- The hypotheses of `C76_pressure` are met by a vapor. -/
example : ∃ T D, let kw : Kw := [("T", .scalar (out "T" 150)), ("p", .scalar (out "p" 75))]
    MpGives fullEnv vapSub (codeSol vapSub) [] kw .T 0 T ∧ MpGives fullEnv vapSub (codeSol vapSub) [] kw .d 0 D ∧
    MpGives fullEnv vapSub (codeSol vapSub) [] kw .x 0 (-1) ∧
    si fullEnv exampleSys vapSub .p (out "p" 75) < vapSub.ps (si fullEnv exampleSys vapSub .T T) ∧
    si fullEnv exampleSys vapSub .d D ≤ 1.01 * vapSub.dsv (si fullEnv exampleSys vapSub .T T) := by
  obtain ⟨T, D, hT, hD, hx⟩ := vap_vapor
  have e := vap_back (by decide) hT
  refine ⟨T, D, hT, hD, hx, ?_, ?_⟩
  · rw [e, vap_T, vap_P]; norm_num [vapSub, gasSub]
  · have := C76_pressure fullEnv exampleSys fullEnv_uses vapSub 50 vap_good [] _ (by decide) 0 T D (-1) hT hD hx (by norm_num)
      (.scalar (out "p" 75)) (by simp [supplied]) (by intro w; simp [supplied]) (out "p" 75) (by simp [Elem, Val.elems])
      (by rw [vap_P]; norm_num [vapSub, gasSub]) (by rw [vap_P]; norm_num [vapSub, gasSub])
      (by rw [e, vap_T]; norm_num [vapSub, gasSub]) (by rw [e, vap_T]; norm_num [vapSub, gasSub])
      (by norm_num [vapSub, gasSub])
    refine this.1 ?_ ?_
    · rw [e, vap_T, vap_P]; norm_num [vapSub, gasSub]
    · rw [e, vap_T, vap_P]; norm_num [vapSub, gasSub]

/-- The hypotheses of `C76_pressure` are met by a liquid. -/
example : ∃ T D, let kw : Kw := [("T", .scalar (out "T" 150)), ("p", .scalar (out "p" 105000))]
    MpGives fullEnv vapSub (codeSol vapSub) [] kw .T 0 T ∧ MpGives fullEnv vapSub (codeSol vapSub) [] kw .d 0 D ∧
    MpGives fullEnv vapSub (codeSol vapSub) [] kw .x 0 (-1) ∧ 643.5 ≤ si fullEnv exampleSys vapSub .d D := by
  obtain ⟨T, D, hT, hD, hx⟩ := vap_liquid
  have e := vap_back (by decide) hT
  refine ⟨T, D, hT, hD, hx, ?_⟩
  have := (C76_pressure fullEnv exampleSys fullEnv_uses vapSub 50 vap_good [] _ (by decide) 0 T D (-1) hT hD hx (by norm_num)
      (.scalar (out "p" 105000)) (by simp [supplied]) (by intro w; simp [supplied]) (out "p" 105000)
      (by simp [Elem, Val.elems])
      (by rw [vap_P]; norm_num [vapSub, gasSub]) (by rw [vap_P]; norm_num [vapSub, gasSub])
      (by rw [e, vap_T]; norm_num [vapSub, gasSub]) (by rw [e, vap_T]; norm_num [vapSub, gasSub])
      (by norm_num [vapSub, gasSub])).2 ?_ ?_ ?_
  · rw [e, vap_T] at this; norm_num [vapSub, gasSub] at this ⊢; exact this
  · rw [e, vap_T, vap_P]; norm_num [vapSub, gasSub]
  · rw [e, vap_T]; norm_num [vapSub, gasSub]
  · rw [e, vap_T, vap_P, vap_p]; norm_num [vapSub, gasSub]

/-- The hypotheses of `C77_with_density` are met: energy 500 J/kg and density 20 kg/m3. -/
example : Between (valueAt gasSub (gasSub.inv .e) gasSub.Tlo (si fullEnv exampleSys gasSub .d (out "d" 20)))
    (si fullEnv exampleSys gasSub Mp.Inv.e.quantity (out "e" 500))
    (valueAt gasSub (gasSub.inv .e) gasSub.Thi (si fullEnv exampleSys gasSub .d (out "d" 20))) := by
  have hv : ∀ T : ℝ, 250 ≤ T → valueAt gasSub (gasSub.inv .e) T (si fullEnv exampleSys gasSub .d (out "d" 20)) = T := by
    intro T hT
    unfold valueAt
    rw [if_neg (fun h => by have := h.1; simp only [gasSub] at this; linarith)]
    exact congrArg Q3.v (gas_e (by linarith) _)
  rw [hv _ (by norm_num [gasSub]), hv _ (by norm_num [gasSub]), show Mp.Inv.e.quantity = .e from rfl, si_out .e "e" _ rfl]
  left; norm_num [gasSub]

section
variable (u : ℝ)

theorem vap_slope : ∀ d, vapSub.inv .s (si fullEnv exampleSys vapSub .T (out "T" 150)) d = u →
    (vapSub.invQ .s (si fullEnv exampleSys vapSub .T (out "T" 150)) d).vd ≠ 0 := by
  intro d _
  rw [vap_T, (vap_s (by norm_num) d).2]; norm_num

end

/-- Entropy 0.6 J/kg/K at 150 K is vapor: the hypotheses of `C77_with_temperature` are met. -/
theorem vap_sT : OnePhase fullEnv vapSub (codeSol vapSub) [("s", .scalar (out "s" 0.6)), ("T", .scalar (out "T" 150))] := by
  have h0 : (150 : ℝ) ≠ 0 := by norm_num
  refine C77_with_temperature fullEnv exampleSys fullEnv_uses vapSub 50 vap_good .s _ _ ?_ ?_ (vap_slope _) ?_ <;>
    simp only [vap_T, Mp.Inv.quantity, vap_S]
  · norm_num [vapSub, gasSub]
  · norm_num [vapSub, gasSub]
  · left
    refine ⟨by norm_num [vapSub, gasSub], ?_, .inr (.inl ⟨?_, by norm_num [vapSub, gasSub], ?_, 2, by norm_num, ?_⟩)⟩ <;>
      simp only [(vap_s h0 _).1] <;> norm_num [vapSub, gasSub]

/-- Entropy -699 J/kg/K at 150 K is liquid. -/
theorem vap_sT_liquid : OnePhase fullEnv vapSub (codeSol vapSub)
    [("s", .scalar (out "s" (-699))), ("T", .scalar (out "T" 150))] := by
  have h0 : (150 : ℝ) ≠ 0 := by norm_num
  refine C77_with_temperature fullEnv exampleSys fullEnv_uses vapSub 50 vap_good .s _ _ ?_ ?_ (vap_slope _) ?_ <;>
    simp only [vap_T, Mp.Inv.quantity, vap_S]
  · norm_num [vapSub, gasSub]
  · norm_num [vapSub, gasSub]
  · left
    refine ⟨by norm_num [vapSub, gasSub], ?_, .inl ⟨?_, .inr ⟨?_, ?_⟩⟩⟩ <;>
      simp only [(vap_s h0 _).1] <;> norm_num [vapSub, gasSub]

/-- Entropy -100 J/kg/K at 150 K is a mixture. -/
example : Mixture fullEnv vapSub (codeSol vapSub) [("s", .scalar (out "s" (-100))), ("T", .scalar (out "T" 150))] := by
  have h0 : (150 : ℝ) ≠ 0 := by norm_num
  refine C77_with_temperature_saturated fullEnv exampleSys fullEnv_uses vapSub 50 vap_good .s _ _ ?_ ?_ ?_ ?_ <;>
    simp only [vap_T, Mp.Inv.quantity, vap_S]
  · norm_num [vapSub, gasSub]
  · norm_num [vapSub, gasSub]
  · norm_num [vapSub, gasSub]
  · simp only [(vap_s h0 _).1]; norm_num [vapSub, gasSub]

/-- The temperature given is returned. -/
theorem vap_back' {n : String} {y u : ℝ} {t : ℝ} (hn : n ≠ "T")
    (h : MpGives fullEnv vapSub (codeSol vapSub) [] [(n, .scalar y), ("T", .scalar (out "T" u))] .T 0 t) :
    t = out "T" u :=
  C69_direct fullEnv exampleSys fullEnv_uses vapSub 50 vap_good.dome (codeSol vapSub) (good_code vap_good) vap_good.min2
    [] _ (by simp [hn]) .T (.inl rfl) (.scalar (out "T" u)) (by simp [supplied, MQuantity.name]) 0 _ _
    (by simp [Elem, Val.elems]) h

/-- The hypotheses of `C76_with_temperature` are met by a vapor. -/
example : ∃ T D, let kw : Kw := [("s", .scalar (out "s" 0.6)), ("T", .scalar (out "T" 150))]
    MpGives fullEnv vapSub (codeSol vapSub) [] kw .T 0 T ∧ MpGives fullEnv vapSub (codeSol vapSub) [] kw .d 0 D ∧
    MpGives fullEnv vapSub (codeSol vapSub) [] kw .x 0 (-1) ∧ si fullEnv exampleSys vapSub .d D ≤ 1.01 := by
  obtain ⟨T, D, hT, hD, hx⟩ := vap_sT
  have e := vap_back' (by decide) hT
  refine ⟨T, D, hT, hD, hx, ?_⟩
  have := (C76_with_temperature fullEnv exampleSys fullEnv_uses vapSub 50 vap_good [] _ (by decide) 0 T D (-1) hT hD hx
    (by norm_num) .s (.scalar (out "s" 0.6)) (.scalar (out "T" 150)) (by simp [supplied, Mp.Inv.name]) (by simp [supplied])
    (out "s" 0.6) (by simp [Elem, Val.elems]) (by rw [e, vap_T]; norm_num [vapSub, gasSub])
    (by rw [e, vap_T]; norm_num)).1 ?_ ?_ ?_
  · rw [e, vap_T] at this; norm_num [vapSub, gasSub] at this ⊢; exact this
  · simp only [e, vap_T, Mp.Inv.quantity, vap_S]
    rw [(vap_s (by norm_num) _).1]; norm_num [vapSub, gasSub]
  · norm_num [vapSub, gasSub]
  · intro d hd
    simp only [e, vap_T, Mp.Inv.quantity, vap_S] at hd ⊢
    rw [(vap_s (by norm_num) _).1]; norm_num [vapSub, gasSub] at hd ⊢; linarith

/-! ### The saturation temperature of 150 Pa -/

theorem vap_Ts : ∃ f, (codeSol vapSub).Ts [some (some 150)] = .ok f ∧ f 0 = some 150 := by
  have e : tsEl vapSub (some (some 150)) = ⟨fun T => some (T, 1), 150, some 150, true⟩ := by
    simp only [tsEl, vapSub, gasSub, Sub.Tmid]; norm_num
  have hs : single 1e-6 (vapSub.Tt * 0.99) vapSub.Tc 20 20 ⟨fun T => some (T, 1), 150, some 150, true⟩
      = .ok (⟨fun T => some (T, 1), 150, some 150, false⟩, false) := by
    have st : stepEl 1e-6 (vapSub.Tt * 0.99) vapSub.Tc 20 ⟨fun T => some (T, 1), 150, some 150, true⟩
        = .ok ⟨fun T => some (T, 1), 150, some 150, false⟩ := by
      unfold stepEl halve
      norm_num [vapSub, gasSub]
      rfl
    rw [single_succ, st, exOk, single_inact rfl]
  refine ⟨fun n => ([(⟨fun T => some (T, 1), 150, some 150, false⟩ : El)][n]?).bind (·.x), ?_, rfl⟩
  show (codeTs vapSub _).map (·.1) = _
  unfold codeTs
  rw [iterLoop_eq, show List.map (tsEl vapSub) [some (some 150)] = [tsEl vapSub (some (some 150))] from rfl, e,
    List.mapM_cons, hs]
  rfl

theorem vap_sat : MpGives fullEnv vapSub (codeSol vapSub) [] [("p", .scalar (out "p" 150)), ("x", .scalar 0)] .T 0
    (out "T" 150) := by
  have hmw : vapSub.mw ≠ 0 := vap_good.dome.mw.ne'
  have hP : out "p" 150 * size (pressure fullEnv.a) exampleSys.p = 150 := vap_P 150
  obtain ⟨o1, o2, h⟩ := argparse_PX fullEnv_uses hmw (codeSol vapSub) (.scalar (out "p" 150)) (.scalar 0)
    ⟨150, List.mem_map.mpr ⟨_, by simp [Val.elems], hP⟩, by norm_num [vapSub, gasSub], by norm_num [vapSub, gasSub]⟩
    (by intro y hy; simp [Val.elems] at hy; subst hy; constructor <;> norm_num)
  obtain ⟨f, hf, hf0⟩ := vap_Ts
  have c : clip vapSub.plo vapSub.phi 150 = some 150 := clip_of_mem (by norm_num [vapSub, gasSub]) (by norm_num [vapSub, gasSub])
  have hpc : ¬ (150 : ℝ) > vapSub.pc := by norm_num [vapSub, gasSub]
  simp only [Val.elems, List.map_cons, List.map_nil, hP, c, mpPX, List.any_cons, List.any_nil, hpc, decide_false,
    Bool.or_self, Bool.false_eq_true, if_false, lt_irrefl, broadcast, List.length_cons, List.length_nil, if_true, exOk,
    hf, List.zip_cons_cons, List.zip_nil_right, List.mapIdx_cons, List.mapIdx_nil, hf0] at h
  exact (gives_iff fullEnv_uses hmw h (by simp) rfl _).mpr rfl

/-! ### Pressure and density -/

theorem vap_at {T d : ℝ} (h : d < 1) : valueAt vapSub (fun T d => (vapSub.F.p T d).v) T d = T * d := by
  unfold valueAt
  rw [if_neg (fun hc => by have := hc.2.1; simp only [vapSub, gasSub] at this; linarith)]
  simp only [vap_p]

/-- 150 Pa and 0.5 kg/m3: the hypotheses of `C77_pressure_density` are met. -/
theorem vap_pd : OnePhase fullEnv vapSub (codeSol vapSub) [("p", .scalar (out "p" 150)), ("d", .scalar (out "d" 0.5))] := by
  refine C77_pressure_density fullEnv exampleSys fullEnv_uses vapSub 50 vap_good _ _ ?_ ?_ ?_ <;>
    simp only [vap_P, vap_D]
  · norm_num [vapSub, gasSub]
  · norm_num [vapSub, gasSub]
  · right
    refine ⟨by norm_num [vapSub, gasSub], out "T" 150, vap_sat, ?_⟩
    rw [vap_T]
    refine ⟨by norm_num [vapSub, gasSub], .inl ⟨by norm_num [vapSub, gasSub], .inl ?_⟩⟩
    rw [vap_at (by norm_num), vap_at (by norm_num)]
    norm_num [vapSub, gasSub]

/-- 150 Pa and 10 kg/m3 is a mixture. -/
example : Mixture fullEnv vapSub (codeSol vapSub) [("p", .scalar (out "p" 150)), ("d", .scalar (out "d" 10))] := by
  refine C77_pressure_density_saturated fullEnv exampleSys fullEnv_uses vapSub 50 vap_good _ _ (out "T" 150)
    ?_ ?_ ?_ vap_sat ?_ ?_ <;> simp only [vap_P, vap_D, vap_T] <;> norm_num [vapSub, gasSub]

/-- The hypotheses of `C76_with_density` are met. -/
example : ∃ T D, let kw : Kw := [("p", .scalar (out "p" 150)), ("d", .scalar (out "d" 0.5))]
    MpGives fullEnv vapSub (codeSol vapSub) [] kw .T 0 T ∧ MpGives fullEnv vapSub (codeSol vapSub) [] kw .d 0 D ∧
    MpGives fullEnv vapSub (codeSol vapSub) [] kw .x 0 (-1) ∧ 148.5 ≤ si fullEnv exampleSys vapSub .T T := by
  obtain ⟨T, D, hT, hD, hx⟩ := vap_pd
  have e : D = out "d" 0.5 := C69_direct fullEnv exampleSys fullEnv_uses vapSub 50 vap_good.dome (codeSol vapSub)
    (good_code vap_good) vap_good.min2 [] _ (by decide) .d (.inr (.inl rfl)) (.scalar (out "d" 0.5))
    (by simp [supplied, MQuantity.name]) 0 _ _ (by simp [Elem, Val.elems]) hD
  refine ⟨T, D, hT, hD, hx, ?_⟩
  have := (C76_with_density fullEnv exampleSys fullEnv_uses vapSub 50 vap_good [] _ (by decide) 0 T D (-1) hT hD hx
    (by norm_num) (.scalar (out "p" 150)) (.scalar (out "d" 0.5)) (by simp [supplied]) (.inl (by simp [supplied]))
    (out "p" 150) (by simp [Elem, Val.elems]) (by rw [vap_P]; norm_num [vapSub, gasSub])
    (by rw [vap_P]; norm_num [vapSub, gasSub]) (by rw [vap_P]; norm_num [vapSub, gasSub]) (out "T" 150) vap_sat
    (by norm_num [vapSub, gasSub])).1 ?_
  · rw [vap_T] at this; norm_num at this ⊢; exact this
  · rw [e, vap_D]; norm_num [vapSub, gasSub]

/-! ### Pressure with entropy -/

theorem vap_d {T : ℝ} (h1 : 150 < T) (h2 : T ≤ 1000) :
    ∃ f w, codeD vapSub [some (some T, some 150)] = .ok (f, w) ∧ f 0 = some (150 / T) := by
  have h0 : (0 : ℝ) < T := by linarith
  have run : ∀ c b, dStart vapSub T 150 = (c * 150 / T, b) → c ≤ 1 / 2 → 150 / T < b →
      ∃ f w, codeD vapSub [some (some T, some 150)] = .ok (f, w) ∧ f 0 = some (150 / T) := by
    intro c b hst hc hb
    have hlow : dLower vapSub T 150 (c * 150 / T) = c * 150 / T := by
      have h : ¬ (vapSub.F.p T (c * 150 / T / 2 ^ 0)).v > 150 := by
        rw [vap_p]
        have : T * (c * 150 / T / 2 ^ 0) = c * 150 := by field_simp
        simp only [this]
        linarith
      unfold dLower
      have hex : ∃ n : Nat, ¬ (vapSub.F.p T (c * 150 / T / 2 ^ n)).v > 150 := ⟨0, h⟩
      rw [dif_pos hex, (Nat.find_eq_zero hex).mpr h, pow_zero, div_one]
    have : [some (some T, some 150)].map (dIn vapSub) = [⟨⟨fun d => (vapSub.F.p T d).v, fun d => (vapSub.F.p T d).vd, 150⟩,
        c * 150 / T, b, true, some 0⟩] := by
      simp only [List.map_cons, List.map_nil, dIn, hst, hlow]
    obtain ⟨f, hf, hf0⟩ := hybrid_line (P := ⟨fun d => (vapSub.F.p T d).v, fun d => (vapSub.F.p T d).vd, 150⟩)
      (lo := c * 150 / T) (hi := b) (x0 := some 0) 50 (c := T) (b := 0) (r := 150 / T)
      h0.ne' (fun x _ _ => by simp [vap_p]) (by field_simp; simp)
      (by rw [div_lt_div_iff_of_pos_right h0]; linarith) hb
    obtain ⟨w, hw⟩ : ∃ w, codeD vapSub [some (some T, some 150)] = .ok (f, w) := by
      unfold codeD
      rw [this]
      exact ⟨false, noWarning_ok hf⟩
    exact ⟨f, w, hw, hf0⟩
  by_cases hc : T < 200
  · refine run 0.5 1.01 ?_ (by norm_num) ?_
    · unfold dStart
      rw [if_neg (by simp only [vapSub, gasSub]; linarith)]
      rw [if_pos (by simpa only [vapSub, gasSub] using h1)]
      simp [vapSub, gasSub]
    · rw [div_lt_iff₀ h0]; linarith
  · refine run 0.1 10000 ?_ (by norm_num) ?_
    · unfold dStart
      rw [if_pos (by simp only [vapSub, gasSub]; linarith)]
      simp [vapSub, gasSub]
    · rw [div_lt_iff₀ h0]; linarith

theorem vap_tp {T : ℝ} (h1 : 150 < T) (h2 : T ≤ 1000) :
    MpGives fullEnv vapSub (codeSol vapSub) [] [("T", .scalar (out "T" T)), ("p", .scalar (out "p" 150))] .d 0
      (out "d" (150 / T)) ∧
    MpGives fullEnv vapSub (codeSol vapSub) [] [("T", .scalar (out "T" T)), ("p", .scalar (out "p" 150))] .s 0
      (out "s" (1 - 150 / T)) := by
  have hmw : vapSub.mw ≠ 0 := vap_good.dome.mw.ne'
  obtain ⟨f, w, hf, hf0⟩ := vap_d h1 h2
  have ha := argparse_TP fullEnv_uses hmw (codeSol vapSub) (out "T" T) (out "p" 150)
    (by rw [vap_T]; simp only [vapSub]; linarith) (by rw [vap_T]; exact h2) (by rw [vap_P]; norm_num [vapSub, gasSub])
    (by rw [vap_P]; norm_num [vapSub, gasSub])
  have hs : (codeSol vapSub).d [some (some T, some 150)] = .ok f := by
    show (codeD vapSub _).map (·.1) = _
    rw [hf]; rfl
  rw [vap_T, vap_P] at ha
  simp only [mpTPX, broadcast, List.length_cons, List.length_nil, if_true, exOk, List.zip_cons_cons, List.zip_nil_right,
    List.map_cons, List.map_nil, show ((-1 : ℝ) < 0) from by norm_num, hs, List.mapIdx_cons, List.mapIdx_nil, hf0] at ha
  have e : ptTPX vapSub (some (150 / T)) (some T) (-1) = onePt (some T) (some (150 / T)) := by
    norm_num [ptTPX, badTX, onePt]
  rw [e] at ha
  refine ⟨(gives_iff fullEnv_uses hmw ha (by simp) rfl _).mpr rfl, (gives_iff fullEnv_uses hmw ha (by simp) rfl _).mpr ?_⟩
  show some (inUnitsKg fullEnv.a exampleSys vapSub.mw .entropy (vapSub.inv .s T (150 / T))) = _
  rw [(vap_s (by linarith) _).1]
  rfl

/-- 150 Pa and entropy 0.5 J/kg/K: the hypotheses of `C77_with_pressure` are met. -/
theorem vap_sp : OnePhase fullEnv vapSub (codeSol vapSub) [("s", .scalar (out "s" 0.5)), ("p", .scalar (out "p" 150))] := by
  have hmw : vapSub.mw ≠ 0 := vap_good.dome.mw.ne'
  have h0 : (150 : ℝ) ≠ 0 := by norm_num
  refine C77_with_pressure fullEnv exampleSys fullEnv_uses vapSub 50 vap_good .s _ _ ?_ ?_ ?_ <;>
    simp only [vap_P, Mp.Inv.quantity, vap_S]
  · norm_num [vapSub, gasSub]
  · norm_num [vapSub, gasSub]
  right
  refine ⟨by norm_num [vapSub, gasSub], by norm_num [vapSub, gasSub], out "T" 150, vap_sat, ?_⟩
  rw [vap_T, (vap_s h0 _).1, (vap_s h0 _).1]
  refine ⟨by norm_num [vapSub, gasSub], .inl ⟨by norm_num [vapSub, gasSub], by norm_num [vapSub, gasSub],
    by norm_num [vapSub, gasSub], le_rfl, fun t h1 h2 => ?_, out "T" (150 * (1 + 1e-6)), out "T" 1000, _, _, vap_T _,
    vap_T _, (vap_tp (by norm_num) (by norm_num)).2, (vap_tp (by norm_num) (by norm_num)).2, .inl ?_⟩⟩
  · obtain ⟨T, hT⟩ : ∃ T, T = si fullEnv exampleSys vapSub .T t := ⟨_, rfl⟩
    have ht : t = out "T" T := by
      rw [hT]; exact (inUnitsKg_internalKg fullEnv_uses hmw _ _).symm
    rw [ht, vap_T] at h1 h2 ⊢
    have h3 : (150 : ℝ) < T := by
      refine lt_of_lt_of_le ?_ h1; norm_num
    refine ⟨_, (vap_tp h3 h2).1, ?_⟩
    rw [vap_p]
    exact (by linarith : (0 : ℝ) < T).ne'
  · simp only [Mp.Inv.quantity, vap_S]; norm_num

/-- 150 Pa and entropy -100 J/kg/K is a mixture. -/
example : Mixture fullEnv vapSub (codeSol vapSub) [("s", .scalar (out "s" (-100))), ("p", .scalar (out "p" 150))] := by
  have h0 : (150 : ℝ) ≠ 0 := by norm_num
  refine C77_with_pressure_saturated fullEnv exampleSys fullEnv_uses vapSub 50 vap_good .s _ _ (out "T" 150)
    ?_ ?_ ?_ ?_ vap_sat ?_ <;> simp only [vap_P, vap_T, Mp.Inv.quantity, vap_S, (vap_s h0 _).1] <;> norm_num [vapSub, gasSub]

/-- The hypotheses of `C76_with_pressure` are met. -/
example : ∃ T D, let kw : Kw := [("s", .scalar (out "s" 0.5)), ("p", .scalar (out "p" 150))]
    MpGives fullEnv vapSub (codeSol vapSub) [] kw .T 0 T ∧ MpGives fullEnv vapSub (codeSol vapSub) [] kw .d 0 D ∧
    MpGives fullEnv vapSub (codeSol vapSub) [] kw .x 0 (-1) ∧ 150 < si fullEnv exampleSys vapSub .T T := by
  obtain ⟨T, D, hT, hD, hx⟩ := vap_sp
  refine ⟨T, D, hT, hD, hx, ?_⟩
  have := (C76_with_pressure fullEnv exampleSys fullEnv_uses vapSub 50 vap_good [] _ (by decide) 0 T D (-1) hT hD hx
    (by norm_num) .s (.scalar (out "s" 0.5)) (.scalar (out "p" 150)) (by simp [supplied, Mp.Inv.name]) (by simp [supplied])
    (out "s" 0.5) (out "p" 150) (by simp [Elem, Val.elems]) (by simp [Elem, Val.elems])
    (by rw [vap_P]; norm_num [vapSub, gasSub]) (by rw [vap_P]; norm_num [vapSub, gasSub])
    (by rw [vap_P]; norm_num [vapSub, gasSub]) (by rw [vap_P]; norm_num [vapSub, gasSub]) (out "T" 150) vap_sat).1 ?_ ?_
  · rwa [vap_T] at this
  · simp only [vap_T, Mp.Inv.quantity, vap_S]
    rw [(vap_s (by norm_num) _).1]; norm_num [vapSub, gasSub]
  · rw [vap_T]; norm_num [vapSub, gasSub]

/-! ### Below the triple-point pressure -/

/-- The hypotheses of `C76_low_pressure_defect` are met: 60 Pa and 10 kg/m3. -/
example : mpT fullEnv vapSub (codeSol vapSub) [] [("p", .scalar (out "p" 60)), ("d", .scalar (out "d" 10))]
    = .ok [some (fromKelvin exampleSys.T.name (1 / 2 * (vapSub.Tt + vapSub.Tc)))] := by
  refine (C76_low_pressure_defect fullEnv exampleSys fullEnv_uses vapSub 50 vap_good _ _ ?_ ?_ ?_ ?_ ?_ ?_).1 <;>
    (try simp only [vap_P, vap_D]) <;> norm_num [vapSub, gasSub, Sub.Tmid]

/-- The hypotheses of `C77_low_pressure_defect` are met: 0.5 kg/m3 has 60 Pa at 120 K. -/
example : mpT fullEnv vapSub (codeSol vapSub) [] [("p", .scalar (out "p" 60)), ("d", .scalar (out "d" 0.5))]
    = .error .param := by
  refine (C77_low_pressure_defect fullEnv exampleSys fullEnv_uses vapSub 50 vap_good (out "T" 120) _ _
    ?_ ?_ ?_ ?_ ?_ ?_ ?_ ?_ ?_ ?_ ?_).2 <;> (try simp only [vap_P, vap_D, vap_T, vap_p])
  iterate 10 norm_num [vapSub, gasSub, Sub.Tmid]
  intro T h1 h2
  have := vap_at (T := T) (d := 0.5) (by norm_num)
  simp only [vap_p] at this
  rw [this]
  linarith

end PyroMat.Mp.Props
