import Verif.Mp.PropsPhase
import Verif.Mp.PropsCv

/-!
# C77: calls whose arguments have a solution are answered
-/

set_option linter.unusedSimpArgs false

namespace PyroMat.Mp.Props

open PyroMat PyroMat.Units PyroMat.Units.Spec PyroMat.Units.Props PyroMat.Gas PyroMat.Gas.Spec
open PyroMat.Gas.Props PyroMat.Mp PyroMat.Mp.Spec PyroMat.Config.Defaults

/-- `y` lies strictly between `a` and `b`, in either order. -/
def Between (a y b : ℝ) : Prop := a < y ∧ y < b ∨ b < y ∧ y < a

/-- The call is answered with a state of one phase. -/
def OnePhase (E : Env) (B : Sub) (S : Sol) (kw : Kw) : Prop :=
  ∃ t d, MpGives E B S [] kw .T 0 t ∧ MpGives E B S [] kw .d 0 d ∧ MpGives E B S [] kw .x 0 (-1)

/-- The call is answered with a mixture of saturated liquid and vapor. -/
def Mixture (E : Env) (B : Sub) (S : Sol) (kw : Kw) : Prop :=
  ∃ t d x, MpGives E B S [] kw .T 0 t ∧ MpGives E B S [] kw .d 0 d ∧ MpGives E B S [] kw .x 0 x ∧ 0 ≤ x ∧ x ≤ 1

/-- A single element that is bracketed is answered, unless its function takes the target at a limit with
slope 0. -/
theorem run_answers' {N : Nat} {e : HIn} (hs : e.ids = true)
    (h : e.P.f e.xmin < e.P.y ∧ e.P.y ≤ e.P.f e.xmax ∨ e.P.f e.xmax < e.P.y ∧ e.P.y ≤ e.P.f e.xmin)
    (n1 : newton e.P e.xmin ≠ .nan) (n2 : newton e.P e.xmax ≠ .nan) :
    ∃ f w x, runHybrid N [e] = .ok (f, w) ∧ f 0 = some x := by
  have hu : ¬ unbracketed e.P e.xmin e.xmax := by
    unfold unbracketed
    rcases h with ⟨h1, h2⟩ | ⟨h1, h2⟩
    · exact fun h => absurd (h.mpr h2) (not_le.mpr h1)
    · exact fun h => absurd (h.mp h2) (not_le.mpr h1)
  obtain ⟨⟨xs, w⟩, hr⟩ : ∃ r, hybrid1 1e-6 N [e] = .ok r := by
    unfold hybrid1
    rw [if_neg (fun hc => hu (hc.2 e (by simp) hs))]
    exact ⟨_, rfl⟩
  obtain ⟨x, hx⟩ := (iterate_number (P := e.P) (ep := 1e-6) (by norm_num) (s := hstart e.P e.xmin e.xmax e.x) rfl
    n1 n2 N).1
  refine ⟨fun n => (xs[n]?).getD none, w, x, ?_, ?_⟩
  · unfold runHybrid
    rw [hr, exOk]
  · obtain ⟨rfl, -, -⟩ := hybrid1_ok hr
    simp only [List.map_cons, List.map_nil, List.getElem?_cons_zero, Option.getD_some]
    unfold final
    rw [hinit_good hs hu]
    exact hx

theorem run_answers {N : Nat} {e : HIn} (hs : e.ids = true) (h : Between (e.P.f e.xmin) e.P.y (e.P.f e.xmax)) :
    ∃ f w x, runHybrid N [e] = .ok (f, w) ∧ f 0 = some x := by
  refine run_answers' hs (h.imp (fun h => ⟨h.1, h.2.le⟩) (fun h => ⟨h.1, h.2.le⟩)) (newton_ne_nan ?_) (newton_ne_nan ?_) <;>
  · rcases h with ⟨h1, h2⟩ | ⟨h1, h2⟩
    · first | exact h1.ne | exact h2.ne'
    · first | exact h2.ne' | exact h1.ne

/-- A single element that is not bracketed is a parameter error. -/
theorem run_refuses {N : Nat} {e : HIn} (hs : e.ids = true)
    (h : e.P.y < e.P.f e.xmin ∧ e.P.y < e.P.f e.xmax ∨ e.P.f e.xmin < e.P.y ∧ e.P.f e.xmax < e.P.y) :
    runHybrid N [e] = .error .param := by
  have := (C52_reports 1e-6 N [e]).2.1 ⟨e, by simp, hs⟩ (fun e' he' _ => by
    simp only [List.mem_singleton] at he'; subst he'; exact h)
  unfold runHybrid
  rw [this, exErr]

theorem run_off {N : Nat} : ∃ f w, runHybrid N [offIn] = .ok (f, w) := by
  unfold runHybrid hybrid1
  rw [if_neg (by simp [offIn])]
  exact ⟨_, _, rfl⟩

section
variable {E : Env} {U : Sys} (hU : Uses E U) {B : Sub} (hmw : B.mw ≠ 0) {S : Sol} {kw : Kw}
include hU hmw

theorem answered_one {T d : ℝ} (h : mpArgparse E B S [] kw = .ok { pts := [onePt (some T) (some d)] }) :
    OnePhase E B S kw :=
  ⟨_, _, (gives_iff hU hmw h (by simp) rfl _).mpr rfl, (gives_iff hU hmw h (by simp) rfl _).mpr rfl,
    (gives_iff hU hmw h (by simp) rfl _).mpr rfl⟩

theorem answered_sat {T x : ℝ} (h : mpArgparse E B S [] kw = .ok { pts := [satPt B (some T) (some x)] })
    (h0 : 0 ≤ x) (h1 : x ≤ 1) : Mixture E B S kw :=
  ⟨_, _, x, (gives_iff hU hmw h (by simp) rfl _).mpr rfl, (gives_iff hU hmw h (by simp) rfl _).mpr rfl,
    (gives_iff hU hmw h (by simp) rfl _).mpr rfl, h0, h1⟩

end

/-! ## Calls with two numbers -/

section
variable {E : Env} {U : Sys} (hU : Uses E U) {B : Sub} (hmw : B.mw ≠ 0) (S : Sol)
include hU hmw

theorem argparse_HD (j : Mp.Inv) (y d : ℝ) :
    mpArgparse E B S [] [(j.name, .scalar y), ("d", .scalar d)] =
      (mpHD B S j [si E U B j.quantity y] [si E U B .d d] >>= fun r => .ok { pts := r }) := by
  rw [argparse_two hU hmw]
  cases j <;>
  · dsimp only [Inv.name, Inv.quantity]
    rw [show mpRules _ = .ok () from by simp [mpRules, mpLegal, Kw.has, List.lookup], exOk]
    rfl

theorem argparse_HT (j : Mp.Inv) (y t : ℝ) (h1 : B.Tlo ≤ si E U B .T t) (h2 : si E U B .T t ≤ B.Thi) :
    mpArgparse E B S [] [(j.name, .scalar y), ("T", .scalar t)] =
      (mpHT B S j [si E U B j.quantity y] [some (si E U B .T t)] >>= fun r => .ok { pts := r }) := by
  rw [argparse_two hU hmw]
  have e : ∀ kw : Kw, kw.lookup "T" = some (.scalar t) → argKg E U B.mw kw "T" = some ⟨[si E U B .T t], false⟩ := by
    intro kw h; unfold argKg; rw [h]; rfl
  cases j <;>
  · dsimp only [Inv.name, Inv.quantity]
    rw [show mpRules _ = .ok () from by simp [mpRules, mpLegal, Kw.has, List.lookup], exOk, parsed, e _ rfl,
      gas_range h1 h2, exOk]
    rfl

theorem argparse_TP (t p : ℝ) (h1 : B.Tlo ≤ si E U B .T t) (h2 : si E U B .T t ≤ B.Thi)
    (h3 : B.plo ≤ si E U B .p p) (h4 : si E U B .p p ≤ B.phi) :
    mpArgparse E B S [] [("T", .scalar t), ("p", .scalar p)] =
      (mpTPX B S [some (si E U B .T t)] [some (si E U B .p p)] [-1] >>= fun r => .ok { pts := r.1 }) := by
  rw [argparse_two hU hmw]
  have e1 : argKg E U B.mw [("T", .scalar t), ("p", .scalar p)] "T" = some ⟨[si E U B .T t], false⟩ := rfl
  have e2 : argKg E U B.mw [("T", .scalar t), ("p", .scalar p)] "p" = some ⟨[si E U B .p p], false⟩ := rfl
  rw [show mpRules _ = .ok () from by simp [mpRules, mpLegal, Kw.has, List.lookup], exOk, parsed, e1,
      gas_range h1 h2, exOk, e2, gas_range h3 h4, exOk]
  rfl

end

theorem frac_le {l z v : ℝ} (h1 : l ≤ z) (h2 : z ≤ v) (h : l < v) :
    0 ≤ (z - l) / (v - l) ∧ (z - l) / (v - l) ≤ 1 :=
  ⟨div_nonneg (by linarith) (by linarith), (div_le_one (by linarith)).mpr (by linarith)⟩

theorem dens_frac {l v d : ℝ} (h0 : 0 < v) (h1 : v ≤ d) (h2 : d ≤ l) (h : v < l) :
    0 ≤ (l / d - 1) / (l / v - 1) ∧ (l / d - 1) / (l / v - 1) ≤ 1 := by
  have d0 : 0 < d := h0.trans_le h1
  have hpos : 0 < l / v - 1 := by
    rw [div_sub_one h0.ne']; exact div_pos (by linarith) h0
  refine ⟨div_nonneg ?_ hpos.le, (div_le_one hpos).mpr ?_⟩
  · rw [div_sub_one d0.ne']; exact div_nonneg (by linarith) d0.le
  · have : l / d ≤ l / v := div_le_div_of_nonneg_left (by linarith) h0 h1
    linarith

theorem ask_one {B : Sub} {sel : Nan → Bool} {P t : ℝ} (hb : sel (some P) = true) (ht : tsOf B (some P) = some t) :
    ∃ Ts, askTs (codeSol B) sel [some P] = .ok Ts ∧ Ts 0 = some t := by
  cases hq : askTs (codeSol B) sel [some P] with
  | ok Ts => exact ⟨Ts, rfl, by rw [askTs_at hq (i := 0) rfl hb, ht]⟩
  | error e =>
    exfalso
    unfold askTs at hq
    rw [if_pos (by simp [hb])] at hq
    simp only [List.map_cons, List.map_nil, hb, if_true] at hq
    unfold tsOf at ht
    split at ht
    · rename_i r hr
      change (codeTs B [some (some P)]).map (·.1) = _ at hq
      unfold codeTs at hq
      rw [iterLoop_eq, show List.map (tsEl B) [some (some P)] = [tsEl B (some (some P))] from rfl, List.mapM_cons,
        hr] at hq
      cases hq
    · cases ht

section
variable (E : Env) (U : Sys) (hU : Uses E U) (B : Sub) (Tmin : ℝ) (hB : GoodSub B Tmin)
include hU hB

/-- **C77**, energy, enthalpy or entropy with density: if the value given lies strictly between the values
at that density and the lowest and the highest temperature of the data, a state is returned. -/
theorem C77_with_density (j : Mp.Inv) (y d : ℝ)
    (h : Between (valueAt B (B.inv j) B.Tlo (si E U B .d d)) (si E U B j.quantity y)
      (valueAt B (B.inv j) B.Thi (si E U B .d d))) :
    OnePhase E B (codeSol B) [(j.name, .scalar y), ("d", .scalar d)] ∨
    Mixture E B (codeSol B) [(j.name, .scalar y), ("d", .scalar d)] := by
  have hmw := hB.dome.mw.ne'
  have hj : (fun T d => (B.invQ j T d).v) = B.inv j := by funext T d; cases j <;> rfl
  have val : ∀ T, Tmin ≤ T → (tditer B (B.invQ j) T (si E U B .d d)).v = valueAt B (B.inv j) T (si E U B .d d) := by
    intro T hT
    rw [tditer_value B (B.invQ j) (fun hc => hB.dome.vapor T hT hc.le) (fun hc => hB.dome.liquid T hT hc), hj]
  obtain ⟨f, w, T, hr, hf⟩ := run_answers (N := 50)
    (e := ⟨tdProb B (B.invQ j) (si E U B .d d) (si E U B j.quantity y), B.Tlo, B.Thi, true, none⟩) rfl (by
      dsimp only [tdProb]
      rw [val _ hB.min2, val _ (hB.min2.trans hB.range)]
      exact h)
  have hin : B.Tlo ≤ T := by
    obtain ⟨e, he, hin⟩ := runHybrid_in hr hf
    cases he
    exact (hin rfl hB.range).1
  have hs : (codeSol B).Thd j [(si E U B j.quantity y, si E U B .d d)] = .ok f := by
    show (codeThd B j _).map (·.1) = _
    unfold codeThd
    simp only [List.map_cons, List.map_nil, hr]
    rfl
  have ha := argparse_HD hU hmw (codeSol B) j y d
  simp only [mpHD, broadcast, List.length_cons, List.length_nil, if_true, exOk, List.zip_cons_cons, List.zip_nil_right,
    hs, List.mapIdx_cons, List.mapIdx_nil, hf] at ha
  by_cases hc : T < B.Tc ∧ B.dsv T ≤ si E U B .d d ∧ si E U B .d d ≤ B.dsl T
  · have v0 := hB.dome.vapor T (hB.min2.trans hin) hc.1.le
    have l0 := hB.dome.liquid T (hB.min2.trans hin) hc.1
    have hne : B.dsl T / B.dsv T - 1 ≠ 0 := by
      rw [div_sub_one v0.ne']; exact div_ne_zero (by linarith) v0.ne'
    simp only [satTD, Option.bind_some, hc.1, if_true, satDens, if_pos hc.2, quot, if_neg hne] at ha
    have := dens_frac v0 hc.2.1 hc.2.2 l0
    exact .inr (answered_sat hU hmw ha this.1 this.2)
  · have : satTD B (satDens B) (some T) (si E U B .d d) = none := by
      unfold satTD satDens
      simp only [Option.bind_some]
      split_ifs with c1 c2
      · exact absurd ⟨c1, c2⟩ hc
      · rfl
      · rfl
    rw [this] at ha
    exact .inl (answered_one hU hmw ha)

/-- **C77**, temperature and pressure.  Above the critical temperature a density is returned if every
density up to a tenth of the ideal gas's has a lower pressure and the highest density of the data a
higher one; below it, at pressures under saturation, if every density up to half the ideal gas's has a
lower pressure and 1.01 times the saturated vapor's a higher one; at other pressures, if 0.99 times the
saturated liquid's density has a lower pressure and the highest density of the data a higher one. -/
theorem C77_temperature_pressure (t p : ℝ) (h1 : B.Tlo ≤ si E U B .T t) (h2 : si E U B .T t ≤ B.Thi)
    (h3 : B.plo ≤ si E U B .p p) (h4 : si E U B .p p ≤ B.phi) (hp : 0 < si E U B .p p)
    (hR : 0 < B.F.R * si E U B .T t)
    (h : let T := si E U B .T t
      let P := si E U B .p p
      let low := fun c : ℝ => ∀ d, 0 < d → d ≤ c * (P / (B.F.R * T)) → (B.F.p T d).v < P
      (B.Tc ≤ T ∧ low 0.1 ∧ P < (B.F.p T B.dhi).v) ∨
      (T < B.Tc ∧ P < B.ps T ∧ low 0.5 ∧ P < (B.F.p T (1.01 * B.dsv T)).v) ∨
      (T < B.Tc ∧ B.ps T ≤ P ∧ (B.F.p T (0.99 * B.dsl T)).v < P ∧ P < (B.F.p T B.dhi).v)) :
    OnePhase E B (codeSol B) [("T", .scalar t), ("p", .scalar p)] := by
  have hmw := hB.dome.mw.ne'
  obtain ⟨T, hT⟩ : ∃ T, T = si E U B .T t := ⟨_, rfl⟩
  obtain ⟨P, hP⟩ : ∃ P, P = si E U B .p p := ⟨_, rfl⟩
  have ha := argparse_TP hU hmw (codeSol B) t p h1 h2 h3 h4
  simp only [← hT, ← hP] at h hp hR ha
  have pos : 0 < P / (B.F.R * T) := div_pos hp hR
  have lower : ∀ c : ℝ, 0 < c → (∀ d, 0 < d → d ≤ c * (P / (B.F.R * T)) → (B.F.p T d).v < P) →
      (B.F.p T (dLower B T P (c * P / (B.F.R * T)))).v < P := by
    intro c hc hlow
    have e : c * P / (B.F.R * T) = c * (P / (B.F.R * T)) := mul_div_assoc _ _ _
    have h0 : ¬ (B.F.p T (c * P / (B.F.R * T) / 2 ^ 0)).v > P := by
      rw [pow_zero, div_one, e]; exact not_lt.mpr (hlow _ (mul_pos hc pos) le_rfl).le
    unfold dLower
    have hex : ∃ n : Nat, ¬ (B.F.p T (c * P / (B.F.R * T) / 2 ^ n)).v > P := ⟨0, h0⟩
    rw [dif_pos hex, (Nat.find_eq_zero hex).mpr h0, pow_zero, div_one, e]
    exact hlow _ (mul_pos hc pos) le_rfl
  obtain ⟨f, w, d, hr, hf⟩ := run_answers (N := 50) (e := dIn B (some (some T, some P))) rfl (by
    left
    dsimp only [dIn]
    rcases h with ⟨c1, c2, c3⟩ | ⟨c1, c2, c3, c4⟩ | ⟨c1, c2, c3, c4⟩
    · have hst : dStart B T P = (0.1 * P / (B.F.R * T), B.dhi) := by unfold dStart; rw [if_pos c1]
      rw [hst]
      exact ⟨lower _ (by norm_num) c2, c3⟩
    · have hst : dStart B T P = (0.5 * P / (B.F.R * T), 1.01 * B.dsv T) := by
        unfold dStart; rw [if_neg (not_le.mpr c1), if_pos c2, mul_comm (B.dsv T)]
      rw [hst]
      exact ⟨lower _ (by norm_num) c3, c4⟩
    · have hst : dStart B T P = (0.99 * B.dsl T, B.dhi) := by
        unfold dStart; rw [if_neg (not_le.mpr c1), if_neg (not_lt.mpr c2), mul_comm (B.dsl T)]
      rw [hst]
      refine ⟨?_, c4⟩
      have h0 : ¬ (B.F.p T (0.99 * B.dsl T / 2 ^ 0)).v > P := by
        rw [pow_zero, div_one]; exact not_lt.mpr c3.le
      unfold dLower
      have hex : ∃ n : Nat, ¬ (B.F.p T (0.99 * B.dsl T / 2 ^ n)).v > P := ⟨0, h0⟩
      rw [dif_pos hex, (Nat.find_eq_zero hex).mpr h0, pow_zero, div_one]
      exact c3)
  have hs : (codeSol B).d [some (some T, some P)] = .ok f := by
    show (codeD B _).map (·.1) = _
    unfold codeD
    simp only [List.map_cons, List.map_nil, hr]
    rfl
  simp only [mpTPX, broadcast, List.length_cons, List.length_nil, if_true, exOk, List.zip_cons_cons, List.zip_nil_right,
    List.map_cons, List.map_nil, show ((-1 : ℝ) < 0) from by norm_num, hs, List.mapIdx_cons, List.mapIdx_nil, hf] at ha
  have e : ptTPX B (some d) (some T) (-1) = onePt (some T) (some d) := by norm_num [ptTPX, badTX, onePt]
  rw [e] at ha
  exact answered_one hU hmw ha

/-- **C77**, energy, enthalpy or entropy with temperature.  Below the critical temperature a state is
returned if the value given is below that of the saturated liquid and lies strictly between those of 0.99
times the saturated liquid's density and of the highest density of the data, or it is above that of the
saturated vapor and lies between those of 1.01 times the saturated vapor's density and of the lowest
density; where the data have density 0 for the lowest, of some density reached from a ten-thousandth of
the highest by at most 20 halvings.  At and above the critical temperature, if it lies between those of
the highest density and of such a low density. -/
theorem C77_with_temperature (j : Mp.Inv) (y t : ℝ) (h1 : B.Tlo ≤ si E U B .T t) (h2 : si E U B .T t ≤ B.Thi)
    (slope : ∀ d, B.inv j (si E U B .T t) d = si E U B j.quantity y →
      (B.invQ j (si E U B .T t) d).vd ≠ 0)
    (h : let T := si E U B .T t
      let z := si E U B j.quantity y
      let low := ∃ n ≤ 20, z ≤ B.inv j T (B.dlo + 0.0001 * (B.dhi - B.dlo) / 2 ^ n)
      (T < B.Tc ∧ B.inv j T (B.dsl T) < B.inv j T (B.dsv T) ∧
        ((z < B.inv j T (B.dsl T) ∧ Between (B.inv j T (0.99 * B.dsl T)) z (B.inv j T B.dhi)) ∨
         (B.inv j T (B.dsv T) < z ∧ B.dlo = 0 ∧ B.inv j T (1.01 * B.dsv T) < z ∧ low) ∨
         (B.inv j T (B.dsv T) < z ∧ B.dlo ≠ 0 ∧ B.inv j T (1.01 * B.dsv T) < z ∧ z < B.inv j T B.dlo))) ∨
      (B.Tc ≤ T ∧ B.inv j T B.dhi < z ∧ low)) :
    OnePhase E B (codeSol B) [(j.name, .scalar y), ("T", .scalar t)] := by
  have hmw := hB.dome.mw.ne'
  obtain ⟨T, hT⟩ : ∃ T, T = si E U B .T t := ⟨_, rfl⟩
  obtain ⟨z, hz⟩ : ∃ z, z = si E U B j.quantity y := ⟨_, rfl⟩
  have ha := argparse_HT hU hmw (codeSol B) j y t h1 h2
  simp only [← hT, ← hz] at h ha h1 slope
  have t1 : Tmin ≤ T := hB.min2.trans h1
  have hj : ∀ d, (B.invQ j T d).v = B.inv j T d := by intro d; cases j <;> rfl
  have one : satHT B j (z, some T) = none → (∃ f w d, codeDhT B j [some (z, some T)] = .ok (f, w) ∧ f 0 = some d) →
      OnePhase E B (codeSol B) [(j.name, .scalar y), ("T", .scalar t)] := by
    rintro hs ⟨f, w, d, hf, hf0⟩
    have hf' : (codeSol B).dhT j [some (z, some T)] = .ok f := by
      show (codeDhT B j _).map (·.1) = _
      rw [hf]; rfl
    simp only [mpHT, broadcast, List.length_cons, List.length_nil, if_true, exOk, List.zip_cons_cons,
      List.zip_nil_right, List.map_cons, List.map_nil, hs, Option.isSome_none, Bool.false_eq_true, if_false, hf',
      List.mapIdx_cons, List.mapIdx_nil, hf0] at ha
    exact answered_one hU hmw ha
  have run : ∀ da db, dhtLower B j z T (dhtStart B j z T).1 = .ok da → (dhtStart B j z T).2 = db →
      (B.inv j T da < z ∧ z ≤ B.inv j T db ∨ B.inv j T db < z ∧ z ≤ B.inv j T da) →
      ∃ f w d, codeDhT B j [some (z, some T)] = .ok (f, w) ∧ f 0 = some d := by
    intro da db hda hdb hbr
    have e : codeDhT B j [some (z, some T)] = runHybrid 50
        [⟨⟨fun d => (B.invQ j T d).v, fun d => (B.invQ j T d).vd, z⟩, da, db, true, none⟩] := by
      unfold codeDhT
      simp only [List.mapM_cons, List.mapM_nil, dhtIn, hda, hdb, exOk]
      rfl
    have nn : ∀ d, newton ⟨fun d => (B.invQ j T d).v, fun d => (B.invQ j T d).vd, z⟩ d ≠ .nan := by
      intro d
      by_cases hv : B.inv j T d = z
      · unfold newton
        rw [if_neg (slope d hv)]
        simp
      · exact newton_ne_nan (by dsimp only; rw [hj]; exact hv)
    rw [e]
    exact run_answers' rfl (by simpa only [hj] using hbr) (nn _) (nn _)
  have search : (∃ n ≤ 20, z ≤ B.inv j T (B.dlo + 0.0001 * (B.dhi - B.dlo) / 2 ^ n)) →
      ∃ da, dhtLower B j z T 0 = .ok da ∧ z ≤ B.inv j T da := by
    rintro ⟨n, hn, hle⟩
    have key : ∀ (k m : Nat) (c : ℝ), m ≤ k → z ≤ B.inv j T (B.dlo + c / 2 ^ m) →
        ∃ da, dhtSearch B j z T k (B.dlo + c) = .ok da ∧ z ≤ B.inv j T da := by
      intro k
      induction k with
      | zero =>
        intro m c hm hv
        obtain rfl : m = 0 := by omega
        rw [pow_zero, div_one] at hv
        unfold dhtSearch
        rw [if_neg (not_lt.mpr hv)]
        exact ⟨_, rfl, hv⟩
      | succ k ih =>
        intro m c hm hv
        unfold dhtSearch
        by_cases hc : B.inv j T (B.dlo + c) < z
        · rw [if_pos hc]
          cases m with
          | zero => rw [pow_zero, div_one] at hv; exact absurd hc (not_lt.mpr hv)
          | succ m =>
            have := ih m (c / 2) (by omega) (by rw [div_div, ← pow_succ']; exact hv)
            rw [show (0.5 : ℝ) * (B.dlo + (B.dlo + c)) = B.dlo + c / 2 by ring]
            exact this
        · rw [if_neg hc]
          exact ⟨_, rfl, not_lt.mp hc⟩
    unfold dhtLower
    rw [if_pos rfl, show (0.9999 : ℝ) * B.dlo + 0.0001 * B.dhi = B.dlo + 0.0001 * (B.dhi - B.dlo) by ring]
    exact key 20 n _ hn hle
  rcases h with ⟨hc, hLV, h⟩ | ⟨hc, h3, h4⟩
  · have v0 := hB.dome.vapor T t1 hc.le
    have l0 := hB.dome.liquid T t1 hc
    have sat0 : (z < B.inv j T (B.dsl T) ∨ B.inv j T (B.dsv T) < z) → satHT B j (z, some T) = none := by
      intro h
      unfold satHT satInv
      simp only [Option.bind_some, hc, if_true]
      rw [if_neg]
      rintro ⟨a, b⟩
      rcases h with h | h <;> linarith
    rcases h with ⟨h3, h4⟩ | ⟨h3, h4, h5, h6⟩ | ⟨h3, h4, h5, h6⟩
    · have hst : dhtStart B j z T = (0.99 * B.dsl T, B.dhi) := by
        unfold dhtStart; rw [if_pos hc, if_neg (by rw [not_lt]; linarith)]
      refine one (sat0 (.inl h3)) (run (0.99 * B.dsl T) B.dhi ?_ (by rw [hst]) ?_)
      · rw [hst]; unfold dhtLower; rw [if_neg (by have : 0 < 0.99 * B.dsl T := by linarith
                                                  exact this.ne')]
      · exact h4.imp (fun h => ⟨h.1, h.2.le⟩) (fun h => ⟨h.1, h.2.le⟩)
    · have hst : dhtStart B j z T = (B.dlo, 1.01 * B.dsv T) := by
        unfold dhtStart; rw [if_pos hc, if_pos h3]
      obtain ⟨da, hda, hle⟩ := search h6
      exact one (sat0 (.inr h3)) (run da _ (by rw [hst]; dsimp only; rw [h4]; exact hda) (by rw [hst]) (.inr ⟨h5, hle⟩))
    · have hst : dhtStart B j z T = (B.dlo, 1.01 * B.dsv T) := by
        unfold dhtStart; rw [if_pos hc, if_pos h3]
      exact one (sat0 (.inr h3)) (run B.dlo _ (by rw [hst]; unfold dhtLower; rw [if_neg h4]) (by rw [hst])
        (.inr ⟨h5, h6.le⟩))
  · have hst : dhtStart B j z T = (0, B.dhi) := by
      unfold dhtStart; rw [if_neg (not_lt.mpr hc)]
    obtain ⟨da, hda, hle⟩ := search h4
    refine one ?_ (run da _ (by rw [hst]; exact hda) (by rw [hst]) (.inr ⟨h3, hle⟩))
    unfold satHT
    simp only [Option.bind_some, not_lt.mpr hc, if_false]

/-- **C77**, energy, enthalpy or entropy with a temperature below critical, saturated: values between those
of the saturated liquid and vapor are answered with a mixture. -/
theorem C77_with_temperature_saturated (j : Mp.Inv) (y t : ℝ) (h1 : B.Tlo ≤ si E U B .T t)
    (h2 : si E U B .T t ≤ B.Thi) (hc : si E U B .T t < B.Tc)
    (h : let T := si E U B .T t
      let z := si E U B j.quantity y
      B.inv j T (B.dsl T) < B.inv j T (B.dsv T) ∧ B.inv j T (B.dsl T) ≤ z ∧ z ≤ B.inv j T (B.dsv T)) :
    Mixture E B (codeSol B) [(j.name, .scalar y), ("T", .scalar t)] := by
  have hmw := hB.dome.mw.ne'
  obtain ⟨T, hT⟩ : ∃ T, T = si E U B .T t := ⟨_, rfl⟩
  obtain ⟨z, hz⟩ : ∃ z, z = si E U B j.quantity y := ⟨_, rfl⟩
  have ha := argparse_HT hU hmw (codeSol B) j y t h1 h2
  simp only [← hT, ← hz] at h ha h1 hc
  obtain ⟨hLV, h3, h4⟩ := h
  have hs : satHT B j (z, some T) =
      some (some ((z - B.inv j T (B.dsl T)) / (B.inv j T (B.dsv T) - B.inv j T (B.dsl T)))) := by
    unfold satHT satInv
    simp only [Option.bind_some, hc, if_true]
    rw [if_pos ⟨h3, h4⟩, quot, if_neg (by linarith)]
  obtain ⟨f, w, hf⟩ := run_off (N := 50)
  have hf' : (codeSol B).dhT j [none] = .ok f := by
    show (codeDhT B j [none]).map (·.1) = _
    unfold codeDhT
    simp only [List.mapM_cons, List.mapM_nil, dhtIn, exOk]
    show (runHybrid 50 [offIn]).map (·.1) = _
    rw [hf]; rfl
  simp only [mpHT, broadcast, List.length_cons, List.length_nil, if_true, exOk, List.zip_cons_cons,
    List.zip_nil_right, List.map_cons, List.map_nil, hs, Option.isSome_some, hf',
    List.mapIdx_cons, List.mapIdx_nil] at ha
  have := frac_le h3 h4 hLV
  exact answered_sat hU hmw ha this.1 this.2

/-- **C77**, pressure and density.  At and above the critical pressure a state is returned if the pressure
given lies strictly between those at that density and the lowest and highest temperature of the data.
Below it, let `t` be the saturation temperature the substance returns for the pressure; a state is
returned if the density is below that of the saturated vapor and the pressure lies strictly between those
at 0.99 `t` (or the lowest temperature, if higher) and at the highest temperature; or the density is above
that of the saturated liquid and the pressure lies strictly between those at the lowest temperature and
1.01 `t`. -/
theorem C77_pressure_density (p d : ℝ) (h1 : B.plo ≤ si E U B .p p) (h2 : si E U B .p p ≤ B.phi)
    (h : let P := si E U B .p p
      let D := si E U B .d d
      let at' := fun T => valueAt B (fun T d => (B.F.p T d).v) T D
      (B.pc ≤ P ∧ Between (at' B.Tlo) P (at' B.Thi)) ∨
      (P < B.pc ∧ ∃ ts, MpGives E B (codeSol B) [] [("p", .scalar p), ("x", .scalar 0)] .T 0 ts ∧
        let t := si E U B .T ts
        t < B.Tc ∧
        ((D < B.dsv t ∧ Between (at' (max (0.99 * t) B.Tlo)) P (at' B.Thi)) ∨
         (B.dsl t < D ∧ Tmin ≤ 1.01 * t ∧ Between (at' B.Tlo) P (at' (1.01 * t)))))) :
    OnePhase E B (codeSol B) [("p", .scalar p), ("d", .scalar d)] := by
  have hmw := hB.dome.mw.ne'
  have ha := argparse_PD hU hmw (codeSol B) p d h1 h2
  have sc := fun ts => sat_call hU hmw h1 h2 (t := ts)
  obtain ⟨P, hP⟩ : ∃ P, P = si E U B .p p := ⟨_, rfl⟩
  obtain ⟨D, hD⟩ : ∃ D, D = si E U B .d d := ⟨_, rfl⟩
  simp only [← hP, ← hD] at h ha sc
  have val : ∀ T, Tmin ≤ T → (tditer B B.F.p T D).v = valueAt B (fun T d => (B.F.p T d).v) T D := by
    intro T hT
    rw [tditer_value B B.F.p (fun hc => hB.dome.vapor T hT hc.le) (fun hc => hB.dome.liquid T hT hc)]
  have one : ∀ (Ts : Nat → Nan) (lo hi : ℝ), askTs (codeSol B) (belowPc B) [some P] = .ok Ts →
      satPD B (Ts 0) (D, some P) = none → tdpLimits B D P (Ts 0) = some (lo, hi) → Tmin ≤ lo → Tmin ≤ hi →
      Between (valueAt B (fun T d => (B.F.p T d).v) lo D) P (valueAt B (fun T d => (B.F.p T d).v) hi D) →
      OnePhase E B (codeSol B) [("p", .scalar p), ("d", .scalar d)] := by
    intro Ts lo hi hTs hsat hlim m1 m2 hbr
    obtain ⟨f, w, T, hr, hf⟩ := run_answers (N := 20) (e := ⟨tdProb B B.F.p D P, lo, hi, true, some 0⟩) rfl (by
      dsimp only [tdProb]
      rw [val _ m1, val _ m2]
      exact hbr)
    have hf' : (codeSol B).Tdp [some (D, some P, Ts 0)] = .ok f := by
      show (codeTdp B _).map (·.1) = _
      unfold codeTdp
      simp only [List.map_cons, List.map_nil, tdpIn, hlim]
      rw [hr]; rfl
    simp only [mpPD, broadcast, List.length_cons, List.length_nil, if_true, exOk, List.zip_cons_cons,
      List.zip_nil_right, hTs, List.mapIdx_cons, List.mapIdx_nil, hsat, Option.isSome_none, Bool.false_eq_true,
      if_false, hf', hf] at ha
    exact answered_one hU hmw ha
  rcases h with ⟨hc, hbr⟩ | ⟨hc, ts, hts, htc, h⟩
  · have hb : belowPc B (some P) = false := by simp only [belowPc, ge_iff_le, hc, not_true, decide_false]
    refine one (fun _ => none) B.Tlo B.Thi ?_ ?_ ?_ hB.min2 (hB.min2.trans hB.range) hbr
    · unfold askTs; rw [if_neg (by simp [hb])]
    · unfold satPD; rw [if_neg (by simp [hb])]
    · unfold tdpLimits; rw [if_pos hc]
  · have hb : belowPc B (some P) = true := by simp only [belowPc, ge_iff_le, not_le, hc, decide_true]
    have ht := sc ts hts
    obtain ⟨t, e⟩ : ∃ t, t = si E U B .T ts := ⟨_, rfl⟩
    simp only [← e] at ht h htc
    obtain ⟨Ts, hask, hT0⟩ := ask_one hb ht
    have tb := tsOf_bounds hB ht
    have t1 : Tmin ≤ t := hB.min1.trans tb.1
    have v0 := hB.dome.vapor t t1 tb.2
    have sat0 : (D < B.dsv t ∨ B.dsl t < D) → satPD B (Ts 0) (D, some P) = none := by
      intro h
      unfold satPD satDens
      rw [if_pos hb, hT0, Option.bind_some, if_neg]
      rintro ⟨a, b⟩
      rcases h with h | h <;> linarith
    rcases h with ⟨h3, h4⟩ | ⟨h3, h4, h5⟩
    · refine one Ts (max (0.99 * t) B.Tlo) B.Thi hask (sat0 (.inl h3)) ?_ (hB.min2.trans (le_max_right _ _))
        (hB.min2.trans hB.range) h4
      unfold tdpLimits
      rw [if_neg (not_le.mpr hc), hT0, Option.map_some, if_pos h3]
    · have l0 := hB.dome.liquid t t1 htc
      refine one Ts B.Tlo (t * 1.01) hask (sat0 (.inr h3)) ?_ hB.min2 (by rw [mul_comm]; exact h4)
        (by rw [mul_comm t]; exact h5)
      unfold tdpLimits
      rw [if_neg (not_le.mpr hc), hT0, Option.map_some, if_neg (by rw [not_lt]; linarith)]

/-- **C77**, pressure and density, saturated: below the critical pressure, densities between those of the
saturated vapor and liquid at the saturation temperature are answered with a mixture. -/
theorem C77_pressure_density_saturated (p d ts : ℝ) (h1 : B.plo ≤ si E U B .p p) (h2 : si E U B .p p ≤ B.phi)
    (hc : si E U B .p p < B.pc)
    (hts : MpGives E B (codeSol B) [] [("p", .scalar p), ("x", .scalar 0)] .T 0 ts)
    (htc : si E U B .T ts < B.Tc)
    (h : B.dsv (si E U B .T ts) ≤ si E U B .d d ∧ si E U B .d d ≤ B.dsl (si E U B .T ts)) :
    Mixture E B (codeSol B) [("p", .scalar p), ("d", .scalar d)] := by
  have hmw := hB.dome.mw.ne'
  have ha := argparse_PD hU hmw (codeSol B) p d h1 h2
  have ht := sat_call hU hmw h1 h2 hts
  obtain ⟨P, hP⟩ : ∃ P, P = si E U B .p p := ⟨_, rfl⟩
  obtain ⟨D, hD⟩ : ∃ D, D = si E U B .d d := ⟨_, rfl⟩
  obtain ⟨t, e⟩ : ∃ t, t = si E U B .T ts := ⟨_, rfl⟩
  simp only [← hP, ← hD, ← e] at h ha hc htc ht
  have hb : belowPc B (some P) = true := by simp only [belowPc, ge_iff_le, not_le, hc, decide_true]
  obtain ⟨Ts, hask, hT0⟩ := ask_one hb ht
  have tb := tsOf_bounds hB ht
  have t1 : Tmin ≤ t := hB.min1.trans tb.1
  have v0 := hB.dome.vapor t t1 tb.2
  have l0 := hB.dome.liquid t t1 htc
  have hne : B.dsl t / B.dsv t - 1 ≠ 0 := by
    rw [div_sub_one v0.ne']; exact div_ne_zero (by linarith) v0.ne'
  have hs : satPD B (Ts 0) (D, some P) = some (some ((B.dsl t / D - 1) / (B.dsl t / B.dsv t - 1))) := by
    unfold satPD satDens
    rw [if_pos hb, hT0, Option.bind_some, if_pos h, quot, if_neg hne]
  obtain ⟨f, w, hf⟩ := run_off (N := 20)
  have hf' : (codeSol B).Tdp [none] = .ok f := by
    show (codeTdp B [none]).map (·.1) = _
    unfold codeTdp
    show (runHybrid 20 [offIn]).map (·.1) = _
    rw [hf]; rfl
  rw [hT0] at hs
  simp only [mpPD, broadcast, List.length_cons, List.length_nil, if_true, exOk, List.zip_cons_cons,
    List.zip_nil_right, hask, List.mapIdx_cons, List.mapIdx_nil, hT0, hs, Option.isSome_some, hf'] at ha
  have := dens_frac v0 h.1 h.2 l0
  exact answered_sat hU hmw ha this.1 this.2

/-- **C77 disagreement.**  At pressures below the triple-point pressure a call with pressure and density
fails although a state exists.  If the vapor at temperature `t`, more than one percent below the middle
of triple and critical temperature, and the given density has the given pressure, and the pressure at
that density is higher at every higher temperature, then `p` returns that pressure, but the call with
pressure and density raises a parameter error. -/
theorem C77_low_pressure_defect (t p d : ℝ) (h1 : B.plo ≤ si E U B .p p) (h2 : si E U B .p p ≤ B.phi)
    (hpt : si E U B .p p < B.pt) (hpc : B.pt ≤ B.pc) (hd : si E U B .d d < B.dsv B.Tmid)
    (t1 : B.Tlo < si E U B .T t) (t2 : si E U B .T t < 0.99 * B.Tmid) (t3 : B.Tmid ≤ B.Thi)
    (hv : si E U B .d d < B.dsv (si E U B .T t)) (hp : (B.F.p (si E U B .T t) (si E U B .d d)).v = si E U B .p p)
    (rise : ∀ T, si E U B .T t < T → T ≤ B.Thi →
      si E U B .p p < valueAt B (fun T d => (B.F.p T d).v) T (si E U B .d d)) :
    MpGives E B (codeSol B) [] [("T", .scalar t), ("d", .scalar d)] .p 0 p ∧
    mpT E B (codeSol B) [] [("p", .scalar p), ("d", .scalar d)] = .error .param := by
  have hmw := hB.dome.mw.ne'
  have m1 : 0 < B.Tmid := by
    have := hB.pos; have := hB.order
    unfold Sub.Tmid; linarith
  constructor
  · obtain ⟨o1, o2, hr⟩ := td_call E U hU B hmw (codeSol B) (u := t) (y := d) t1 (show si E U B .T t < B.Thi by linarith)
    have hsat : satTD B (satDensStrict B) (some (toKelvin U.T.name t)) (internalKg E.a U B.mw .density d) = none := by
      unfold satTD satDensStrict
      rw [Option.bind_some]
      split_ifs with c1 c2
      · exact absurd c2.2 (not_lt.mpr hv.le)
      · rfl
      · rfl
    rw [hsat] at hr
    refine (gives_iff hU hmw hr (by simp) rfl p).mpr ?_
    show some (inUnitsKg E.a U B.mw .pressure (B.F.p (si E U B .T t) (si E U B .d d)).v) = _
    rw [hp]
    exact congrArg some (inUnitsKg_internalKg hU hmw _ _)
  have ha := argparse_PD hU hmw (codeSol B) p d h1 h2
  obtain ⟨P, hP⟩ : ∃ P, P = si E U B .p p := ⟨_, rfl⟩
  obtain ⟨D, hD⟩ : ∃ D, D = si E U B .d d := ⟨_, rfl⟩
  simp only [← hP, ← hD] at ha h1 h2 hpt hd rise
  obtain ⟨f, hf, hf0⟩ := codeTs_out (B := B) (p := P) (fun hc => absurd hc.1 (not_le.mpr hpt))
  have hbel : belowPc B (some P) = true := by
    simp only [belowPc, decide_eq_true_eq, ge_iff_le, not_le]; linarith
  have hask : askTs (codeSol B) (belowPc B) [some P] = .ok f := by
    unfold askTs
    rw [if_pos (by simp [hbel])]
    simpa [hbel] using hf
  have hsat : satPD B (some B.Tmid) (D, some P) = none := by
    unfold satPD satDens
    rw [if_pos hbel, Option.bind_some, if_neg (fun h => absurd h.1 (not_le.mpr hd))]
  have hlim : tdpLimits B D P (some B.Tmid) = some (max (0.99 * B.Tmid) B.Tlo, B.Thi) := by
    unfold tdpLimits; rw [if_neg (by rw [ge_iff_le, not_le]; linarith), Option.map_some, if_pos hd]
  have val : ∀ T, Tmin ≤ T → (tditer B B.F.p T D).v = valueAt B (fun T d => (B.F.p T d).v) T D := by
    intro T hT
    rw [tditer_value B B.F.p (fun hc => hB.dome.vapor T hT hc.le) (fun hc => hB.dome.liquid T hT hc)]
  have hr := run_refuses (N := 20)
    (e := ⟨tdProb B B.F.p D P, max (0.99 * B.Tmid) B.Tlo, B.Thi, true, some 0⟩) rfl (by
      left
      dsimp only [tdProb]
      rw [val _ (hB.min2.trans (le_max_right _ _)), val _ (hB.min2.trans hB.range)]
      exact ⟨rise _ (t2.trans_le (le_max_left _ _)) (max_le (by linarith) hB.range), rise _ (by linarith) le_rfl⟩)
  have hg : (codeSol B).Tdp [some (D, some P, some B.Tmid)] = .error .param := by
    show (codeTdp B _).map (·.1) = _
    unfold codeTdp
    simp only [List.map_cons, List.map_nil, tdpIn, hlim]
    rw [hr]; rfl
  have hr : mpArgparse E B (codeSol B) [] [("p", .scalar p), ("d", .scalar d)] = .error .param := by
    rw [ha]
    simp only [mpPD, broadcast, List.length_cons, List.length_nil, if_true, exOk, List.zip_cons_cons, List.zip_nil_right,
      hask, List.mapIdx_cons, List.mapIdx_nil, hf0, hsat, Option.isSome_none, Bool.false_eq_true, if_false, hg, exErr]
  exact method_error hU hmw _ hr .T
end

/-! ## Pressure with energy, enthalpy or entropy -/

theorem newtonB_ne_nan {y x v k : ℝ} (h : v ≠ y) : newtonB y (some x) (some v, some k) ≠ .nan := by
  unfold newtonB
  dsimp only
  intro hc
  split_ifs at hc
  exact h (le_antisymm (not_lt.mp ‹_›) (not_lt.mp ‹_›))

/-- The solver answers a bracketed element if its routine returns numbers everywhere between the limits. -/
theorem hybridB_answers {F : Batch} {y lo hi : ℝ} (N : Nat) (g k : ℝ → ℝ) (hle : lo ≤ hi)
    (hF : ∀ x, lo ≤ x → x ≤ hi → ∃ v, F [some (some x)] = .ok v ∧ v 0 = (some (g x), some (k x)))
    (hb : Between (g lo) y (g hi)) :
    ∃ f w x, hybridB F 1e-6 N [⟨y, some lo, some hi, true⟩] = .ok (f, w) ∧ f 0 = some x := by
  obtain ⟨va, ha, ha0⟩ := hF lo le_rfl hle
  obtain ⟨vb, hb', hb0⟩ := hF hi hle le_rfl
  have hu : unbracketedB ⟨y, some lo, some hi, true⟩ (some (g lo), some (k lo)) (some (g hi), some (k hi)) = false := by
    unfold unbracketedB
    rw [decide_eq_false_iff_not]
    simp only [geB, ge_iff_le]
    intro h
    rcases hb with ⟨h1, h2⟩ | ⟨h1, h2⟩
    · exact absurd (h.mpr h2.le) (not_le.mpr h1)
    · exact absurd (h.mp h2.le) (not_le.mpr h1)
  have hne : g lo ≠ y ∧ g hi ≠ y := by
    rcases hb with ⟨h1, h2⟩ | ⟨h1, h2⟩
    · exact ⟨h1.ne, h2.ne'⟩
    · exact ⟨h2.ne', h1.ne⟩
  obtain ⟨s, hs⟩ : ∃ s, s = hinitB ⟨y, some lo, some hi, true⟩ (some (g lo), some (k lo)) (some (g hi), some (k hi)) :=
    ⟨_, rfl⟩
  have loop : ∀ (n : Nat) (s : HSt), Within lo hi s → (s.active = true → s.xa ≠ .nan ∧ s.xb ≠ .nan) →
      ((s.active = true ∧ 0 < n) ∨ ∃ x, s.x = some x) →
      ∃ s' w, hloopB F 1e-6 n [(y, s)] = .ok ([(y, s')], w) ∧ ∃ x, s'.x = some x := by
    intro n
    induction n with
    | zero =>
      intro s hW hn hx
      rcases hx with ⟨-, h⟩ | hx
      · omega
      · exact ⟨s, _, rfl, hx⟩
    | succ n ih =>
      intro s hW hn hx
      unfold hloopB
      by_cases hact : s.active = true
      · rw [if_pos (by simp [hact])]
        obtain ⟨x, hg⟩ := guess_fin (hn hact).1 (hn hact).2
        have hask : askB s = some (some x) := by
          unfold askB; rw [if_pos hact, hg]; rfl
        have hin := guess_within hW hg
        obtain ⟨v, hv, hv0⟩ := hF x hin.1 hin.2
        simp only [List.map_cons, List.map_nil, hask, hv, exOk, List.mapIdx_cons, List.mapIdx_nil, hv0]
        have hst : hstepB y 1e-6 s (some (g x), some (k x)) = updateB y 1e-6 s x (some (g x), some (k x)) := by
          unfold hstepB; rw [hask]
        refine ih _ (hstepB_within hW _ _ _) (fun hact' => ?_) (.inr ⟨x, by rw [hst]; rfl⟩)
        rw [hst] at hact' ⊢
        have hy : g x ≠ y := by
          intro hc
          unfold updateB at hact'
          simp only [hc, sub_self, Bool.and_eq_true, decide_eq_true_eq] at hact'
          exact relGt_zero (by norm_num) hact'.2
        have hnn := newtonB_ne_nan (x := x) (k := k x) hy
        have := hn hact
        unfold updateB
        dsimp only
        constructor
        · split_ifs
          exacts [hnn, this.1, hnn, this.1]
        · split_ifs
          exacts [this.2, hnn, this.2, hnn]
      · have hx : ∃ x, s.x = some x := by
          rcases hx with ⟨h, -⟩ | h
          · exact absurd h hact
          · exact h
        rw [if_neg (by simp [hact])]
        exact ⟨s, _, rfl, hx⟩
  have hW : Within lo hi s := by
    rw [hs]
    exact ⟨le_rfl, hle, hle, le_rfl, rfl, fun x h => nomatch h⟩
  have hact : s.active = true := by rw [hs]; simp [hinitB, hu]
  obtain ⟨s', w, hl, x, hx⟩ := loop (N + 1) s hW
    (fun _ => by rw [hs]; exact ⟨newtonB_ne_nan hne.1, newtonB_ne_nan hne.2⟩) (.inl ⟨hact, by omega⟩)
  refine ⟨fun n => ([(y, s')][n]?).bind (·.2.x), w, x, ?_, by simp [hx]⟩
  unfold hybridB
  simp only [List.map_cons, List.map_nil, if_true, ha, hb', exOk, List.mapIdx_cons, List.mapIdx_nil, ha0, hb0, hu, ← hs,
    hl]
  rfl

section
variable (E : Env) (U : Sys) (hU : Uses E U) (B : Sub) (Tmin : ℝ) (hB : GoodSub B Tmin)
include hU hB

/-- What a call with temperature and pressure that returns a density has done. -/
theorem tp_call {t p d : ℝ} (h1 : B.Tlo ≤ si E U B .T t) (h2 : si E U B .T t ≤ B.Thi)
    (h3 : B.plo ≤ si E U B .p p) (h4 : si E U B .p p ≤ B.phi)
    (h : MpGives E B (codeSol B) [] [("T", .scalar t), ("p", .scalar p)] .d 0 d) :
    (∃ f w, codeD B [some (some (si E U B .T t), some (si E U B .p p))] = .ok (f, w) ∧ f 0 = some (si E U B .d d)) ∧
    ∀ (j : Mp.Inv) (y : ℝ), MpGives E B (codeSol B) [] [("T", .scalar t), ("p", .scalar p)] j.quantity 0 y →
      si E U B j.quantity y = B.inv j (si E U B .T t) (si E U B .d d) := by
  have hmw := hB.dome.mw.ne'
  have ha := argparse_TP hU hmw (codeSol B) t p h1 h2 h3 h4
  cases hc : codeD B [some (some (si E U B .T t), some (si E U B .p p))] with
  | error e =>
    exfalso
    have hs : (codeSol B).d [some (some (si E U B .T t), some (si E U B .p p))] = .error e := by
      show (codeD B _).map (·.1) = _
      rw [hc]; rfl
    simp only [mpTPX, broadcast, List.length_cons, List.length_nil, if_true, exOk, List.zip_cons_cons, List.zip_nil_right,
      List.map_cons, List.map_nil, show ((-1 : ℝ) < 0) from by norm_num, hs, exErr] at ha
    obtain ⟨r, q, hr, -⟩ := gives_pt hU hmw (by simp) h
    rw [ha] at hr; cases hr
  | ok r =>
    obtain ⟨f, w⟩ := r
    have hs : (codeSol B).d [some (some (si E U B .T t), some (si E U B .p p))] = .ok f := by
      show (codeD B _).map (·.1) = _
      rw [hc]; rfl
    simp only [mpTPX, broadcast, List.length_cons, List.length_nil, if_true, exOk, List.zip_cons_cons, List.zip_nil_right,
      List.map_cons, List.map_nil, show ((-1 : ℝ) < 0) from by norm_num, hs, List.mapIdx_cons, List.mapIdx_nil] at ha
    have e : ptTPX B (f 0) (some (si E U B .T t)) (-1) = onePt (some (si E U B .T t)) (f 0) := by
      norm_num [ptTPX, badTX, onePt]
    rw [e] at ha
    have hd := (gives_iff hU hmw ha (by simp) rfl _).mp h
    have hd' : f 0 = some (si E U B .d d) := by
      cases hf : f 0 with
      | none => rw [hf] at hd; cases hd
      | some u =>
        rw [hf] at hd
        have : inUnitsKg E.a U B.mw .density u = d := Option.some.inj hd
        rw [← this]
        exact congrArg some (internalKg_inUnitsKg hU hmw _ _).symm
    refine ⟨⟨f, w, rfl, hd'⟩, fun j y hy => ?_⟩
    have hv := (gives_iff hU hmw ha (by cases j <;> simp [Inv.quantity]) rfl _).mp hy
    rw [hd'] at hv
    have key : ∀ k u, some (inUnitsKg E.a U B.mw k u) = some y → internalKg E.a U B.mw k y = u := by
      intro k u h
      rw [← Option.some.inj h]; exact internalKg_inUnitsKg hU hmw _ _
    cases j
    · exact key .energy _ hv
    · exact key .energy _ hv
    · exact key .entropy _ hv

/-- Within the temperatures from `lo` to `hi` every call with the pressure `p` returns a density at which
the pressure changes with density, and the values of the property at `lo` and `hi` enclose `y`. -/
def Reach (j : Mp.Inv) (y p lo hi : ℝ) : Prop :=
  B.Tlo ≤ lo ∧ lo ≤ hi ∧ hi ≤ B.Thi ∧
  (∀ t, lo ≤ si E U B .T t → si E U B .T t ≤ hi →
    ∃ d, MpGives E B (codeSol B) [] [("T", .scalar t), ("p", .scalar p)] .d 0 d ∧
      (B.F.p (si E U B .T t) (si E U B .d d)).vd ≠ 0) ∧
  ∃ t1 t2 y1 y2, si E U B .T t1 = lo ∧ si E U B .T t2 = hi ∧
    MpGives E B (codeSol B) [] [("T", .scalar t1), ("p", .scalar p)] j.quantity 0 y1 ∧
    MpGives E B (codeSol B) [] [("T", .scalar t2), ("p", .scalar p)] j.quantity 0 y2 ∧
    Between (si E U B j.quantity y1) (si E U B j.quantity y) (si E U B j.quantity y2)

omit hU hB in
theorem argparse_HP (hU : Uses E U) (hmw : B.mw ≠ 0) (S : Sol) (j : Mp.Inv) (y p : ℝ)
    (h1 : B.plo ≤ si E U B .p p) (h2 : si E U B .p p ≤ B.phi) :
    mpArgparse E B S [] [(j.name, .scalar y), ("p", .scalar p)] =
      (mpHP B S j [si E U B j.quantity y] [some (si E U B .p p)] >>= fun r => .ok { pts := r }) := by
  rw [argparse_two hU hmw]
  have e : ∀ kw : Kw, kw.lookup "p" = some (.scalar p) → argKg E U B.mw kw "p" = some ⟨[si E U B .p p], false⟩ := by
    intro kw h; unfold argKg; rw [h]; rfl
  have e' : ∀ kw : Kw, kw.lookup "T" = none → argKg E U B.mw kw "T" = none := by
    intro kw h; unfold argKg; rw [h]; rfl
  cases j <;>
  · dsimp only [Inv.name, Inv.quantity]
    rw [show mpRules _ = .ok () from by simp [mpRules, mpLegal, Kw.has, List.lookup], exOk, parsed, e' _ rfl,
      mpRange_none, exOk, e _ rfl, gas_range h1 h2, exOk]
    rfl

/-- **C77**, energy, enthalpy or entropy with pressure.  At pressures from the critical pressure up and
from the triple-point pressure down, a state is returned if the temperatures of the data reach the value
given.  Between, let `t` be the saturation temperature the substance returns for the pressure; a state is
returned if the value is above that of the saturated vapor at `t` and the temperatures from just above `t`
up reach it, or it is below that of the saturated liquid and those to just below `t` do. -/
theorem C77_with_pressure (j : Mp.Inv) (y p : ℝ) (h1 : B.plo ≤ si E U B .p p) (h2 : si E U B .p p ≤ B.phi)
    (h : let P := si E U B .p p
      let z := si E U B j.quantity y
      ((B.pc ≤ P ∨ P ≤ B.pt) ∧ Reach E U B j y p B.Tlo B.Thi) ∨
      (B.pt < P ∧ P < B.pc ∧ ∃ ts, MpGives E B (codeSol B) [] [("p", .scalar p), ("x", .scalar 0)] .T 0 ts ∧
        let t := si E U B .T ts
        let yL := B.inv j t (B.dsl t)
        let yV := B.inv j t (B.dsv t)
        yL < yV ∧ ((yV < z ∧ Reach E U B j y p (t * (1 + 1e-6)) B.Thi) ∨
          (z < yL ∧ Reach E U B j y p B.Tlo (t * (1 - 1e-6)))))) :
    OnePhase E B (codeSol B) [(j.name, .scalar y), ("p", .scalar p)] := by
  have hmw := hB.dome.mw.ne'
  have ha := argparse_HP E U B hU hmw (codeSol B) j y p h1 h2
  have sc := fun ts => sat_call hU hmw h1 h2 (t := ts)
  obtain ⟨P, hP⟩ : ∃ P, P = si E U B .p p := ⟨_, rfl⟩
  obtain ⟨z, hz⟩ : ∃ z, z = si E U B j.quantity y := ⟨_, rfl⟩
  simp only [← hP, ← hz] at h ha sc
  have hTT : ∀ T, si E U B .T (inUnitsKg E.a U B.mw .temperature T) = T :=
    fun T => internalKg_inUnitsKg hU hmw _ _
  have one : ∀ (Ts : Nat → Nan) (lo hi : ℝ), askTs (codeSol B) (betweenP B) [some P] = .ok Ts →
      satHP B j (Ts 0) (z, some P) = none → thpLimits B j z (some P) (Ts 0) = (some lo, some hi) →
      Reach E U B j y p lo hi → OnePhase E B (codeSol B) [(j.name, .scalar y), ("p", .scalar p)] := by
    rintro Ts lo hi hTs hsat hlim ⟨l1, l2, l3, hall, t1, t2, y1, y2, e1, e2, g1, g2, hbr⟩
    have dens : ∀ T, lo ≤ T → T ≤ hi → ∃ f w d, codeD B [some (some T, some P)] = .ok (f, w) ∧ f 0 = some d ∧
        (B.F.p T d).vd ≠ 0 ∧ ∀ t y, si E U B .T t = T →
          MpGives E B (codeSol B) [] [("T", .scalar t), ("p", .scalar p)] j.quantity 0 y →
          si E U B j.quantity y = B.inv j T d := by
      intro T hT1 hT2
      obtain ⟨d, hd, hvd⟩ := hall (inUnitsKg E.a U B.mw .temperature T) (by rw [hTT]; exact hT1) (by rw [hTT]; exact hT2)
      have hc := tp_call E U hU B Tmin hB (by rw [hTT]; linarith) (by rw [hTT]; linarith) h1 h2 hd
      rw [hTT] at hc hvd
      rw [← hP] at hc
      obtain ⟨⟨f, w, hf, hf0⟩, hval⟩ := hc
      refine ⟨f, w, _, hf, hf0, hvd, fun t y ht hy => hval j y ?_⟩
      have : t = inUnitsKg E.a U B.mw .temperature T := by
        rw [← ht]; exact (inUnitsKg_internalKg hU hmw _ _).symm
      rw [← this]; exact hy
    have hk : ∀ T, ∃ d : ℝ, (lo ≤ T → T ≤ hi → ∃ f w, codeD B [some (some T, some P)] = .ok (f, w) ∧ f 0 = some d ∧
        (B.F.p T d).vd ≠ 0 ∧ ∀ t y, si E U B .T t = T →
          MpGives E B (codeSol B) [] [("T", .scalar t), ("p", .scalar p)] j.quantity 0 y →
          si E U B j.quantity y = B.inv j T d) := by
      intro T
      by_cases hT : lo ≤ T ∧ T ≤ hi
      · obtain ⟨f, w, d, h⟩ := dens T hT.1 hT.2
        exact ⟨d, fun _ _ => ⟨f, w, h⟩⟩
      · exact ⟨0, fun a b => absurd ⟨a, b⟩ hT⟩
    choose dn hdn using hk
    have hj : ∀ T d, (B.invQ j T d).v = B.inv j T d := by intro T d; cases j <;> rfl
    obtain ⟨f, w, T, hr, hf⟩ := hybridB_answers
      (F := tpiter (fun q => (codeD B q).map (·.1)) B (B.invQ j) [some (some P)]) (y := z) 50
      (fun T => B.inv j T (dn T))
      (fun T => (B.invQ j T (dn T)).vT - (B.invQ j T (dn T)).vd * (B.F.p T (dn T)).vT / (B.F.p T (dn T)).vd) l2 (by
        intro T hT1 hT2
        obtain ⟨f, w, hf, hf0, hvd, -⟩ := hdn T hT1 hT2
        refine ⟨fun n => tpSlope B (B.invQ j) (([some (some T)][n]?).bind (·.bind id)) (f n), ?_, ?_⟩
        · unfold tpiter
          simp only [List.zipWith_cons_cons, List.zipWith_nil_right, Option.bind_some, Option.map_some, hf]
          rfl
        · simp only [List.getElem?_cons_zero, Option.bind_some, id, hf0, tpSlope, quot, if_neg hvd, Option.map_some, hj])
      (by
        obtain ⟨-, -, -, -, -, q1⟩ := hdn lo le_rfl l2
        obtain ⟨-, -, -, -, -, q2⟩ := hdn hi l2 le_rfl
        rw [q1 t1 y1 e1 g1, q2 t2 y2 e2 g2, ← hz] at hbr
        exact hbr)
    have hT' : (codeSol B).Thp j [some (z, some P, Ts 0)] = .ok f := by
      show (codeThp _ B j _).map (·.1) = _
      unfold codeThp
      simp only [List.map_cons, List.map_nil, Option.map_some, thpIn, hlim]
      rw [hr]; rfl
    have hin := hybridB_in hr (i := 0) rfl rfl rfl l2 hf
    obtain ⟨fd, wd, hfd, hfd0, -⟩ := hdn T hin.1 hin.2
    have hd' : (codeSol B).d [some (some T, some P)] = .ok fd := by
      show (codeD B _).map (·.1) = _
      rw [hfd]; rfl
    simp only [mpHP, broadcast, List.length_cons, List.length_nil, if_true, exOk, List.zip_cons_cons,
      List.zip_nil_right, hTs, List.mapIdx_cons, List.mapIdx_nil, hsat, Option.isSome_none, Bool.false_eq_true,
      if_false, hT', hf, hd', hfd0] at ha
    exact answered_one hU hmw ha
  rcases h with ⟨hc, hR⟩ | ⟨hc1, hc2, ts, hts, hLV, h⟩
  · have hb : betweenP B (some P) = false := by
      simp only [betweenP, ge_iff_le, hc, not_true, decide_false]
    refine one (fun _ => none) B.Tlo B.Thi ?_ ?_ ?_ hR
    · unfold askTs; rw [if_neg (by simp [hb])]
    · unfold satHP; rw [if_neg (by simp [hb])]
    · unfold thpLimits; rw [if_neg (by simp [hb])]
  · have hb : betweenP B (some P) = true := by
      simp only [betweenP, decide_eq_true_eq]
      rintro (h | h) <;> linarith
    have ht := sc ts hts
    obtain ⟨t, e⟩ : ∃ t, t = si E U B .T ts := ⟨_, rfl⟩
    simp only [← e] at ht h hLV
    obtain ⟨Ts, hask, hT0⟩ := ask_one hb ht
    have sat0 : (z < B.inv j t (B.dsl t) ∨ B.inv j t (B.dsv t) < z) → satHP B j (Ts 0) (z, some P) = none := by
      intro h
      unfold satHP satInv
      rw [if_pos hb, hT0, Option.bind_some]
      dsimp only
      rw [if_neg]
      rintro ⟨a, b⟩
      rcases h with h | h <;> linarith
    rcases h with ⟨h3, h4⟩ | ⟨h3, h4⟩
    · refine one Ts _ _ hask (sat0 (.inr h3)) ?_ h4
      unfold thpLimits
      rw [if_pos hb, hT0]
      simp only [gt_iff_lt, h3, if_true]
    · refine one Ts _ _ hask (sat0 (.inl h3)) ?_ h4
      unfold thpLimits
      rw [if_pos hb, hT0]
      simp only [gt_iff_lt, not_lt.mpr (h3.le.trans hLV.le), if_false]

/-- **C77**, energy, enthalpy or entropy with pressure, saturated: between triple-point and critical pressure,
values between those of the saturated liquid and vapor at the saturation temperature are answered with a
mixture. -/
theorem C77_with_pressure_saturated (j : Mp.Inv) (y p ts : ℝ) (h1 : B.plo ≤ si E U B .p p) (h2 : si E U B .p p ≤ B.phi)
    (hc1 : B.pt < si E U B .p p) (hc2 : si E U B .p p < B.pc)
    (hts : MpGives E B (codeSol B) [] [("p", .scalar p), ("x", .scalar 0)] .T 0 ts)
    (h : let t := si E U B .T ts
      let z := si E U B j.quantity y
      B.inv j t (B.dsl t) < B.inv j t (B.dsv t) ∧ B.inv j t (B.dsl t) ≤ z ∧ z ≤ B.inv j t (B.dsv t)) :
    Mixture E B (codeSol B) [(j.name, .scalar y), ("p", .scalar p)] := by
  have hmw := hB.dome.mw.ne'
  have ha := argparse_HP E U B hU hmw (codeSol B) j y p h1 h2
  have ht := sat_call hU hmw h1 h2 hts
  obtain ⟨P, hP⟩ : ∃ P, P = si E U B .p p := ⟨_, rfl⟩
  obtain ⟨z, hz⟩ : ∃ z, z = si E U B j.quantity y := ⟨_, rfl⟩
  obtain ⟨t, e⟩ : ∃ t, t = si E U B .T ts := ⟨_, rfl⟩
  simp only [← hP, ← hz, ← e] at h ha hc1 hc2 ht
  obtain ⟨hLV, h3, h4⟩ := h
  have hb : betweenP B (some P) = true := by
    simp only [betweenP, decide_eq_true_eq]
    rintro (h | h) <;> linarith
  obtain ⟨Ts, hask, hT0⟩ := ask_one hb ht
  have hs : satHP B j (Ts 0) (z, some P) =
      some (some ((z - B.inv j t (B.dsl t)) / (B.inv j t (B.dsv t) - B.inv j t (B.dsl t)))) := by
    unfold satHP satInv
    rw [if_pos hb, hT0, Option.bind_some]
    dsimp only
    rw [if_pos ⟨h3, h4⟩, quot, if_neg (by linarith)]
  obtain ⟨f, w, hf⟩ : ∃ f w, codeThp (fun q => (codeD B q).map (·.1)) B j [none] = .ok (f, w) := by
    obtain ⟨g, w, hg⟩ := run_off (N := 50)
    have hD : ∀ p : Nan, tpiter (fun q => (codeD B q).map (·.1)) B (B.invQ j) [none] [none] =
        .ok (fun n => tpSlope B (B.invQ j) (([(none : Option Nan)][n]?).bind (·.bind id)) (g n)) := by
      intro p
      unfold tpiter
      have : codeD B [none] = .ok (g, w) := hg
      simp only [List.zipWith_cons_cons, List.zipWith_nil_right, Option.bind_none, this]
      rfl
    unfold codeThp hybridB
    simp only [List.map_cons, List.map_nil, Option.map_none, thpIn, Bool.false_eq_true, if_false, hD none, exOk,
      List.mapIdx_cons, List.mapIdx_nil, List.any_cons, List.any_nil, Bool.or_self, Bool.false_and]
    unfold hloopB
    rw [if_neg (by simp [hinitB])]
    exact ⟨_, _, rfl⟩
  have hf' : (codeSol B).Thp j [none] = .ok f := by
    show (codeThp (fun q => (codeD B q).map (·.1)) B j [none]).map (·.1) = _
    rw [hf]; rfl
  obtain ⟨g, w', hg⟩ := run_off (N := 50)
  have hg' : (codeSol B).d [none] = .ok g := by
    show (codeD B [none]).map (·.1) = _
    have : codeD B [none] = .ok (g, w') := hg
    rw [this]; rfl
  rw [hT0] at hs
  simp only [mpHP, broadcast, List.length_cons, List.length_nil, if_true, exOk, List.zip_cons_cons,
    List.zip_nil_right, hask, List.mapIdx_cons, List.mapIdx_nil, hT0, hs, Option.isSome_some, hf', hg'] at ha
  have := frac_le h3 h4 hLV
  exact answered_sat hU hmw ha this.1 this.2

end

end PyroMat.Mp.Props
