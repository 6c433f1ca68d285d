import Verif.If97.PropsInverse

/-!
# Steam: temperature from entropy and pressure (C89)
-/

set_option linter.unusedSimpArgs false

namespace PyroMat.If97.Props

open PyroMat PyroMat.Units PyroMat.Units.Props PyroMat.Gas PyroMat.Gas.Spec
open PyroMat.Units.Spec hiding kelvin
open PyroMat.Gas.Props PyroMat.Mp.Spec PyroMat.Mp.Props PyroMat.If97 PyroMat.If97.Spec

/-- The default units: K, bar, kJ and kg. -/
structure DefaultUnits (S : Sys) : Prop where
  T : S.T = .K
  p : S.p = "bar"
  e : S.e = "kJ"
  m : S.m = "kg"

section
variable {E : Env} {S : Sys} {W : Water} {B : Back}

theorem DefaultUnits.barKg (h : DefaultUnits S) : BarKg S := ⟨h.p, h.m⟩

theorem DefaultUnits.kelvin (h : DefaultUnits S) (t : ℝ) : kelvin S t = t := by
  show Units.toKelvin S.T.name t = t
  rw [h.T]; exact toK_K t

theorem DefaultUnits.from (h : DefaultUnits S) (t : ℝ) : fromKelvin S.T.name t = t := by
  rw [h.T]; rfl

theorem DefaultUnits.shown (hU : Uses E S) (h : DefaultUnits S) (hmw : W.mw ≠ 0) (v : ℝ) :
    shown E.a S W.mw .s v = v := by
  have e1 : size (energy : Conv ℝ) S.e = 1000 := by rw [h.e]; rfl
  have e2 : size (temperature : Conv ℝ) S.T.name = 1.8 := size_18 (Or.inl h.T)
  have h1 := msize_kg hU h.m hmw
  simp only [If97.Spec.shown, kind, inUnitsKg, inUnits, perKmol, e1, e2, h1]
  field_simp
  try norm_num

theorem sFactor_one (hU : Uses E S) (hT : S.T = .K ∨ S.T = .C) (he : S.e = "kJ") (hm : S.m = "kg") (hmw : W.mw ≠ 0) :
    sFactor E W = .ok 1 := by
  have e1 : size (energy : Conv ℝ) S.e = 1000 := by rw [he]; rfl
  have e2 : size (temperature : Conv ℝ) S.T.name = 1.8 := size_18 hT
  have hc : (temperature : Conv ℝ).contains S.T.name = true := by
    rcases hT with h | h <;> rw [h] <;> rfl
  unfold sFactor
  rw [hFactor_eq hU hmw, exOk]
  rw [scalarOf_to hU (nz_temperature hU) (k := "unit_temperature") rfl hU.T hc (w := "K") (y := 1.8) rfl]
  simp only [hFac, e1, e2, msize_kg hU hm hmw, powS]
  congr 1
  field_simp
  try norm_num

theorem mTs_one (hU : Uses E S) {c : ℝ} (hc : sFactor E W = .ok c) (s p : ℝ) :
    mTsInv E W B (.scalar s) (some (.scalar p)) =
      (tsElement E W B (s * c) (bar E.a S p)).map (fun w => ([fromKelvin S.T.name w.1], [w.2])) := by
  unfold mTsInv
  show (([p].mapM _) >>= _) = _
  simp only [List.mapM_cons, List.mapM_nil, toBar_eq hU, exOk, hc, pure, Except.pure]
  show (nditer2 [s] [bar E.a S p] >>= _) = _
  rw [nditer2_one, exOk]
  unfold fromK
  simp only [List.mapM_cons, List.mapM_nil, scalarOf_tscale hU, exOk]
  cases tsElement E W B (s * c) (bar E.a S p) with
  | error e => rfl
  | ok w => rfl

theorem mTs_default (hU : Uses E S) (h : DefaultUnits S) (hmw : W.mw ≠ 0) (s p : ℝ) :
    mTsInv E W B (.scalar s) (some (.scalar p)) = (tsElement E W B s p).map (fun w => ([w.1], [w.2])) := by
  rw [mTs_one hU (sFactor_one hU (Or.inl h.T) h.e h.m hmw), bar_bar h.p, mul_one]
  cases tsElement E W B s p with
  | error e => rfl
  | ok w => simp only [Except.map, h.from]

/-- The entropy `s(T,p)` reports. -/
def EntropyAt (E : Env) (W : Water) (T p v : ℝ) : Prop :=
  method E W .s (some (.scalar T)) (some (.scalar p)) none = .ok [some v]

theorem sAt_of {T p v : ℝ} (h : EntropyAt E W T p v) : sAt E W T p = .ok v := by
  unfold sAt single1
  rw [show method E W .s (some (.scalar T)) (some (.scalar p)) none = _ from h]
  rfl

theorem sSat1 (hd : GoodData W) (hR : W.R ≠ 0) {T p v : ℝ} (hT : T ≠ 0) (hp : p ≠ 0) (hr : RegularAt W 1 T p)
    (hv : Derives W 1 .s T p v) : sSat W (g1 W) T p = .ok v := by
  obtain ⟨g, e1, e2, -⟩ := derives1 hd.r1 .s hR hT hp hr
  unfold sSat
  rw [show (1 : Nat) = Q.s.order from rfl, e1, derives_s_unique hv e2]
  rfl

theorem sSat2 (hd : GoodData W) (hR : W.R ≠ 0) {T p v : ℝ} (hT : T ≠ 0) (hp : p ≠ 0) (hr : RegularAt W 2 T p)
    (hv : Derives W 2 .s T p v) : sSat W (g2 W) T p = .ok v := by
  obtain ⟨g, e1, e2, -⟩ := derives2 hd .s hR hT hp hr
  unfold sSat
  rw [show (1 : Nat) = Q.s.order from rfl, e1, derives_s_unique hv e2]
  rfl

/-- Saturated liquid and vapour at a pressure, with their entropies. -/
structure Sat (W : Water) (p T sL sV : ℝ) : Prop where
  pt : W.pt ≤ p
  pc : p ≤ W.pc
  p0 : p ≠ 0
  Ts : Ts W p = some T
  T0 : T ≠ 0
  r1 : RegularAt W 1 T p
  r2 : RegularAt W 2 T p
  hL : Derives W 1 .s T p sL
  hV : Derives W 2 .s T p sV

theorem tsLow_eq (hU : Uses E S) (h : DefaultUnits S) (hd : GoodData W) (hR : W.R ≠ 0) {p T sL sV : ℝ}
    (hs : Sat W p T sL sV) (s : ℝ) :
    tsLow E W B s p = if s < sL then (ts1 B s p).map (fun T => (T, -1))
      else if s < sV then .ok (T, (s - sL) / (sV - sL))
      else (tsVapour E W B s p).map (fun T => (T, -1)) := by
  unfold tsLow
  rw [mTs_eq hU, if_neg, exOk]
  · simp only [Val.elems, List.map_cons, List.map_nil, bar_bar h.p, hs.Ts, Option.map_some, h.from]
    rw [sSat1 hd hR hs.T0 hs.p0 hs.r1 hs.hL, exOk, sSat2 hd hR hs.T0 hs.p0 hs.r2 hs.hV, exOk]
  · rintro ⟨x, hx, hl⟩
    rw [List.mem_singleton.mp hx, bar_bar h.p] at hl
    rcases hl with hl | hl
    · linarith [hs.pt]
    · linarith [hs.pc]

/-- **C89.** Saturated mixtures: the saturation temperature, and the quality by the entropies of liquid and
vapour. -/
theorem C89_mixture (hU : Uses E S) (h : DefaultUnits S) (hd : GoodData W) (hmw : W.mw ≠ 0) (hR : W.R ≠ 0)
    {p T sL sV s : ℝ} (hp : p < 165.292) (hs : Sat W p T sL sV) (h1 : sL ≤ s) (h2 : s < sV) :
    mTsInv E W B (.scalar s) (some (.scalar p)) = .ok ([T], [(s - sL) / (sV - sL)]) := by
  rw [mTs_default hU h hmw]
  unfold tsElement
  rw [if_pos hp, tsLow_eq hU h hd hR hs, if_neg (by linarith), if_pos h2]
  rfl

/-- **C89.** Round trip: `T_s` gives the saturation temperature and the quality back from the entropy of a mixture
of liquid and vapour and its pressure. -/
theorem C89_roundtrip_mixture (hU : Uses E S) (h : DefaultUnits S) (hd : GoodData W) (hmw : W.mw ≠ 0) (hR : W.R ≠ 0)
    {p T sL sV x : ℝ} (hp : p < 165.292) (hs : Sat W p T sL sV) (hlt : sL < sV) (hx : 0 ≤ x) (hx1 : x < 1) :
    ∃ s, method E W .s none (some (.scalar p)) (some (.scalar x)) = .ok [some s] ∧
      mTsInv E W B (.scalar s) (some (.scalar p)) = .ok ([T], [x]) := by
  obtain ⟨v, vL, vV, e1, e2, e3, e4⟩ := h_mixture hU h.p hd hmw hR (q := .s) (Or.inr (Or.inl h.T)) hs.p0 hs.Ts hs.T0
    hs.r1 hs.r2 hx
  have k1 := derives_s_unique hs.hL e2
  have k2 := derives_s_unique hs.hV e3
  subst k1 k2
  have hx' : v = x * sV + (1 - x) * sL := by
    simp only [Lever] at e4
    linarith
  have h3 : 0 < sV - sL := sub_pos.mpr hlt
  rw [h.shown hU hmw] at e1
  refine ⟨_, e1, ?_⟩
  rw [C89_mixture hU h hd hmw hR hp hs (by rw [hx']; nlinarith) (by rw [hx']; nlinarith), hx']
  congr 3
  field_simp
  ring

/-- **C89.** Liquid: the backward equation of region 1. -/
theorem C89_liquid (hU : Uses E S) (h : DefaultUnits S) (hd : GoodData W) (hB : GoodBack B) (hmw : W.mw ≠ 0)
    (hR : W.R ≠ 0) {p s : ℝ} (hr : Regular B.ts1 (p / 10) (s + 2))
    (hz : (p < 165.292 ∧ ∃ T sL sV, Sat W p T sL sV ∧ s < sL) ∨
      (165.292 ≤ p ∧ p ≤ 1000 ∧ ∃ s13, EntropyAt E W 623.15 p s13 ∧ s < s13)) :
    mTsInv E W B (.scalar s) (some (.scalar p)) = .ok ([polyAt B.ts1 (p / 10) (s + 2)], [-1]) := by
  rw [mTs_default hU h hmw]
  unfold tsElement
  rcases hz with ⟨hp, T, sL, sV, hs, hl⟩ | ⟨hp, hp2, s13, hs, hl⟩
  · rw [if_pos hp, tsLow_eq hU h hd hR hs, if_pos hl]
    unfold ts1
    rw [fit_poly hB.ts1 hr]; rfl
  · rw [if_neg (by linarith), if_pos hp2]
    unfold tsHigh
    rw [sAt_of hs, exOk, if_pos hl]
    unfold ts1
    rw [fit_poly hB.ts1 hr]; rfl

/-- Right of the saturated vapour, or above 165.292 bar right of the boundary between regions 2 and 3. -/
inductive RightOf (E : Env) (W : Water) (p s : ℝ) : Prop
  | low {T sL sV : ℝ} (hp : p < 165.292) (hs : Sat W p T sL sV) (h1 : sL ≤ s) (h2 : sV ≤ s)
  | high {s13 s23 : ℝ} (hp : 165.292 ≤ p) (hp2 : p ≤ 1000) (e1 : EntropyAt E W 623.15 p s13)
      (e2 : EntropyAt E W (b23T W p) p s23) (h1 : s13 ≤ s) (h2 : s23 ≤ s)

theorem tsRight (hU : Uses E S) (h : DefaultUnits S) (hd : GoodData W) (hR : W.R ≠ 0) {p s : ℝ}
    (hz : RightOf E W p s) :
    tsElement E W B s p = (if p < 40 then (do
        let s25 ← sAt E W 1073.15 p
        if s < s25 then ts2a B s p else tsHot E W s p s25)
      else if s < 5.85 then ts2c B s p
      else do
        let s25 ← sAt E W 1073.15 p
        if s < s25 then ts2b B s p
        else if p ≤ 500 then tsHot E W s p s25
        else .error .param).map (fun T => (T, -1)) := by
  unfold tsElement
  cases hz with
  | low hp hs h1 h2 =>
    rw [if_pos hp, tsLow_eq hU h hd hR hs, if_neg (by linarith), if_neg (by linarith)]
    unfold tsVapour
    simp only [if_pos (show p ≤ 500 by linarith)]
  | high hp hp2 e1 e2 h1 h2 =>
    rw [if_neg (by linarith), if_pos hp2, if_neg (show ¬ p < 40 by linarith)]
    unfold tsHigh
    rw [sAt_of e1, exOk, if_neg (by linarith), sAt_of e2, exOk, if_neg (by linarith)]

/-- **C89.** Vapour up to 1073.15 K: the backward equations of regions 2a (below 40 bar), 2c (left of 5.85 kJ/kg/K)
and 2b. -/
theorem C89_vapour (hU : Uses E S) (h : DefaultUnits S) (hd : GoodData W) (hB : GoodBack B) (hmw : W.mw ≠ 0)
    (hR : W.R ≠ 0) {p s s25 : ℝ} (hz : RightOf E W p s) (e : EntropyAt E W 1073.15 p s25) :
    (p < 40 → s < s25 → Regular B.ts2a ((p / 10) ^ (0.25 : ℝ)) (s / 2 - 2) →
      mTsInv E W B (.scalar s) (some (.scalar p)) = .ok ([polyAt B.ts2a ((p / 10) ^ (0.25 : ℝ)) (s / 2 - 2)], [-1])) ∧
    (40 ≤ p → s < 5.85 → Regular B.ts2c (p / 10) (2 - s / 2.9251) →
      mTsInv E W B (.scalar s) (some (.scalar p)) = .ok ([polyAt B.ts2c (p / 10) (2 - s / 2.9251)], [-1])) ∧
    (40 ≤ p → 5.85 ≤ s → s < s25 → Regular B.ts2b (p / 10) (10 - s / 0.7853) →
      mTsInv E W B (.scalar s) (some (.scalar p)) = .ok ([polyAt B.ts2b (p / 10) (10 - s / 0.7853)], [-1])) := by
  rw [mTs_default hU h hmw, tsRight hU h hd hR hz]
  refine ⟨fun a b c => ?_, fun a b c => ?_, fun a b c d => ?_⟩
  · rw [if_pos a, sAt_of e, exOk, if_pos b]
    unfold ts2a
    rw [fit_poly hB.ts2a c]; rfl
  · rw [if_neg (by linarith), if_pos b]
    unfold ts2c
    rw [fit_poly hB.ts2c c]; rfl
  · rw [if_neg (by linarith), if_neg (by linarith), sAt_of e, exOk, if_pos c]
    unfold ts2b
    rw [fit_poly hB.ts2b d]; rfl

/-! ## The iterations -/

theorem ts5Loop_inv {ss p T : ℝ} {k : Nat} {t : ℝ} (h : ts5Loop W ss p k t = .ok T) :
    ∃ t g, g5 W (1000 / t) p 2 = .ok g ∧ |t * g.j.py - g.j.p - ss| < 1e-6 * ss ∧ T = 1000 / t := by
  induction k generalizing t with
  | zero => cases h
  | succ k ih =>
    unfold ts5Loop at h
    cases hg : g5 W (1000 / t) p 2 with
    | error e => rw [hg] at h; cases h
    | ok g =>
      rw [hg, exOk] at h
      dsimp only at h
      split_ifs at h with hc
      · cases h
        exact ⟨t, g, hg, hc, rfl⟩
      · exact ih h

/-- What region 5 returns solves the entropy equation to the relative tolerance 1e-6. -/
theorem ts5_near (hd : GoodData W) (hR : 0 < W.R) {s p Ti T : ℝ} (hp : p ≠ 0) (ho : ts5 W s p Ti = .ok T)
    (hT : T ≠ 0) : ∃ v, Derives W 5 .s T p v ∧ |v - s| < 1e-6 * s := by
  obtain ⟨t, g, h1, h2, rfl⟩ := ts5Loop_inv ho
  obtain ⟨g', k, e1, e2, e3, e4, e5⟩ := g5_orders hd (1000 / t) p
  rw [h1] at e1
  cases e1
  obtain ⟨m, m1, m2⟩ := derives5 hd .s hR.ne' hT hp (regular5 hT hp)
  rw [show Q.s.order = 1 from rfl, e2] at m1
  cases m1
  refine ⟨_, m2, ?_⟩
  have ht : t ≠ 0 := fun h0 => hT (by rw [h0, div_zero])
  have : Q.s.gibbs W.R (1000 / t) p k = W.R * (t * g.j.py - g.j.p) := by
    have : (1000 : ℝ) / (1000 / t) = t := by field_simp
    simp only [Q.gibbs, e5, e3, e4, this]
  rw [this]
  have hm : W.R * (t * g.j.py - g.j.p) - s = W.R * (t * g.j.py - g.j.p - s / W.R) := by
    field_simp
  rw [hm, abs_mul, abs_of_pos hR]
  have := mul_lt_mul_of_pos_left h2 hR
  calc _ < _ := this
    _ = _ := by field_simp

theorem tsHot_cases (hd : GoodData W) (hR : 0 < W.R) {s p s25 s5 : ℝ} (hp : p ≠ 0)
    (e5 : EntropyAt E W 2273.15 p s5) :
    (s5 < s → tsHot E W s p s25 = .error .param) ∧
    (s ≤ s5 → tsHot E W s p s25 = .error .analysis ∨ ∃ T, tsHot E W s p s25 = .ok T ∧
      (T ≠ 0 → ∃ w, Derives W 5 .s T p w ∧ |w - s| < 1e-6 * s)) := by
  unfold tsHot
  rw [sAt_of e5, exOk]
  refine ⟨fun h => by rw [if_pos h], fun h => ?_⟩
  rw [if_neg (not_lt.mpr h)]
  cases ho : ts5 W s p (1073.15 + (2273.15 - 1073.15) * (s - s25) / (s5 - s25)) with
  | ok T => exact Or.inr ⟨T, rfl, fun hT => ts5_near hd hR hp ho hT⟩
  | error e =>
    left
    have : ∀ k hh t, ts5Loop W hh p k t = .error e → e = .analysis := by
      intro k
      induction k with
      | zero => intro hh t h; cases h; rfl
      | succ k ih =>
        intro hh t h
        unfold ts5Loop at h
        obtain ⟨g, hg⟩ := g5_ok hd (1000 / t) p 2
        rw [hg, exOk] at h
        dsimp only at h
        split_ifs at h with hc
        exact ih _ _ h
    rw [this _ _ _ ho]

/-- **C89.** Region 5, up to and including 500 bar: above the highest entropy the call is refused; below, it
returns a temperature whose entropy is the one given to the relative tolerance 1e-6, or reports that the
iteration did not converge. -/
theorem C89_hot (hU : Uses E S) (h : DefaultUnits S) (hd : GoodData W) (hmw : W.mw ≠ 0) (hR : 0 < W.R)
    {p s s25 s5 : ℝ} (hp0 : p ≠ 0) (hp : p ≤ 500) (hz : RightOf E W p s) (hb : p < 40 ∨ 5.85 ≤ s)
    (e25 : EntropyAt E W 1073.15 p s25) (e5 : EntropyAt E W 2273.15 p s5) (h1 : s25 ≤ s) :
    (s5 < s → mTsInv E W B (.scalar s) (some (.scalar p)) = .error .param) ∧
    (s ≤ s5 → mTsInv E W B (.scalar s) (some (.scalar p)) = .error .analysis ∨
      ∃ T, mTsInv E W B (.scalar s) (some (.scalar p)) = .ok ([T], [-1]) ∧
        (T ≠ 0 → ∃ w, Derives W 5 .s T p w ∧ |w - s| < 1e-6 * s)) := by
  have key : mTsInv E W B (.scalar s) (some (.scalar p)) =
      (tsHot E W s p s25).map (fun T => ([T], [-1])) := by
    rw [mTs_default hU h hmw, tsRight hU h hd hR.ne' hz, sAt_of e25, exOk, exOk, if_neg (not_lt.mpr h1),
      if_neg (not_lt.mpr h1), if_pos hp]
    split_ifs with c1 c2
    · cases tsHot E W s p s25 <;> rfl
    · rcases hb with hb | hb
      · exact absurd hb c1
      · linarith
    · cases tsHot E W s p s25 <;> rfl
  obtain ⟨c1, c2⟩ := tsHot_cases (s := s) (s25 := s25) hd hR hp0 e5
  rw [key]
  refine ⟨fun h => by rw [c1 h]; rfl, fun h => ?_⟩
  rcases c2 h with e | ⟨T, e, k⟩
  · left; rw [e]; rfl
  · exact Or.inr ⟨T, by rw [e]; rfl, k⟩

theorem ts3Loop_inv {pp ss T : ℝ} {k : Nat} {s : Iter3} (h : ts3Loop W pp ss k s = .ok T) :
    ∃ n t r, pfromd W t n = .ok r ∧ T = W.Tc / t ∧ 0 ≤ n ∧
      (n * n * r.2.px / t - pp) ^ 2 + (t * r.2.py - r.2.p - ss) ^ 2 < 1e-10 := by
  induction k generalizing s with
  | zero => cases h
  | succ k ih =>
    unfold ts3Loop at h
    cases hg : pfromd W s.t s.n with
    | error e => rw [hg] at h; cases h
    | ok r =>
      rw [hg, exOk] at h
      dsimp only at h
      split_ifs at h with h0 h1 h2
      · cases h
        refine ⟨s.n, s.t, r, hg, rfl, not_lt.mp h0, ?_⟩
        rw [pow_two, pow_two]
        exact lt_of_lt_of_eq h1 (by norm_num)
      · exact ih h
      · cases hs : solve2 (s.n / s.t * (2 * r.2.px + s.n * r.2.pxx)) (s.n * s.n / s.t * (r.2.pxy - r.2.px / s.t))
          (s.t * r.2.pxy - r.2.px) (s.t * r.2.pyy) (-(s.n * s.n * r.2.px / s.t - pp))
          (-(s.t * r.2.py - r.2.p - ss)) with
        | error e => rw [hs] at h; cases h
        | ok dx => rw [hs, exOk] at h; exact ih h

theorem ts3_near (hW : Good3 W) (hTc : 0 < W.Tc) {s p Ti T : ℝ} (hp : 1e-5 * (W.dc * W.R * W.Tc) ≤ p * 100)
    (ho : ts3 W s p Ti = .ok T) (hT : T ≠ 0) :
    Matches3 W .s T p s (W.dc * W.R * W.Tc / 100) W.R := by
  obtain ⟨n, t, r, h1, rfl, -, h3⟩ := ts3Loop_inv ho
  have ht : t ≠ 0 := fun h0 => hT (by rw [h0, div_zero])
  have hR := hW.R
  have hdc := hW.dc
  have hD : 0 < W.dc * W.R * W.Tc := by positivity
  have hn : n ≠ 0 := by
    rintro rfl
    have h4 : (1e-5 : ℝ) ≤ p * 1e2 / (W.dc * W.R * W.Tc) := by
      rw [le_div_iff₀ hD]; norm_num at hp ⊢; linarith
    have h5 : (0 * 0 * r.2.px / t - p * 1e2 / (W.dc * W.R * W.Tc)) ^ 2 = (p * 1e2 / (W.dc * W.R * W.Tc)) ^ 2 := by
      ring
    rw [h5] at h3
    have h6 := pow_le_pow_left₀ (by norm_num) h4 2
    norm_num at h6 h3
    nlinarith [sq_nonneg (t * r.2.py - r.2.p - s / W.R)]
  obtain ⟨F, k1, k2⟩ := pfromd_is hW hTc.ne' hn ht
  rw [h1] at k1
  cases k1
  have hTT : W.Tc / t ≠ 0 := hT
  have hcc : W.Tc / (W.Tc / t) = t := by field_simp
  refine ⟨_, _, k2, ?_⟩
  have e1 := helm_pressure (R := W.R) (Tc := W.Tc) (T := W.Tc / t) (n := n) hdc.ne' (phiJet W F)
  have e2 := helm_value .s (R := W.R) (Tc := W.Tc) (T := W.Tc / t) (n := n) hR.ne' hTT hdc.ne' hn (phiJet W F)
  rw [hcc] at e1 e2
  rw [e1, ← e2]
  simp only [Q.helm]
  refine lt_of_eq_of_lt ?_ h3
  congr 1
  · congr 1
    field_simp
    norm_num
    ring
  · congr 1
    field_simp

/-- **C89.** Region 3: the temperature returned, with some density, matches pressure and entropy to the tolerance
of the iteration; otherwise the call reports that it did not converge, or `numpy` a singular matrix. -/
theorem C89_region3 (hU : Uses E S) (h : DefaultUnits S) (hd : GoodData W) (hW : Good3 W) (hTc : 0 < W.Tc)
    (hmw : W.mw ≠ 0) {p s13 s23 s : ℝ} (hp : 165.292 ≤ p) (hp2 : p ≤ 1000)
    (hpp : 1e-5 * (W.dc * W.R * W.Tc) ≤ p * 100) (e1 : EntropyAt E W 623.15 p s13)
    (e2 : EntropyAt E W (b23T W p) p s23) (h1 : s13 ≤ s) (h2 : s < s23) :
    mTsInv E W B (.scalar s) (some (.scalar p)) = .error .analysis ∨
    mTsInv E W B (.scalar s) (some (.scalar p)) = .error .exception ∨
      ∃ T, mTsInv E W B (.scalar s) (some (.scalar p)) = .ok ([T], [-1]) ∧
        (T ≠ 0 → Matches3 W .s T p s (W.dc * W.R * W.Tc / 100) W.R) := by
  rw [mTs_default hU h hmw]
  unfold tsElement tsHigh
  rw [if_neg (not_lt.mpr hp), if_pos hp2, sAt_of e1, exOk, if_neg (by linarith), sAt_of e2, exOk, if_pos h2]
  cases ho : ts3 W s p (623.15 + (b23T W p - 623.15) * (s - s13) / (s23 - s13)) with
  | ok T => exact Or.inr (Or.inr ⟨T, rfl, fun hT => ts3_near hW hTc hpp ho hT⟩)
  | error e =>
    have : ∀ k pp hh s, ts3Loop W pp hh k s = .error e → e = .analysis ∨ e = .exception := by
      intro k
      induction k with
      | zero => intro pp hh s h; cases h; exact Or.inl rfl
      | succ k ih =>
        intro pp hh s h
        unfold ts3Loop at h
        obtain ⟨F, f1, -⟩ := peval_does W.r3 hd.r3
        have : ∃ w, pfromd W s.t s.n = .ok w := by
          unfold pfromd; rw [f1]; exact ⟨_, rfl⟩
        obtain ⟨w, hw⟩ := this
        rw [hw, exOk] at h
        dsimp only at h
        split_ifs at h with q0 q1 q2
        · cases h; exact Or.inl rfl
        · exact ih _ _ _ h
        · unfold solve2 at h
          split_ifs at h with q3
          · cases h; exact Or.inr rfl
          · rw [exOk] at h
            exact ih _ _ _ h
    rcases this _ _ _ _ ho with rfl | rfl
    · exact Or.inl rfl
    · exact Or.inr (Or.inl rfl)

/-- **C89.** Pressures above 1000 bar and below the triple point are refused, whatever the entropy. -/
theorem C89_refused (hU : Uses E S) (h : DefaultUnits S) (hmw : W.mw ≠ 0) (hpt : W.pt ≤ 165.292) {p : ℝ}
    (hp : 1000 < p ∨ p < W.pt) (s : ℝ) :
    mTsInv E W B (.scalar s) (some (.scalar p)) = .error .param := by
  rw [mTs_default hU h hmw]
  unfold tsElement
  rcases hp with hp | hp
  · rw [if_neg (by linarith), if_neg (by linarith)]
    rfl
  · rw [if_pos (by linarith)]
    unfold tsLow
    rw [mTs_eq hU, if_pos ⟨p, List.mem_singleton.mpr rfl, Or.inl (by rw [bar_bar h.p]; exact hp)⟩]
    rfl

/-- **C89.** Round trip in region 5, where the entropy increases with temperature. -/
theorem C89_roundtrip_hot (hU : Uses E S) (h : DefaultUnits S) (hd : GoodData W) (hmw : W.mw ≠ 0) (hR : 0 < W.R)
    {T p s25 s5 s : ℝ} (hp0 : p ≠ 0) (hin : InRegion W 5 T p) (hv : EntropyAt E W T p s)
    (hz : RightOf E W p s) (hb : p < 40 ∨ 5.85 ≤ s) (e25 : EntropyAt E W 1073.15 p s25)
    (e5 : EntropyAt E W 2273.15 p s5)
    (hmono : ∀ T1 T2 v1 v2, 1073.15 ≤ T1 → T1 ≤ T2 → T2 ≤ 2273.15 → EntropyAt E W T1 p v1 →
      EntropyAt E W T2 p v2 → v1 ≤ v2) :
    mTsInv E W B (.scalar s) (some (.scalar p)) = .error .analysis ∨
      ∃ T, mTsInv E W B (.scalar s) (some (.scalar p)) = .ok ([T], [-1]) ∧
        (T ≠ 0 → ∃ w, Derives W 5 .s T p w ∧ |w - s| < 1e-6 * s) := by
  obtain ⟨h1, h2, h3, h4⟩ := hin
  exact (C89_hot hU h hd hmw hR hp0 h4 hz hb e25 e5 (hmono _ _ _ _ (le_refl _) h1.le h2 e25 hv)).2
    (hmono _ _ _ _ h1.le h2 (le_refl _) hv e5)

/-! ## Other units -/

/-- **C89 disagreement.** With temperatures in °C, whenever `T_s` reports a saturated state its temperature is
273.15 degrees below the saturation temperature that `Ts` reports. -/
theorem C89_celsius_defect (hU : Uses E S) (hT : S.T = .C) (hp : S.p = "bar") (he : S.e = "kJ") (hm : S.m = "kg")
    (hd : GoodData W) (hmw : W.mw ≠ 0) {s p t x : ℝ}
    (ho : mTsInv E W B (.scalar s) (some (.scalar p)) = .ok ([t], [x])) (hx : 0 ≤ x) :
    ∃ ts, mTs E W (some (.scalar p)) = .ok [some ts] ∧ t = ts - 273.15 := by
  rw [mTs_one hU (sFactor_one hU (Or.inr hT) he hm hmw), bar_bar hp, mul_one] at ho
  have neg : ∀ r : Except Err ℝ, ((r.map (fun T => (T, (-1 : ℝ)))).map
      (fun w => ([fromKelvin S.T.name w.1], [w.2]))) ≠ .ok ([t], [x]) := by
    intro r h0
    cases r with
    | error e => cases h0
    | ok w =>
      have := congrArg Prod.snd (Except.ok.inj h0)
      simp only [List.cons.injEq, and_true] at this
      linarith
  unfold tsElement at ho
  split_ifs at ho with c1 c2
  · unfold tsLow at ho
    cases hts : mTs E W (some (.scalar p)) with
    | error e => rw [hts] at ho; cases ho
    | ok l =>
      rw [hts, exOk] at ho
      split at ho
      · rename_i T
        refine ⟨T, rfl, ?_⟩
        obtain ⟨g, hg⟩ := g1_ok hd T p 1
        obtain ⟨k, hk⟩ := g2_ok hd T p 1
        simp only [sSat, hg, hk, Except.map, exOk] at ho
        split_ifs at ho with c3 c4
        · exact absurd ho (neg _)
        · have := congrArg Prod.fst (Except.ok.inj ho)
          simp only [List.cons.injEq, and_true] at this
          rw [← this, hT]
          show fromKelvin "C" T = _
          simp [fromKelvin]
        · exact absurd ho (neg _)
      · exact absurd ho (neg _)
  · exact absurd ho (neg _)
  · cases ho

/-- **C89 disagreement.** With pressures in Pa `T_s` refuses every pressure below 165.292 bar, whatever the
entropy: the converted pressure is handed to `Ts`, which takes it for Pa. -/
theorem C89_pressure_defect (hU : Uses E S) (hT : S.T = .K) (hp : S.p = "Pa") (he : S.e = "kJ") (hm : S.m = "kg")
    (hmw : W.mw ≠ 0) (hpt : 0.002 ≤ W.pt) {p : ℝ} (h : p < 165.292e5) (s : ℝ) :
    mTsInv E W B (.scalar s) (some (.scalar p)) = .error .param := by
  have hb : ∀ x, bar E.a S x = x / 1e5 := by
    intro x
    have : size (Units.pressure E.a) S.p = 1 := by rw [hp]; rfl
    rw [bar, this]; ring
  rw [mTs_one hU (sFactor_one hU (Or.inl hT) he hm hmw), hb]
  unfold tsElement
  have h1 : p / 1e5 < 165.292 := by rw [div_lt_iff₀ (by norm_num)]; norm_num at h ⊢; linarith
  rw [if_pos h1]
  unfold tsLow
  rw [mTs_eq hU, if_pos ⟨p / 1e5, List.mem_singleton.mpr rfl, Or.inl (by
    rw [hb, div_lt_iff₀ (by norm_num)]
    norm_num at hpt h1 ⊢
    linarith)⟩]
  rfl

end

end PyroMat.If97.Props
