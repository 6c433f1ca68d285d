import Mathlib.Analysis.Calculus.Deriv.Comp
import Verif.Gas.PropsState

/-!
# C31, C32: thermodynamic identities between the results users see
-/

set_option linter.unusedSimpArgs false

namespace PyroMat.Gas.Props

open PyroMat PyroMat.Units PyroMat.Units.Spec PyroMat.Units.Props PyroMat.Gas PyroMat.Gas.Spec
open PyroMat.Config.Defaults Filter Topology

theorem coherent_ig (D : Data) (hw : WellFormed D) : Coherent (ig D) := by
  intro T h1 h2
  obtain ⟨i, lo, hi, c, e1, e2, e3, e4, e5, pw⟩ := (C33_evaluation D hw T).1 h1 h2
  have hT : T ≠ 0 := ((hw.pos lo (List.mem_of_getElem? e1)).trans_le e3).ne'
  refine ⟨Sho.h c T, Sho.s c T, Sho.cp c T, Sho.sT c T, Sho.gT c T, ?_, ?_, ?_, ?_⟩
  · simp [ig, pw, Sho.hT, Sho.cp]
  · simp [ig, pw]
  · simp [ig, pw]
  · simp [ig, pw, sho_g c hT]

theorem coherent_ig2 (D : Data) (hw : WellFormed D) : Coherent (ig2 D) := by
  intro T h1 h2
  obtain ⟨i, lo, hi, c, e1, e2, e3, e4, e5, pw⟩ := (C33_evaluation D hw T).1 h1 h2
  refine ⟨Nasa.h c T, Nasa.s c T, Nasa.cp c T, Nasa.sT c T, Nasa.gT c T, ?_, ?_, ?_, ?_⟩
  · simp [ig2, pw, nasa_hT_eq]
  · simp [ig2, pw]
  · simp [ig2, pw]
  · simp [ig2, pw, nasa_g c]

theorem entropy_scale_ne {E : Env} {S : Sys} (hU : Uses E S) {mw : ℝ} (hmw : mw ≠ 0) :
    inUnits E.a S mw .entropy 1 ≠ 0 := by
  have h2 := es_ne hU
  have h4 := ts_ne hU
  have h5 := ms_ne hU hmw
  simp only [inUnits]
  positivity

theorem energy_of_entropy {E : Env} {S : Sys} (hU : Uses E S) {mw : ℝ} (x T : ℝ) :
    inUnits E.a S mw .energy (x * T)
      = inUnits E.a S mw .entropy x * (T * (1.8 / size Units.temperature S.T.name)) := by
  have h4 := ts_ne hU
  simp only [inUnits]
  field_simp

/-- The identities between the results of one call, for any coherent gas. -/
theorem identities {E : Env} {S : Sys} (hU : Uses E S) {G : Gas} (hmw : G.mw ≠ 0) (hG : Coherent G)
    {varg : List (Val ℝ)} {kw : Kw} {a b : String} {va vb : Val ℝ}
    (h : Supplies varg kw a va b vb) {R : ℝ} (hR : mR E G = .ok R) {i : Nat} {t p : ℝ}
    (ht : Gives E G varg kw .T i t) (hp : Gives E G varg kw .p i p) :
    ∃ h e s g f cp cv gam, Gives E G varg kw .h i h ∧ Gives E G varg kw .e i e ∧
      Gives E G varg kw .s i s ∧ Gives E G varg kw .g i g ∧ Gives E G varg kw .f i f ∧
      Gives E G varg kw .cp i cp ∧ Gives E G varg kw .cv i cv ∧ Gives E G varg kw .gam i gam ∧
      e = h - R * absolute S t ∧ g = h - absolute S t * s ∧ f = e - absolute S t * s ∧
      cp - cv = R ∧ gam = cp / cv := by
  obtain ⟨Ts, hTs, hti⟩ := ht
  obtain ⟨ps, hps, hpi⟩ := hp
  obtain ⟨st, T, P, D, hst, hg, hr, hval, hall⟩ := same_row hU hmw h hTs hti
  have hcnt : varg.length + kw.length ≠ 1 := by rw [supplies_count h]; decide
  have vT := hval .T _ _ hTs hti
  have vp := hval .p _ _ hps hpi
  simp only [value] at vT vp
  cases T with
  | none => simp at vT
  | some T0 =>
    cases P with
    | none => simp at vp
    | some P0 =>
      simp only [Option.map_some, Option.some.injEq] at vT vp
      obtain ⟨r1, r2⟩ := hg.range T0 (List.mem_of_getElem? hr.1)
      obtain ⟨h0, s0, c0, sT0, gT0, k1, k2, k3, k4⟩ := hG T0 r1 r2
      have gives : ∀ q y, value E.a S G q (some T0) (some P0) D = some y → Gives E G varg kw q i y := by
        intro q y hy
        obtain ⟨xs, m1, m2, m3⟩ := method_rows hU hmw hcnt hst hg q
        exact ⟨xs, m1, by rw [m3 i _ _ _ hr, hy]⟩
      rw [mR_eq hU hmw] at hR
      simp only [Except.ok.injEq] at hR
      have hA : absolute S t = T0 * (1.8 / size Units.temperature S.T.name) := by
        unfold absolute
        rw [vT]
        exact congrArg (· * _) (internal_inUnits hU hmw .temperature T0)
      set L := Real.log (P0 / G.pref) with hL
      have key := fun x => energy_of_entropy hU (mw := G.mw) x T0
      have hsub : ∀ x y, inUnits E.a S G.mw .energy (x - y)
          = inUnits E.a S G.mw .energy x - inUnits E.a S G.mw .energy y := by
        intro x y; simp only [inUnits]; ring
      have hsubs : ∀ x y, inUnits E.a S G.mw .entropy (x - y)
          = inUnits E.a S G.mw .entropy x - inUnits E.a S G.mw .entropy y := by
        intro x y; simp only [inUnits]; ring
      refine ⟨_, _, _, _, _, _, _, _, gives .h (inUnits E.a S G.mw .energy h0) ?_,
        gives .e (inUnits E.a S G.mw .energy (h0 - Ru * T0)) ?_,
        gives .s (inUnits E.a S G.mw .entropy (s0 - Ru * L)) ?_,
        gives .g (inUnits E.a S G.mw .energy (h0 - T0 * s0 + T0 * Ru * L)) ?_,
        gives .f (inUnits E.a S G.mw .energy (h0 - T0 * s0 - Ru * T0 + T0 * Ru * L)) ?_,
        gives .cp (inUnits E.a S G.mw .entropy c0) ?_,
        gives .cv (inUnits E.a S G.mw .entropy (c0 - Ru)) ?_,
        gives .gam (c0 / (c0 - Ru)) ?_, ?_, ?_, ?_, ?_, ?_⟩
      · simp [value, Gas.hI, k1]
      · simp [value, Gas.eI, k1]
      · simp [value, Gas.sI, k3, hL]
      · simp [value, Gas.gI, k4, hL]
      · simp [value, Gas.fI, Gas.f, k4, hL]
      · simp [value, Gas.cpI, k2]
      · simp [value, Gas.cvI, k2]
      · simp [value, Gas.gamI, k2]
      · rw [hsub, key, ← hR, hA]
      · rw [hA, mul_comm _ (inUnits E.a S G.mw .entropy _), ← key, ← hsub]
        congr 1; ring
      · rw [hA, mul_comm _ (inUnits E.a S G.mw .entropy _), ← key, ← hsub]
        congr 1; ring
      · rw [← hR, hsubs]; ring
      · have hk := entropy_scale_ne hU hmw
        have hne : Kind.entropy ≠ .temperature := by simp
        rw [← inUnits_mul E.a S G.mw hne c0, ← inUnits_mul E.a S G.mw hne (c0 - Ru),
          mul_div_mul_right _ _ hk]

/-- C31, identities.  For every Shomate-class gas, every unit system and every accepted pair of
properties, wherever the temperature is within the limits the results of one call satisfy
`e = h - R T`, `g = h - T s`, `f = e - T s`, `cp - cv = R`, `gam = cp / cv` (`T` absolute). -/
theorem C31_identities (D : Data) (hw : WellFormed D) (E : Env) (S : Sys) (hU : Uses E S)
    (varg : List (Val ℝ)) (kw : Kw) (a b : String) (va vb : Val ℝ)
    (h : Supplies varg kw a va b vb) (R : ℝ) (hR : mR E (ig D) = .ok R) (i : Nat) (t p : ℝ)
    (ht : Gives E (ig D) varg kw .T i t) (hp : Gives E (ig D) varg kw .p i p) :
    ∃ h e s g f cp cv gam, Gives E (ig D) varg kw .h i h ∧ Gives E (ig D) varg kw .e i e ∧
      Gives E (ig D) varg kw .s i s ∧ Gives E (ig D) varg kw .g i g ∧
      Gives E (ig D) varg kw .f i f ∧ Gives E (ig D) varg kw .cp i cp ∧
      Gives E (ig D) varg kw .cv i cv ∧ Gives E (ig D) varg kw .gam i gam ∧
      e = h - R * absolute S t ∧ g = h - absolute S t * s ∧ f = e - absolute S t * s ∧
      cp - cv = R ∧ gam = cp / cv :=
  identities hU (by exact hw.mw.ne') (coherent_ig D hw) h hR ht hp

/-- C32, identities: the same for the NASA-polynomial class. -/
theorem C32_identities (D : Data) (hw : WellFormed D) (E : Env) (S : Sys) (hU : Uses E S)
    (varg : List (Val ℝ)) (kw : Kw) (a b : String) (va vb : Val ℝ)
    (h : Supplies varg kw a va b vb) (R : ℝ) (hR : mR E (ig2 D) = .ok R) (i : Nat) (t p : ℝ)
    (ht : Gives E (ig2 D) varg kw .T i t) (hp : Gives E (ig2 D) varg kw .p i p) :
    ∃ h e s g f cp cv gam, Gives E (ig2 D) varg kw .h i h ∧ Gives E (ig2 D) varg kw .e i e ∧
      Gives E (ig2 D) varg kw .s i s ∧ Gives E (ig2 D) varg kw .g i g ∧
      Gives E (ig2 D) varg kw .f i f ∧ Gives E (ig2 D) varg kw .cp i cp ∧
      Gives E (ig2 D) varg kw .cv i cv ∧ Gives E (ig2 D) varg kw .gam i gam ∧
      e = h - R * absolute S t ∧ g = h - absolute S t * s ∧ f = e - absolute S t * s ∧
      cp - cv = R ∧ gam = cp / cv :=
  identities hU (by exact hw.mw.ne') (coherent_ig2 D hw) h hR ht hp

theorem inside_limits {D : Data} (hw : WellFormed D) {T : ℝ} (h : InsidePiece D T) :
    D.Tlim.headD 0 < T ∧ T < D.Tlim.getLastD 0 := by
  obtain ⟨i, lo, hi, h1, h2, h3, h4⟩ := h
  have hi2 : i + 1 < D.Tlim.length := by
    by_contra hcon
    rw [List.getElem?_eq_none (by omega)] at h2
    exact absurd h2 (by simp)
  have e1 : lim D.Tlim i = lo := by simp [lim, h1]
  have e2 : lim D.Tlim (i + 1) = hi := by simp [lim, h2]
  have e3 : D.Tlim.headD 0 = lim D.Tlim 0 := by
    cases hD : D.Tlim <;> simp [lim]
  have e4 : D.Tlim.getLastD 0 = lim D.Tlim (D.Tlim.length - 1) := by
    rw [List.getLastD_eq_getLast?, List.getLast?_eq_getElem?]; rfl
  rw [e3, e4]
  exact ⟨(lim_le hw.ascending (Nat.zero_le i) (by omega)).trans_lt (e1 ▸ h3),
    (e2 ▸ h4).trans_le (lim_le hw.ascending (by omega) (by omega))⟩

/-! ## Calls with one temperature and one pressure -/

theorem supplies_Tp (x p : ℝ) : Supplies [.scalar x, .scalar p] [] "T" (.scalar x) "p" (.scalar p) where
  len := by simp
  args := by simp [supplied]
  ok := ⟨by simp, by simp, by simp, by simp, by simp⟩

theorem argparse_Tp {E : Env} {S : Sys} (hU : Uses E S) {G : Gas} (hmw : G.mw ≠ 0) (x p : ℝ)
    (h1 : G.Tlo ≤ toKelvin S.T.name x) (h2 : toKelvin S.T.name x ≤ G.Thi) :
    argparse E G [.scalar x, .scalar p] []
      = .ok { T := [some (toKelvin S.T.name x)], p := some [some (internal E.a S G.mw .pressure p)], d := none } := by
  rw [argparse_pair hU hmw (supplies_Tp x p)]
  unfold pre
  have hne : "T" ≠ "p" := by decide
  have e1 : stdOf E S G.mw [("T", .scalar x), ("p", .scalar p)]
      = { T := some ⟨[toKelvin S.T.name x], false⟩, p := some ⟨[internal E.a S G.mw .pressure p], false⟩ } := by
    rfl
  have e2 : tempOf G { T := some ⟨[toKelvin S.T.name x], false⟩, p := some ⟨[internal E.a S G.mw .pressure p], false⟩ }
      = .ok (some ⟨[some (toKelvin S.T.name x)], false, false⟩) := rfl
  have e3 : oob G (some (toKelvin S.T.name x)) = false := by
    simp only [oob, decide_eq_false_iff_not, not_or, not_lt, gt_iff_lt]
    exact ⟨h1, h2⟩
  simp only [e1, e2, exOk]
  unfold solve
  simp only [densityOf, broadcast, List.length_singleton, if_true, exOk]
  unfold rangeTest
  simp [e3]

theorem method_Tp {E : Env} {S : Sys} (hU : Uses E S) {G : Gas} (hmw : G.mw ≠ 0) (x p : ℝ)
    (h1 : G.Tlo ≤ toKelvin S.T.name x) (h2 : toKelvin S.T.name x ≤ G.Thi) (q : Quantity) :
    method q E G [.scalar x, .scalar p] [] = .ok [value E.a S G q (some (toKelvin S.T.name x))
      (some (internal E.a S G.mw .pressure p))
      (some (internal E.a S G.mw .pressure p / (1000 * Ru * toKelvin S.T.name x)))] := by
  have hst := argparse_Tp hU hmw x p h1 h2
  obtain ⟨xs, e1, e2, e3⟩ := method_rows hU hmw (by simp) hst
    (good_of_pair hU hmw (supplies_Tp x p) hst) q
  rw [e1]
  congr 1
  have := e3 0 _ _ _ ⟨rfl, ⟨_, rfl, rfl⟩, ⟨_, rfl, rfl⟩⟩
  match xs, e2, this with
  | [y], _, h => simpa [nan2] using h

theorem toKelvin_affine (s : Scale) : ∃ c : ℝ, ∀ x,
    toKelvin s.name x = x * (size (Units.temperature : Conv ℝ) s.name / 1.8) + c := by
  cases s
  · exact ⟨0, fun x => by simp [toKelvin, Scale.name, size, temperature, List.lookup]; norm_num⟩
  · exact ⟨273.15, fun x => by simp [toKelvin, Scale.name, size, temperature, List.lookup]; norm_num⟩
  · exact ⟨0, fun x => by simp [toKelvin, Scale.name, size, temperature, List.lookup, div_eq_mul_inv]⟩
  · exact ⟨255.3722222222222, fun x => by
      simp [toKelvin, Scale.name, size, temperature, List.lookup, div_eq_mul_inv]⟩
  · refine ⟨0, fun x => ?_⟩
    simp only [toKelvin, Scale.name, size, temperature, List.lookup]
    simp
    field_simp
    simp

theorem toKelvin_deriv (s : Scale) (x : ℝ) :
    HasDerivAt (toKelvin s.name) (size (Units.temperature : Conv ℝ) s.name / 1.8) x := by
  obtain ⟨c, hc⟩ := toKelvin_affine s
  rw [show (toKelvin s.name : ℝ → ℝ) = fun x => x * (size (Units.temperature : Conv ℝ) s.name / 1.8) + c
    from funext hc]
  simpa using ((hasDerivAt_id' x).mul_const (size (Units.temperature : Conv ℝ) s.name / 1.8)).add_const c

/-- Derivatives along a line of constant pressure, for any gas smooth at the temperature. -/
theorem derivatives {E : Env} {S : Sys} (hU : Uses E S) {G : Gas} (hmw : G.mw ≠ 0) {t p : ℝ}
    (hlo : G.Tlo < toKelvin S.T.name t) (hhi : toKelvin S.T.name t < G.Thi)
    (hT : 0 < toKelvin S.T.name t) (hs : Smooth G (toKelvin S.T.name t)) :
    ∃ h s g cp : ℝ → ℝ,
      (∀ᶠ x in 𝓝 t,
        mH E G [.scalar x, .scalar p] [] = .ok [some (h x)] ∧
        mS E G [.scalar x, .scalar p] [] = .ok [some (s x)] ∧
        mG E G [.scalar x, .scalar p] [] = .ok [some (g x)] ∧
        mCp E G [.scalar x, .scalar p] [] = .ok [some (cp x)]) ∧
      HasDerivAt h (cp t) t ∧ HasDerivAt s (cp t / absolute S t) t ∧ HasDerivAt g (- s t) t := by
  obtain ⟨h, s, cp, hev, dh, ds⟩ := hs
  have hK := toKelvin_deriv S.T t
  set κ := size (Units.temperature : Conv ℝ) S.T.name / 1.8 with hκ
  set L := Real.log (internal E.a S G.mw .pressure p / G.pref)
  have hκ0 : κ ≠ 0 := by have := ts_ne hU; rw [hκ]; positivity
  obtain ⟨c, hlin⟩ : ∃ c, ∀ x, inUnits E.a S G.mw .energy x = x * c :=
    ⟨_, fun x => (inUnits_mul E.a S G.mw (by simp) x).symm⟩
  have hlins : ∀ x, inUnits E.a S G.mw .entropy x = x * (c * κ) := by
    intro x
    have h1 : inUnits E.a S G.mw .entropy x = inUnits E.a S G.mw .energy x * κ := by
      simp only [inUnits, hκ]
    rw [h1, hlin]; ring
  refine ⟨fun x => inUnits E.a S G.mw .energy (h (toKelvin S.T.name x)),
    fun x => inUnits E.a S G.mw .entropy (s (toKelvin S.T.name x) - Ru * L),
    fun x => inUnits E.a S G.mw .energy (h (toKelvin S.T.name x)
      - toKelvin S.T.name x * s (toKelvin S.T.name x) + toKelvin S.T.name x * Ru * L),
    fun x => inUnits E.a S G.mw .entropy (cp (toKelvin S.T.name x)), ?_, ?_, ?_, ?_⟩
  · filter_upwards [hK.continuousAt.eventually hev, hK.continuousAt.eventually (lt_mem_nhds hlo),
      hK.continuousAt.eventually (gt_mem_nhds hhi)] with x hx h1 h2
    obtain ⟨k1, k2, k3, k4⟩ := hx
    have m := fun q => method_Tp hU hmw x p h1.le h2.le q
    refine ⟨(m .h).trans ?_, (m .s).trans ?_, (m .g).trans ?_, (m .cp).trans ?_⟩
    · simp [value, Gas.hI, k1]
    · simp [value, Gas.sI, k3, L]
    · cases hgx : G.g (toKelvin S.T.name x) with
      | none => rw [hgx] at k4; simp at k4
      | some r =>
        rw [hgx] at k4
        simp only [Option.map_some, Option.some.injEq] at k4
        simp [value, Gas.gI, hgx, k4, L]
    · simp [value, Gas.cpI, k2]
  · simp only [hlin, hlins]
    refine ((dh.comp t hK).mul_const _).congr_deriv ?_
    ring
  · simp only [hlins]
    refine (((ds.comp t hK).sub_const (Ru * L)).mul_const _).congr_deriv ?_
    have hA : absolute S t = toKelvin S.T.name t / κ := by
      unfold absolute; rw [hκ, div_div_eq_mul_div, mul_div_assoc]
    rw [hA]
    field_simp
  · simp only [hlin, hlins]
    have d1 := dh.comp t hK
    have d2 := hK.mul (ds.comp t hK)
    have d3 := (hK.mul_const Ru).mul_const L
    refine (((d1.sub d2).add d3).mul_const _).congr_deriv ?_
    simp only [Function.comp_apply]
    field_simp
    ring

/-- C31, derivatives.  For every Shomate-class gas, in every unit system, at every temperature
strictly inside a piece and every pressure: along the line of constant pressure the enthalpy
returned has derivative `cp`, the entropy `cp / T` (`T` absolute) and the Gibbs energy `-s`. -/
theorem C31_derivatives (D : Data) (hw : WellFormed D) (E : Env) (S : Sys) (hU : Uses E S) (t p : ℝ)
    (ht : InsidePiece D (toKelvin S.T.name t)) :
    ∃ h s g cp : ℝ → ℝ,
      (∀ᶠ x in 𝓝 t,
        mH E (ig D) [.scalar x, .scalar p] [] = .ok [some (h x)] ∧
        mS E (ig D) [.scalar x, .scalar p] [] = .ok [some (s x)] ∧
        mG E (ig D) [.scalar x, .scalar p] [] = .ok [some (g x)] ∧
        mCp E (ig D) [.scalar x, .scalar p] [] = .ok [some (cp x)]) ∧
      HasDerivAt h (cp t) t ∧ HasDerivAt s (cp t / absolute S t) t ∧ HasDerivAt g (- s t) t :=
  derivatives hU (by exact hw.mw.ne') (inside_limits hw ht).1 (inside_limits hw ht).2
    (pos_of_inside hw ht) (smooth_ig D hw _ ht)

/-- C32, derivatives: the same for the NASA-polynomial class. -/
theorem C32_derivatives (D : Data) (hw : WellFormed D) (E : Env) (S : Sys) (hU : Uses E S) (t p : ℝ)
    (ht : InsidePiece D (toKelvin S.T.name t)) :
    ∃ h s g cp : ℝ → ℝ,
      (∀ᶠ x in 𝓝 t,
        mH E (ig2 D) [.scalar x, .scalar p] [] = .ok [some (h x)] ∧
        mS E (ig2 D) [.scalar x, .scalar p] [] = .ok [some (s x)] ∧
        mG E (ig2 D) [.scalar x, .scalar p] [] = .ok [some (g x)] ∧
        mCp E (ig2 D) [.scalar x, .scalar p] [] = .ok [some (cp x)]) ∧
      HasDerivAt h (cp t) t ∧ HasDerivAt s (cp t / absolute S t) t ∧ HasDerivAt g (- s t) t :=
  derivatives hU (by exact hw.mw.ne') (inside_limits hw ht).1 (inside_limits hw ht).2
    (pos_of_inside hw ht) (smooth_ig2 D hw _ ht)

end PyroMat.Gas.Props
