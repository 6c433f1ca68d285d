import Verif.Float.Law
import Verif.Float.PropsGas

/-!
# The ideal-gas law in floating point
-/

set_option linter.unusedSimpArgs false

namespace PyroMat.Float

open PyroMat PyroMat.Units PyroMat.Units.Spec PyroMat.Units.Props PyroMat.Gas PyroMat.Gas.Spec PyroMat.Gas.Props

variable {ε : ℝ} {A : Arith}

theorem le_step (h1 : ε < 1) : ε ≤ step ε := by
  unfold step
  have := Real.log_le_sub_one_of_pos (show (0 : ℝ) < 1 - ε by linarith)
  linarith

/-- A relative error of `c ε` is at most `k` roundings if `c < k`. -/
theorem near_of_within_mul (h0 : 0 ≤ ε) (h1 : ε ≤ 1e-6) {c : ℝ} {k : ℕ} (hc : 0 ≤ c) (hk : c * 1.01 ≤ k) (hc' : c ≤ 1000) {x y : ℝ}
    (h : Within (c * ε) x y) : Near ε k x y := by
  have hε : 0 ≤ c * ε := mul_nonneg hc h0
  have hb : c * ε ≤ 1e-3 := by nlinarith
  obtain ⟨θ, t, e⟩ := near_of_within hε (by linarith) h
  refine ⟨θ, t.trans ?_, e⟩
  have s1 : step (c * ε) ≤ 1.01 * (c * ε) := by
    refine (step_le (by linarith)).trans ?_
    rw [div_le_iff₀ (by linarith)]
    nlinarith
  have s2 := le_step (show ε < 1 by linarith)
  rw [Nat.cast_one, one_mul]
  calc step (c * ε) ≤ 1.01 * (c * ε) := s1
    _ = c * 1.01 * ε := by ring
    _ ≤ k * ε := mul_le_mul_of_nonneg_right hk h0
    _ ≤ k * step ε := mul_le_mul_of_nonneg_left s2 (Nat.cast_nonneg k)

theorem Ru_near (h0 : 0 ≤ ε) (h1 : ε < 1) (hA : Accurate ε A) : Near ε 3 Ru (RuE.eval A) := by
  have := eval_near h0 h1 hA RuE
  rw [exact_Ru] at this
  exact this

theorem R_near (h0 : 0 ≤ ε) (h1 : ε < 1) (hA : Accurate ε A) : Near ε 4 (1000 * Ru) (RF A) :=
  near_mono h0 h1 (by norm_num) (near_scaled h0 h1 hA (near_refl h0 h1 0 1000) (Ru_near h0 h1 hA))

theorem near_divided (h0 : 0 ≤ ε) (h1 : ε < 1) (hA : Accurate ε A) {k l : ℕ} {x x' w w' : ℝ} (hx : Near ε k x x')
    (hw : Near ε l w w') : Near ε (k + l + 1) (x / w) (A.div x' w') :=
  near_trans (near_div hx hw) (near_of_within h0 h1 (hA.div _ _))

theorem exact_volume : volumeT.build exact = (volume : Conv ℝ) := by
  have := congrArg (·[7]?) (exact_tables SetupArgs.default)
  simpa [convs, tables, allConvs] using this

theorem acts_scalar {f : Val ℝ → Except Err (Res ℝ)} {g : ℝ → ℝ} {b : Bool} (h : Acts f g b) (x : ℝ) :
    scalarOf (f (.scalar x)) = .ok (g x) := by
  obtain ⟨r, h1, h2, -⟩ := h (.scalar x)
  rw [h1, scalarOf_ok, h2]
  rfl

section
variable {E : Env} {S : Sys} (hU : Uses E S)
include hU

/-- Temperatures above 200 K have a relative error. -/
theorem kelvinF_near (h0 : 0 ≤ ε) (h1 : ε ≤ 1e-6) (hA : Accurate ε A) {t : ℝ} (ht : 200 ≤ toKelvin S.T.name t) :
    ∃ T', kelvinF A E t = .ok T' ∧ Near ε 11 (toKelvin S.T.name t) T' ∧
      |T' - toKelvin S.T.name t| ≤ 4.1 * ε * (toKelvin S.T.name t + 300) ∧ (S.T = .K → T' = t) := by
  obtain ⟨T', e, n, k⟩ := kelvin_near hU h0 (h1.trans (by norm_num)) hA t
  rw [abs_of_nonneg (by linarith : 0 ≤ toKelvin S.T.name t)] at n
  refine ⟨T', e, near_of_within_mul (c := 10.25) h0 h1 (by norm_num) (by norm_num) (by norm_num) ?_, n, k⟩
  unfold Within
  rw [abs_of_nonneg (by linarith : 0 ≤ toKelvin S.T.name t)]
  refine n.trans ?_
  nlinarith

theorem densityF_near (h0 : 0 ≤ ε) (h1 : ε < 1) (hA : Accurate ε A) {mw : ℝ} (hmw : mw ≠ 0) {k : ℕ} {d d' : ℝ}
    (hd : Near ε k d d') :
    ∃ x, densityF A E (A.lit mw) d' = .ok x ∧ Near ε (k + 142) (internal E.a S mw .density d) x := by
  have tv : volumeT ∈ tables E.a := by simp [tables]
  have hm : Near ε 1 mw (A.lit mw) := near_of_within h0 h1 (hA.lit mw)
  have e1 := acts_scalar (acts_v hU (some (-1))) d
  have e2 := acts_scalar (acts_m hU hmw none) (d * powS (size volume S.v) (some (-1)))
  rw [← exact_volume] at e1
  obtain ⟨y1, f1, n1⟩ := call_near h0 h1 hA tv E.c.str hd _ _ _ _ e1
  obtain ⟨y2, f2, n2⟩ := matter_near h0 h1 hA E.a E.c.str n1 hm _ _ _ _ e2
  refine ⟨y2, by unfold densityF; rw [f1, exOk]; exact f2, ?_⟩
  have : internal E.a S mw .density d = d * powS (size volume S.v) (some (-1)) * powS (msize E.a mw S.m) none := by
    rw [powS_neg_one]
    simp only [internal, powS]
    rw [div_eq_mul_inv]; ring
  rw [this]
  exact near_mono h0 h1 (by simp [times]) n2

theorem scaleD_near (h0 : 0 ≤ ε) (h1 : ε < 1) (hA : Accurate ε A) {mw : ℝ} (hmw : mw ≠ 0) :
    ∃ y z, scalarOf (matterF A E.a E.c.str (.scalar 1) (A.lit mw) (some "kmol") none none false) = .ok y ∧
      scalarOf (callF A (volumeT.build A) E.c.str (.scalar y) (some "m3") none (some (-1)) false) = .ok z ∧
      Near ε 142 (inUnits E.a S mw .density 1) z := by
  have tv : volumeT ∈ tables E.a := by simp [tables]
  have hm : Near ε 1 mw (A.lit mw) := near_of_within h0 h1 (hA.lit mw)
  have h := scaleD_eq hU hmw
  unfold scaleD at h
  cases e1 : scalarOf (matter E.a E.c.str (.scalar 1) mw (some "kmol") none none false) with
  | error e => rw [e1] at h; cases h
  | ok z1 =>
  rw [e1, exOk, ← exact_volume] at h
  obtain ⟨y1, f1, n1⟩ := matter_near h0 h1 hA E.a E.c.str (near_refl h0 h1 0 1) hm _ _ _ _ e1
  obtain ⟨y2, f2, n2⟩ := call_near h0 h1 hA tv E.c.str n1 _ _ _ _ h
  exact ⟨y1, y2, f1, f2, near_mono h0 h1 (by simp [times]) n2⟩

theorem pressure_out (h0 : 0 ≤ ε) (h1 : ε < 1) (hA : Accurate ε A) {k : ℕ} {mw x x' : ℝ} (hx : Near ε k x x') :
    ∃ y, scalarOf (callF A ((pressureT E.a).build A) E.c.str (.scalar x') (some "Pa") none none true) = .ok y ∧
      Near ε (k + 71) (inUnits E.a S mw .pressure x) y := by
  have tp : pressureT E.a ∈ tables E.a := by simp [tables]
  have h : scalarOf ((pressure E.a).call E.c.str (.scalar x) (some "Pa") none none true)
      = .ok (inUnits E.a S mw .pressure x) := by
    rw [scalarOf_call hU (nz_pressure hU) (k := "unit_pressure") rfl hU.p hU.valid.p (y := 1) rfl]
    simp [powS, inUnits, div_eq_mul_inv]
  rw [← exact_pressure] at h
  exact call_near h0 h1 hA tp E.c.str hx _ _ _ _ h

end

/-- The range test agrees when the limits are not within rounding of the temperature. -/
theorem boundsF_ok (hA : Accurate ε A) {lo hi T : ℝ} (c1 : A.lit lo = lo ∨ ε * |lo| < |T - lo|)
    (c2 : A.lit hi = hi ∨ ε * |hi| < |T - hi|) (h1 : lo ≤ T) (h2 : T ≤ hi) : boundsF A lo hi T = .ok () := by
  unfold boundsF
  rw [if_neg]
  rw [(lit_lt hA c1).1, (lit_lt hA c2).2]
  push Not
  exact ⟨h1, h2⟩

/-! ## The exact calls -/

theorem supplies_Td (t d : ℝ) : Supplies [] [("T", .scalar t), ("d", .scalar d)] "T" (.scalar t) "d" (.scalar d) where
  len := by simp
  args := by simp [supplied]
  ok := ⟨by simp, by simp, by simp, by simp, by simp⟩

theorem supplies_pd (p d : ℝ) : Supplies [] [("p", .scalar p), ("d", .scalar d)] "p" (.scalar p) "d" (.scalar d) where
  len := by simp
  args := by simp [supplied]
  ok := ⟨by simp, by simp, by simp, by simp, by simp⟩

section
variable {E : Env} {S : Sys} (hU : Uses E S) {G : Gas} (hmw : G.mw ≠ 0)
include hU hmw

theorem method_Td (t d : ℝ) (h1 : G.Tlo ≤ toKelvin S.T.name t) (h2 : toKelvin S.T.name t ≤ G.Thi) (q : Quantity) :
    method q E G [] [("T", .scalar t), ("d", .scalar d)] = .ok [value E.a S G q (some (toKelvin S.T.name t))
      (some (internal E.a S G.mw .density d * (1000 * Ru * toKelvin S.T.name t)))
      (some (internal E.a S G.mw .density d))] := by
  have hs := supplies_Td t d
  have hst : argparse E G [] [("T", .scalar t), ("d", .scalar d)]
      = .ok { T := [some (toKelvin S.T.name t)], p := none, d := some [some (internal E.a S G.mw .density d)] } := by
    rw [argparse_pair hU hmw hs]
    unfold pre
    have e1 : stdOf E S G.mw [("T", .scalar t), ("d", .scalar d)]
        = { T := some ⟨[toKelvin S.T.name t], false⟩, d := some ⟨[internal E.a S G.mw .density d], false⟩ } := rfl
    have e2 : tempOf G { T := some ⟨[toKelvin S.T.name t], false⟩, d := some ⟨[internal E.a S G.mw .density d], false⟩ }
        = .ok (some ⟨[some (toKelvin S.T.name t)], false, false⟩) := rfl
    have e3 : oob G (some (toKelvin S.T.name t)) = false := by
      simp only [oob, decide_eq_false_iff_not, not_or, not_lt, gt_iff_lt]
      exact ⟨h1, h2⟩
    simp only [e1, e2, exOk]
    unfold solve
    simp only [densityOf, broadcast, List.length_singleton, if_true, exOk]
    unfold rangeTest
    simp [e3]
  obtain ⟨xs, e1, e2, e3⟩ := method_rows hU hmw (by simp) hst (good_of_pair hU hmw hs hst) q
  rw [e1]
  congr 1
  have := e3 0 _ _ _ ⟨rfl, ⟨_, rfl, rfl⟩, ⟨_, rfl, rfl⟩⟩
  match xs, e2, this with
  | [y], _, h => simpa [nan2] using h

theorem method_pd_out (p d : ℝ) (T : ℝ) (hT : T = internal E.a S G.mw .pressure p / (1000 * Ru * internal E.a S G.mw .density d))
    (h : ¬ (G.Tlo ≤ T ∧ T ≤ G.Thi)) : method .T E G [] [("p", .scalar p), ("d", .scalar d)] = .error .param := by
  have hs := supplies_pd p d
  have hst : argparse E G [] [("p", .scalar p), ("d", .scalar d)] = .error .param := by
    rw [argparse_pair hU hmw hs]
    unfold pre
    have e1 : stdOf E S G.mw [("p", .scalar p), ("d", .scalar d)]
        = { p := some ⟨[internal E.a S G.mw .pressure p], false⟩, d := some ⟨[internal E.a S G.mw .density d], false⟩ } := rfl
    have e2 : tempOf G { p := some ⟨[internal E.a S G.mw .pressure p], false⟩, d := some ⟨[internal E.a S G.mw .density d], false⟩ }
        = .ok none := rfl
    have e3 : oob G (some T) = true := by
      simp only [oob, decide_eq_true_eq, gt_iff_lt]
      by_contra hc
      push Not at hc
      exact h hc
    simp only [e1, e2, exOk]
    unfold solve
    simp only [densityOf, broadcast, List.length_singleton, if_true, exOk, List.zipWith, ← hT]
    unfold rangeTest
    simp [e3]
  simp only [method]
  rw [mT_eq hU, mTdefault_two (by simp), hst, exErr]

theorem method_pd (p d : ℝ) (T : ℝ) (hT : T = internal E.a S G.mw .pressure p / (1000 * Ru * internal E.a S G.mw .density d))
    (h1 : G.Tlo ≤ T) (h2 : T ≤ G.Thi) (q : Quantity) :
    method q E G [] [("p", .scalar p), ("d", .scalar d)] = .ok [value E.a S G q (some T)
      (some (internal E.a S G.mw .pressure p)) (some (internal E.a S G.mw .density d))] := by
  have hs := supplies_pd p d
  have hst : argparse E G [] [("p", .scalar p), ("d", .scalar d)]
      = .ok { T := [some T], p := some [some (internal E.a S G.mw .pressure p)], d := some [some (internal E.a S G.mw .density d)] } := by
    rw [argparse_pair hU hmw hs]
    unfold pre
    have e1 : stdOf E S G.mw [("p", .scalar p), ("d", .scalar d)]
        = { p := some ⟨[internal E.a S G.mw .pressure p], false⟩, d := some ⟨[internal E.a S G.mw .density d], false⟩ } := rfl
    have e2 : tempOf G { p := some ⟨[internal E.a S G.mw .pressure p], false⟩, d := some ⟨[internal E.a S G.mw .density d], false⟩ }
        = .ok none := rfl
    have e3 : oob G (some T) = false := by
      simp only [oob, decide_eq_false_iff_not, not_or, not_lt, gt_iff_lt]
      exact ⟨h1, h2⟩
    simp only [e1, e2, exOk]
    unfold solve
    simp only [densityOf, broadcast, List.length_singleton, if_true, exOk, List.zipWith, ← hT]
    unfold rangeTest
    simp [e3]
  obtain ⟨xs, e1, e2, e3⟩ := method_rows hU hmw (by simp) hst (good_of_pair hU hmw hs hst) q
  rw [e1]
  congr 1
  have := e3 0 _ _ _ ⟨rfl, ⟨_, rfl, rfl⟩, ⟨_, rfl, rfl⟩⟩
  match xs, e2, this with
  | [y], _, h => simpa [nan2] using h

end

theorem bounds_clear {E : Env} {S : Sys} (_hU : Uses E S) (h0 : 0 ≤ ε) (hA : Accurate ε A) {lo hi T T' : ℝ} (hp : 0 < lo)
    (hlo : lo ≤ T) (hhi : T ≤ hi) (hlim : ∀ L ∈ [lo, hi], Clear ε A S T L) (aT : |T' - T| ≤ 4.1 * ε * (T + 300))
    (kT : S.T = .K → T' = T) : boundsF A lo hi T' = .ok () := by
  have clear : ∀ L ∈ [lo, hi], 0 < L → A.lit L = L ∨ ε * |L| < |T' - L| := by
    intro L hL hp
    rcases hlim L hL with ⟨-, h⟩ | h
    · exact Or.inl h
    · right
      rw [abs_of_pos hp]
      have := abs_add_le (T' - L) (-(T' - T))
      rw [show T' - L + -(T' - T) = T - L by ring, abs_neg] at this
      linarith
  refine boundsF_ok hA (clear lo (by simp) hp) (clear hi (by simp) (by linarith)) ?_ ?_
  · rcases hlim lo (by simp) with ⟨h, -⟩ | h
    · rw [kT h]; exact hlo
    · rw [abs_of_nonneg (by linarith)] at h
      have : 0 ≤ ε * lo := mul_nonneg h0 hp.le
      linarith [(abs_le.mp aT).1]
  · rcases hlim hi (by simp) with ⟨h, -⟩ | h
    · rw [kT h]; exact hhi
    · rw [abs_of_nonpos (by linarith)] at h
      have : 0 ≤ ε * hi := mul_nonneg h0 (by linarith)
      linarith [(abs_le.mp aT).2]

/-- What `d` computes. -/
theorem lawD_near {E : Env} {S : Sys} (hU : Uses E S) (h0 : 0 ≤ ε) (h1 : ε ≤ 1e-6) (hA : Accurate ε A) {mw lo hi : ℝ} (hmw : mw ≠ 0)
    (h200 : 200 ≤ lo) {t : ℝ} (p : ℝ) (hlo : lo ≤ toKelvin S.T.name t) (hhi : toKelvin S.T.name t ≤ hi)
    (hlim : ∀ L ∈ [lo, hi], Clear ε A S (toKelvin S.T.name t) L) :
    ∃ y', lawD A E mw lo hi t p = .ok y' ∧ Near ε 231 (inUnits E.a S mw .density
      (internal E.a S mw .pressure p / (1000 * Ru * toKelvin S.T.name t))) y' := by
  have hlt : ε < 1 := by linarith
  obtain ⟨T', eT, nT, aT, kT⟩ := kelvinF_near hU h0 h1 hA (h200.trans hlo)
  obtain ⟨P', eP, nP⟩ := pressure_near hU h0 hlt hA mw p
  obtain ⟨y, z, e1, e2, nz⟩ := scaleD_near hU h0 hlt hA hmw
  have b := bounds_clear hU h0 hA (T := toKelvin S.T.name t) (by linarith) hlo hhi hlim aT (fun h => by
    rw [kT h, h]; simp [toKelvin, Scale.name])
  refine ⟨A.mul (A.div P' (A.mul (RF A) T')) z, ?_, ?_⟩
  · unfold lawD pascalF
    rw [eT, exOk, eP, exOk, b, exOk]
    simp only [e1, exOk, e2]
  · have n := near_scaled h0 hlt hA (near_divided h0 hlt hA nP (near_scaled h0 hlt hA (R_near h0 hlt hA) nT)) nz
    rw [inUnits_mul E.a S _ (by simp : Kind.density ≠ .temperature)] at n
    exact near_mono h0 hlt (by norm_num) n

theorem lawP_near {E : Env} {S : Sys} (hU : Uses E S) (h0 : 0 ≤ ε) (h1 : ε ≤ 1e-6) (hA : Accurate ε A) {mw lo hi : ℝ} (hmw : mw ≠ 0)
    (h200 : 200 ≤ lo) {t : ℝ} {k : ℕ} {d d' : ℝ} (hd : Near ε k d d') (hlo : lo ≤ toKelvin S.T.name t)
    (hhi : toKelvin S.T.name t ≤ hi) (hlim : ∀ L ∈ [lo, hi], Clear ε A S (toKelvin S.T.name t) L) :
    ∃ y', lawP A E mw lo hi t d' = .ok y' ∧ Near ε (k + 230) (inUnits E.a S mw .pressure
      (internal E.a S mw .density d * (1000 * Ru * toKelvin S.T.name t))) y' := by
  have hlt : ε < 1 := by linarith
  obtain ⟨T', eT, nT, aT, kT⟩ := kelvinF_near hU h0 h1 hA (h200.trans hlo)
  obtain ⟨D', eD, nD⟩ := densityF_near hU h0 hlt hA hmw hd
  have b := bounds_clear hU h0 hA (T := toKelvin S.T.name t) (by linarith) hlo hhi hlim aT (fun h => by
    rw [kT h, h]; simp [toKelvin, Scale.name])
  have n := near_scaled h0 hlt hA (near_scaled h0 hlt hA (near_scaled h0 hlt hA nD (near_refl h0 hlt 0 1000))
    (Ru_near h0 hlt hA)) nT
  obtain ⟨y, ey, ny⟩ := pressure_out hU h0 hlt hA (mw := mw) n
  refine ⟨y, ?_, ?_⟩
  · unfold lawP
    rw [eT, exOk, eD, exOk, b, exOk]
    exact ey
  · rw [show internal E.a S mw .density d * (1000 * Ru * toKelvin S.T.name t)
      = internal E.a S mw .density d * 1000 * Ru * toKelvin S.T.name t by ring]
    exact near_mono h0 hlt (by omega) ny

theorem lawT_near {E : Env} {S : Sys} (hU : Uses E S) (h0 : 0 ≤ ε) (h1 : ε ≤ 1e-6) (hA : Accurate ε A) {mw lo hi : ℝ} (hmw : mw ≠ 0)
    (h200 : 200 ≤ lo) {k : ℕ} (hk : k ≤ 300) {p d d' T : ℝ} (hd : Near ε k d d')
    (hT : T = internal E.a S mw .pressure p / (1000 * Ru * internal E.a S mw .density d)) (hlo : lo ≤ T)
    (hhi : T ≤ hi) (hlim : ∀ L ∈ [lo, hi], ε * L + (1.01 * k + 225) * ε * T < |T - L|) :
    ∃ y', lawT A E mw lo hi p d' = .ok y' ∧ |toKelvin S.T.name y' - T| ≤ (1.01 * k + 230) * ε * (T + 300) := by
  have hlt : ε < 1 := by linarith
  obtain ⟨P', eP, nP⟩ := pressure_near hU h0 hlt hA mw p
  obtain ⟨D', eD, nD⟩ := densityF_near hU h0 hlt hA hmw hd
  have n := near_divided h0 hlt hA nP (near_scaled h0 hlt hA (R_near h0 hlt hA) nD)
  rw [← hT] at n
  have hk' : (k : ℝ) ≤ 300 := by exact_mod_cast hk
  have w := within_of_near h0 (by push_cast; nlinarith) (by linarith) n
  unfold Within at w
  have T0 : 0 < T := by linarith
  rw [abs_of_pos T0] at w
  push_cast at w
  set T' := A.div P' (A.mul (RF A) D') with hT'
  have w' : |T' - T| ≤ (1.01 * k + 222) * ε * T := by
    refine w.trans ?_
    have : 0 ≤ ε * T := mul_nonneg h0 T0.le
    nlinarith
  have kT : (1.01 * (k : ℝ) + 222) * ε * T ≤ (1.01 * k + 225) * ε * T := by
    have : 0 ≤ ε * T := mul_nonneg h0 T0.le
    nlinarith
  have c : ∀ L ∈ [lo, hi], 0 ≤ L → ε * |L| < |T' - L| := by
    intro L hL hp
    rw [abs_of_nonneg hp]
    have := abs_add_le (T' - L) (-(T' - T))
    rw [show T' - L + -(T' - T) = T - L by ring, abs_neg] at this
    linarith [hlim L hL]
  have b : boundsF A lo hi T' = .ok () := by
    have e0 : ∀ L, 0 ≤ L → 0 ≤ ε * L := fun L hL => mul_nonneg h0 hL
    refine boundsF_ok hA (.inr (c lo (by simp) (by linarith))) (.inr (c hi (by simp) (by linarith))) ?_ ?_
    · have := hlim lo (by simp)
      rw [abs_of_nonneg (by linarith)] at this
      linarith [(abs_le.mp w').1, e0 lo (by linarith)]
    · have := hlim hi (by simp)
      rw [abs_of_nonpos (by linarith)] at this
      linarith [(abs_le.mp w').2, e0 hi (by linarith)]
  have fk := fromKelvin_err h0 (h1.trans (by norm_num)) hA S.T T'
  have te : ∃ y', scalarOf (temperatureScaleF A E.c.str (.scalar T') (some "K") none true) = .ok y' ∧
      |toKelvin S.T.name y' - T'| ≤ 4.2 * ε * (|T'| + 300) := by
    unfold temperatureScaleF
    simp only [hU.T, bind, Except.bind, pure, Except.pure]
    cases hS : S.T with
    | K =>
      rw [if_pos (show "K" = Scale.K.name from rfl)]
      refine ⟨T', rfl, ?_⟩
      simp [toKelvin, Scale.name]
      positivity
    | C => exact ⟨_, rfl, by rw [hS] at fk; exact fk⟩
    | F => exact ⟨_, rfl, by rw [hS] at fk; exact fk⟩
    | R => exact ⟨_, rfl, by rw [hS] at fk; exact fk⟩
    | eV => exact ⟨_, rfl, by rw [hS] at fk; exact fk⟩
  obtain ⟨y', ey, ny⟩ := te
  refine ⟨y', ?_, ?_⟩
  · unfold lawT pascalF
    rw [eP, exOk, eD, exOk]
    simp only [← hT', b, exOk]
    exact ey
  · have t1 : |T'| ≤ 1.01 * T := by
      have := abs_add_le (T' - T) T
      rw [sub_add_cancel, abs_of_pos T0] at this
      have k0 : (0 : ℝ) ≤ k := Nat.cast_nonneg k
      have : (1.01 * (k : ℝ) + 222) * ε ≤ 0.01 := by nlinarith
      nlinarith
    have := abs_add_le (toKelvin S.T.name y' - T') (T' - T)
    rw [sub_add_sub_cancel] at this
    have eT : 0 ≤ ε * T := mul_nonneg h0 T0.le
    have k0 : (0 : ℝ) ≤ k * ε := mul_nonneg (Nat.cast_nonneg k) h0
    have m1 : 4.2 * ε * (|T'| + 300) ≤ 4.2 * ε * (1.01 * T + 300) := by gcongr
    nlinarith

namespace Props

/-- C106, density.  Let every operation of the arithmetic be accurate to `ε`.  For every ideal gas whose data begin at
200 K or above (as those of all shipped gases do), every unit system, a temperature between the limits and a pressure:
`d(T, p)` returns the exact density within `240 ε` of itself. -/
theorem C106_density (h0 : 0 ≤ ε) (h1 : ε ≤ 1e-6) (hA : Accurate ε A) (E : Env) (S : Sys) (hU : Uses E S) (G : Gas)
    (hmw : G.mw ≠ 0) (h200 : 200 ≤ G.Tlo) (t p : ℝ) (hlo : G.Tlo ≤ toKelvin S.T.name t)
    (hhi : toKelvin S.T.name t ≤ G.Thi) (hlim : ∀ L ∈ [G.Tlo, G.Thi], Clear ε A S (toKelvin S.T.name t) L) :
    ∃ y y', method .d E G [.scalar t, .scalar p] [] = .ok [some y] ∧
      lawD A E G.mw G.Tlo G.Thi t p = .ok y' ∧ |y' - y| ≤ 240 * ε * |y| := by
  obtain ⟨y', e, n⟩ := lawD_near hU h0 h1 hA hmw h200 p hlo hhi hlim
  refine ⟨_, y', method_Tp hU hmw t p hlo hhi .d, e, ?_⟩
  refine (within_of_near h0 (by push_cast; linarith) (by linarith) n).trans ?_
  refine mul_le_mul_of_nonneg_right ?_ (abs_nonneg _)
  push_cast; linarith

/-- C106, volume: the same for `v(T, p)`. -/
theorem C106_volume (h0 : 0 ≤ ε) (h1 : ε ≤ 1e-6) (hA : Accurate ε A) (E : Env) (S : Sys) (hU : Uses E S) (G : Gas)
    (hmw : G.mw ≠ 0) (h200 : 200 ≤ G.Tlo) (t p : ℝ) (hlo : G.Tlo ≤ toKelvin S.T.name t)
    (hhi : toKelvin S.T.name t ≤ G.Thi) (hlim : ∀ L ∈ [G.Tlo, G.Thi], Clear ε A S (toKelvin S.T.name t) L) :
    ∃ y y', method .v E G [.scalar t, .scalar p] [] = .ok [some y] ∧
      lawV A E G.mw G.Tlo G.Thi t p = .ok y' ∧ |y' - y| ≤ 240 * ε * |y| := by
  have hlt : ε < 1 := by linarith
  obtain ⟨y', e, n⟩ := lawD_near hU h0 h1 hA hmw h200 p hlo hhi hlim
  refine ⟨_, A.div 1 y', method_Tp hU hmw t p hlo hhi .v, by unfold lawV; rw [e, exOk], ?_⟩
  have n := near_divided h0 hlt hA (near_refl h0 hlt 0 1) n
  refine (within_of_near h0 (by push_cast; linarith) (by linarith) n).trans ?_
  refine mul_le_mul_of_nonneg_right ?_ (abs_nonneg _)
  push_cast; linarith

/-- C106, pressure: `p(T=, d=)` returns the exact pressure within `240 ε` of itself. -/
theorem C106_pressure (h0 : 0 ≤ ε) (h1 : ε ≤ 1e-6) (hA : Accurate ε A) (E : Env) (S : Sys) (hU : Uses E S) (G : Gas)
    (hmw : G.mw ≠ 0) (h200 : 200 ≤ G.Tlo) (t d : ℝ) (hlo : G.Tlo ≤ toKelvin S.T.name t)
    (hhi : toKelvin S.T.name t ≤ G.Thi) (hlim : ∀ L ∈ [G.Tlo, G.Thi], Clear ε A S (toKelvin S.T.name t) L) :
    ∃ y y', method .p E G [] [("T", .scalar t), ("d", .scalar d)] = .ok [some y] ∧
      lawP A E G.mw G.Tlo G.Thi t d = .ok y' ∧ |y' - y| ≤ 240 * ε * |y| := by
  have hlt : ε < 1 := by linarith
  obtain ⟨y', e, n⟩ := lawP_near hU h0 h1 hA hmw h200 (near_refl h0 hlt 0 d) hlo hhi hlim
  refine ⟨_, y', method_Td hU hmw t d hlo hhi .p, e, ?_⟩
  refine (within_of_near h0 (by push_cast; linarith) (by linarith) n).trans ?_
  refine mul_le_mul_of_nonneg_right ?_ (abs_nonneg _)
  push_cast; linarith

/-- C106, temperature: `T(p=, d=)` returns the exact temperature within `230 ε (T + 300 K)`, unless it is within
that of a limit of the gas. -/
theorem C106_temperature (h0 : 0 ≤ ε) (h1 : ε ≤ 1e-6) (hA : Accurate ε A) (E : Env) (S : Sys) (hU : Uses E S) (G : Gas)
    (hmw : G.mw ≠ 0) (h200 : 200 ≤ G.Tlo) (p d y : ℝ)
    (hy : method .T E G [] [("p", .scalar p), ("d", .scalar d)] = .ok [some y])
    (hlim : ∀ L ∈ [G.Tlo, G.Thi], 230 * ε * (toKelvin S.T.name y + L) < |toKelvin S.T.name y - L|) :
    ∃ y', lawT A E G.mw G.Tlo G.Thi p d = .ok y' ∧
      |toKelvin S.T.name y' - toKelvin S.T.name y| ≤ 230 * ε * (toKelvin S.T.name y + 300) := by
  have hlt : ε < 1 := by linarith
  set T := internal E.a S G.mw .pressure p / (1000 * Ru * internal E.a S G.mw .density d) with hT
  have key : G.Tlo ≤ T ∧ T ≤ G.Thi := by
    by_contra hc
    rw [method_pd_out hU hmw p d T hT hc] at hy
    cases hy
  rw [method_pd hU hmw p d T hT key.1 key.2 .T] at hy
  have e : toKelvin S.T.name y = T := by
    simp only [value, Option.map_some, Except.ok.injEq, List.cons.injEq, Option.some.injEq, and_true, inUnits] at hy
    rw [← hy, to_from]
  rw [e] at hlim ⊢
  obtain ⟨y', e', n⟩ := lawT_near hU h0 h1 hA hmw h200 (k := 0) (by norm_num) (near_refl h0 hlt 0 d) hT key.1 key.2 (by
    intro L hL
    have := hlim L hL
    have hL0 : 0 ≤ L := by
      simp only [List.mem_cons, List.not_mem_nil, or_false] at hL
      rcases hL with rfl | rfl <;> linarith
    have a1 : 0 ≤ ε * L := mul_nonneg h0 hL0
    have a2 : 0 ≤ ε * T := mul_nonneg h0 (by linarith)
    push_cast
    nlinarith)
  refine ⟨y', e', n.trans (le_of_eq ?_)⟩
  push_cast; ring

/-- C106, there and back: the pressure computed from the computed density is the pressure given, within `480 ε`. -/
theorem C106_roundtrip (h0 : 0 ≤ ε) (h1 : ε ≤ 1e-6) (hA : Accurate ε A) (E : Env) (S : Sys) (hU : Uses E S) (G : Gas)
    (hmw : G.mw ≠ 0) (h200 : 200 ≤ G.Tlo) (t p : ℝ) (hlo : G.Tlo ≤ toKelvin S.T.name t)
    (hhi : toKelvin S.T.name t ≤ G.Thi) (hlim : ∀ L ∈ [G.Tlo, G.Thi], Clear ε A S (toKelvin S.T.name t) L) :
    ∃ d' p', lawD A E G.mw G.Tlo G.Thi t p = .ok d' ∧ lawP A E G.mw G.Tlo G.Thi t d' = .ok p' ∧
      |p' - p| ≤ 480 * ε * |p| := by
  obtain ⟨d', e, n⟩ := lawD_near hU h0 h1 hA hmw h200 p hlo hhi hlim
  obtain ⟨p', e', n'⟩ := lawP_near hU h0 h1 hA hmw h200 n hlo hhi hlim
  refine ⟨d', p', e, e', ?_⟩
  have T0 : 0 < toKelvin S.T.name t := by linarith
  have R0 := Gas.Props.Ru_pos
  rw [internal_inUnits hU hmw, div_mul_cancel₀ _ (by positivity), inUnits_internal hU hmw] at n'
  refine (within_of_near h0 (by push_cast; linarith) (by linarith) n').trans ?_
  refine mul_le_mul_of_nonneg_right ?_ (abs_nonneg _)
  push_cast; linarith

end Props

end PyroMat.Float
