import Verif.Float.PropsIter
import Verif.Float.PropsGasCalls

/-!
# C116: temperatures of shipped gases from enthalpies and internal energies in floating point
-/

set_option linter.unusedSimpArgs false

namespace PyroMat.Float

open PyroMat PyroMat.Units PyroMat.Units.Spec PyroMat.Units.Props PyroMat.Gas PyroMat.Gas.Spec PyroMat.Gas.Props
open PyroMat.Shipped

variable {ε : ℝ} {A : Arith}

/-- The quantity of the exact model, in kJ/kmol. -/
noncomputable def From.exact (q : From) (G : Gas) (T : ℝ) : Option ℝ :=
  match q with
  | .h => (G.h T).map (·.1)
  | .e => (G.h T).map (fun r => r.1 - Ru * T)

/-- The tolerance the search reaches, as a share of the target. -/
noncomputable def From.tolerance : From → ℝ
  | .h => 8.1e-6
  | .e => 1.1e-5

/-- How much the quantity rises per kelvin at least, in universal gas constants. -/
noncomputable def From.rise : From → ℝ
  | .h => 2.33
  | .e => 1.33

theorem slope_cost (c : Cls) (C : Coef) (T : ℝ) : (slope c C T).cost ≤ 40 := by
  cases c <;> exact Nat.le_of_ble_eq_true rfl

theorem slope_logs (c : Cls) (C : Coef) (T : ℝ) : (slope c C T).Logs := by
  cases c <;> simp [slope, Sho.cp, Nasa.hT, Sm.Logs, cf, nm]

theorem slope_exact (c : Cls) (C : Coef) (T : ℝ) : (slope c C T).eval exact = cpOf c C T := by
  cases c with
  | ig => rfl
  | ig2 =>
    simp only [slope, cpOf, Nasa.hT, Gas.Nasa.cp, List.foldl, Coef.at, Sm.eval, cf, nm, Ex.eval, exact_Ru]
    simp only [exact]
    push_cast
    ring

theorem slope_mag (c : Cls) (C : Coef) {T : ℝ} (h1 : 200 ≤ T) (h2 : T ≤ 6000) :
    (slope c C T).mag ≤ absTerms c C T := by
  cases c with
  | ig => exact (forms_mag .ig 0 C h1 h2).1
  | ig2 =>
    have hT : 0 < T := by linarith
    have R0 : 0 < Ru := Shipped.Ru_pos
    simp only [slope, absTerms, Nasa.hT, List.foldl, Coef.at, Sm.mag, cf, nm, Ex.eval, exact_Ru]
    simp only [exact]
    simp only [abs_of_pos hT, abs_of_pos R0, abs_zero, Nat.abs_cast]
    push_cast
    apply le_of_eq
    ring

theorem slope_off (h0 : 0 ≤ ε) (h1 : ε < 1) (hA : Accurate ε A) (c : Cls) {C : Coef} {T : ℝ} (t1 : 200 ≤ T)
    (t2 : T ≤ 6000) (s1 : absTerms c C T ≤ 20000) : Off ε 40 20000 (cpOf c C T) ((slope c C T).eval A) := by
  have := err_mono h0 h1 (slope_cost c C T) ((slope_mag c C t1 t2).trans s1) (Sm.err h0 h1 hA _ (slope_logs c C T))
  rwa [slope_exact] at this

/-- Value and slope at a temperature between the limits. -/
theorem routine_ok (h0 : 0 ≤ ε) (h1 : ε ≤ 1e-12) (hA : Accurate ε A) {f : File} {b : ℕ × ℕ} (hf : f ∈ shipped)
    (hb : check f b = true) (hlim : ∀ L ∈ f.data.Tlim, A.lit L = L) (q : From) (T : ℝ) (lo : f.gas.Tlo ≤ T)
    (hi : T ≤ f.gas.Thi) :
    ∃ yy yyx y, routineF A f.cls f.data (fileForms f) q T = some (yy, yyx) ∧ q.exact f.gas T = some y ∧
      |yy - y| ≤ 1.2e10 * ε ∧
      (match q with | .h => (b.1 : ℝ) / 100 * Ru | .e => ((b.1 : ℝ) - 100) / 100 * Ru) - 1e-5 ≤ |yyx| ∧
      200 ≤ T ∧ T ≤ 6000 ∧ (b.1 : ℝ) / 100 * Ru ≤ 20000 := by
  have hlt : ε < 1 := by linarith
  have hwf := wellFormed hb
  obtain ⟨r1, r2, -⟩ := s_size hf hb T lo hi
  have lo' := lo
  have hi' := hi
  rw [gas_Tlo] at lo'
  rw [gas_Thi] at hi'
  obtain ⟨i, tl, th, C, e1, e2, e3, e4, e5, pw⟩ := (C33_evaluation f.data hwf T).1 lo' hi'
  have e1' := e1
  have e2' := e2
  have e5' := e5
  simp only [File.data, List.getElem?_map, Option.map_eq_some_iff] at e1' e2' e5'
  obtain ⟨u0, a1, rfl⟩ := e1'
  obtain ⟨u1, a2, rfl⟩ := e2'
  obtain ⟨r, a3, rfl⟩ := e5'
  have hok := walk_ok _ _ _ _ _ (check_walk hb)
  obtain ⟨o1, -, o3⟩ := walk_piece _ _ _ _ _ (check_walk hb) i u0 u1 r a1 a2 a3
  obtain ⟨s1, s2, s3⟩ := terms_spec f.cls o1 (hok _ (List.mem_of_getElem? a1)) (hok _ (List.mem_of_getElem? a2))
    (termss_get _ _ _ (List.all_eq_true.mp shipped_terms f hf) i u0 u1 r a1 a2 a3) T e3 e4
  obtain ⟨c1, c2⟩ := o3 T e3 e4
  have hpr : 0 < f.gas.pref := by linarith [(pref_bounds hf).1]
  have hpe : 0 < (forms f.cls f.data.pref).pref.eval exact := by
    show 0 < (fileForms f).pref.eval exact
    rw [file_pref]; exact hpr
  have off := fun q => inner_off h0 hlt hA f.cls (pref := f.data.pref) hpe r1 r2 s1 s2 s3 (P := 1) (P' := 1) one_pos le_rfl
    (near_refl h0 hlt 71 1) q
  have efor : forms f.cls f.data.pref = fileForms f := rfl
  rw [efor] at off
  have so := slope_off h0 hlt hA f.cls r1 r2 s1
  have sabs := err_abs h0 (by push_cast; linarith) (by linarith) so
  have hgh : f.gas.h T = some (inner exact (fileForms f) .h (coef r) T 1, cpOf f.cls (coef r) T) := by
    unfold fileForms File.gas
    cases hc : f.cls with
    | ig => simp only [ig, pw]; rfl
    | ig2 =>
      simp only [ig2, pw, inner, ig2Forms, (exact_nasa (coef r) T).2.1]
      rw [show Gas.Nasa.hT (coef r) T = cpOf .ig2 (coef r) T from by
        simp only [cpOf, Gas.Nasa.hT, Gas.Nasa.cp, Gas.Nasa.hLoop, Gas.Nasa.hStep, List.foldl, Coef.at]
        ring]
  have cle : cpOf f.cls (coef r) T ≤ 20000 := (le_abs_self _).trans so.1
  have nR : Near ε 3 Ru (RuE.eval A) := eval_near h0 hlt hA RuE
  have R0 : 0 < Ru := Shipped.Ru_pos
  have R9 := Ru_le_nine
  have oR : Off ε 3 Ru Ru (RuE.eval A) := by have := err_of_near nR; rwa [abs_of_pos R0] at this
  have hn1 : (233 : ℝ) ≤ b.1 := by exact_mod_cast (check_nums hb).1
  have rout : routineF A f.cls f.data (fileForms f) q T = some (match q with
      | .h => (inner A (fileForms f) .h (coef r) T 1, (slope f.cls (coef r) T).eval A)
      | .e => (inner A (fileForms f) .e (coef r) T 1, A.sub ((slope f.cls (coef r) T).eval A) (RuE.eval A))) := by
    unfold routineF
    rw [piecewise_lit _ _ hA (fun L hL => Or.inl (hlim L hL)), pw]
    cases q <;> rfl
  have wT : (5e6 + T * 20010 : ℝ) ≤ 1.251e8 := by linarith
  cases q with
  | h =>
    have ho := err_abs h0 (by push_cast; linarith) (by linarith) (off .h)
    refine ⟨_, _, _, rout, by simp only [From.exact, hgh, Option.map_some]; rfl, ?_, ?_, r1, r2, c1.trans cle⟩
    · refine ho.trans ?_
      simp only [weight]
      push_cast
      nlinarith
    · refine le_trans ?_ (le_abs_self _)
      have := (abs_le.mp sabs).1
      push_cast at this
      simp only
      linarith
  | e =>
    have ho := err_abs h0 (by push_cast; linarith) (by linarith) (off .e)
    have o2 := off_sub h0 hlt hA so oR
    have sabs2 := err_abs h0 (by
      rw [show max 40 3 + 1 = 41 from rfl]; push_cast; linarith) (by linarith) o2
    rw [show max 40 3 + 1 = 41 from rfl] at sabs2
    refine ⟨_, _, _, rout, by simp only [From.exact, hgh, Option.map_some]; rfl, ?_, ?_, r1, r2, c1.trans cle⟩
    · have e1 : inner exact (fileForms f) .e (coef r) T 1 = inner exact (fileForms f) .h (coef r) T 1 - Ru * T := by
        simp only [inner, exact_Ru]; rfl
      rw [← e1]
      refine ho.trans ?_
      simp only [weight]
      push_cast
      nlinarith
    · refine le_trans ?_ (le_abs_self _)
      have := (abs_le.mp sabs2).1
      push_cast at this
      simp only
      nlinarith

/-- The limits are apart. -/
theorem limits_apart {f : File} {b : ℕ × ℕ} (hb : check f b = true) : f.gas.Tlo + 0.001 ≤ f.gas.Thi := by
  have hwf := wellFormed hb
  have hok := walk_ok _ _ _ _ _ (check_walk hb)
  have hlt : f.gas.Tlo < f.gas.Thi := by
    rw [gas_Tlo, gas_Thi]
    have hlen := hwf.rows
    have hC : 0 < f.data.C.length := List.length_pos_of_ne_nil hwf.nonempty
    have hasc := hwf.ascending
    cases hl : f.data.Tlim with
    | nil => simp [hl] at hlen
    | cons x xs =>
      cases hx : xs.reverse with
      | nil => simp only [List.reverse_eq_nil_iff] at hx; subst hx; rw [hl] at hlen; simp only [List.length_cons, List.length_nil] at hlen; omega
      | cons y ys =>
        have : xs = ys.reverse ++ [y] := by rw [← List.reverse_reverse xs, hx]; simp
        rw [hl, this] at hasc
        have := List.rel_of_pairwise_cons hasc (a' := y) (by simp)
        subst_vars
        have e : (x :: (ys.reverse ++ [y])).getLastD 0 = y := by
          rw [List.getLastD_cons]; simp
        rw [e]
        exact this
  obtain ⟨-, m1, m2, -⟩ := file_limits hb
  obtain ⟨d0, hd0, v0⟩ := List.mem_map.mp m1
  obtain ⟨d1, hd1, v1⟩ := List.mem_map.mp m2
  obtain ⟨k0, -⟩ := mK_val (hok _ hd0)
  obtain ⟨k1, -⟩ := mK_val (hok _ hd1)
  rw [← v0, ← v1] at hlt ⊢
  have : (mK d0 : ℝ) < mK d1 := by rw [k0, k1]; linarith
  have : (mK d0 + 1 : ℝ) ≤ mK d1 := by
    have : mK d0 < mK d1 := by exact_mod_cast this
    exact_mod_cast this
  rw [k0, k1] at this
  linarith

/-- The starting point is between the limits. -/
theorem start_ok (h0 : 0 ≤ ε) (h1 : ε ≤ 1e-12) (hA : Accurate ε A) {lo hi : ℝ} (l0 : 0 ≤ lo) (h6 : hi ≤ 6000)
    (hw : lo + 0.001 ≤ hi) : lo ≤ A.mul 0.5 (A.add lo hi) ∧ A.mul 0.5 (A.add lo hi) ≤ hi := by
  have a := hA.add lo hi
  have m := hA.mul 0.5 (A.add lo hi)
  unfold Within at a m
  rw [abs_of_nonneg (by linarith : 0 ≤ lo + hi)] at a
  obtain ⟨a1, a2⟩ := abs_le.mp a
  have q0 : ε * (lo + hi) ≤ 1e-12 * 12000 := by
    refine mul_le_mul h1 (by linarith) (by linarith) (by norm_num)
  have hs : 0 ≤ A.add lo hi := by linarith
  rw [abs_of_nonneg (by positivity : 0 ≤ 0.5 * A.add lo hi)] at m
  obtain ⟨m1, m2⟩ := abs_le.mp m
  have q1 : ε * (0.5 * A.add lo hi) ≤ 1e-12 * 12000 := by
    refine mul_le_mul h1 (by linarith) (by positivity) (by norm_num)
  constructor <;> linarith

/-- Differences of the exact quantity, and the ratio of the slopes. -/
theorem exact_lipschitz {f : File} {b : ℕ × ℕ} (hb : check f b = true) (q : From) (x x' : ℝ) (h1 : f.gas.Tlo ≤ x)
    (h2 : x ≤ f.gas.Thi) (h3 : f.gas.Tlo ≤ x') (h4 : x' ≤ f.gas.Thi) :
    ∃ y y', q.exact f.gas x = some y ∧ q.exact f.gas x' = some y' ∧
      |y - y'| ≤ (match q with | .h => (b.2 : ℝ) / 100 * Ru | .e => ((b.2 : ℝ) - 100) / 100 * Ru) * |x - x'|
        + (jumps f.cls f.Tlim f.C : ℕ) ∧
      q.rise * (Ru * |x - x'|) ≤ |y - y'| + (jumps f.cls f.Tlim f.C : ℕ) := by
  have hn1 : (233 : ℝ) ≤ b.1 := by exact_mod_cast (check_nums hb).1
  have R0 : 0 < Ru := Shipped.Ru_pos
  obtain ⟨z, z', c, c', g1, g2, g3, g4, g5⟩ := lipschitz hb x x' h1 h2 h3 h4
  cases q with
  | h =>
    refine ⟨z, z', by simp [From.exact, g1], by simp [From.exact, g2], g4, ?_⟩
    have : 2.33 * (Ru * |x - x'|) ≤ (b.1 : ℝ) / 100 * Ru * |x - x'| := by
      rw [mul_assoc]
      exact mul_le_mul_of_nonneg_right (by norm_num; linarith) (by positivity)
    simp only [From.rise]
    linarith
  | e =>
    refine ⟨z - Ru * x, z' - Ru * x', by simp [From.exact, g1], by simp [From.exact, g2], g5, ?_⟩
    obtain ⟨y, y', w1, w2, w3⟩ := Shipped.Props.e_apart hb x x' h1 h2 h3 h4
    rw [g1] at w1
    rw [g2] at w2
    simp only [Option.map_some, Option.some.injEq] at w1 w2
    rw [w1, w2]
    simp only [From.rise]
    linarith

namespace Props

/-- C116.  Let every operation of the arithmetic be accurate to `ε`, and take a shipped ideal gas all of whose
temperature limits the arithmetic holds exactly.  If the search for the temperature of an enthalpy (`q = h`) or internal
energy (`q = e`) of `y` kJ/kmol stops without a warning, then its result is a temperature `T` between the limits of the
gas, and the exact enthalpy or internal energy at `T` is `y` within 11 parts per million, the jump the data file has at
its limits (30 kJ/kmol, 300 for Rb), and `5e10 ε` kJ/kmol (0.000006 kJ/kmol in double precision). -/
theorem C116_temperature (h0 : 0 ≤ ε) (h1 : ε ≤ 1e-12) (hA : Accurate ε A) (f : File) (hf : f ∈ shipped)
    (hlim : ∀ L ∈ f.data.Tlim, A.lit L = L) (q : From) (y : ℝ) (r : Nan)
    (h : temperatureF A f.cls f.data (fileForms f) q y = .ok (r, false)) :
    ∃ T Y, r = some T ∧ f.gas.Tlo ≤ T ∧ T ≤ f.gas.Thi ∧ q.exact f.gas T = some Y ∧
      |Y - y| ≤ q.tolerance * |y| + (if f.id = "ig.Rb" then 300 else 30) + 5e10 * ε := by
  obtain ⟨b, hb⟩ := shipped_checked f hf
  have R0 : 0 < Ru := Shipped.Ru_pos
  have R9 := Ru_le_nine
  have R8 : 8 ≤ Ru := by norm_num [Ru, Units.const_Ru, Units.const_k, Units.const_Na]
  obtain ⟨k1, k2, k3, k4⟩ := check_nums hb
  have hn1 : (233 : ℝ) ≤ b.1 := by exact_mod_cast k1
  have hn2 : (b.2 : ℝ) ≤ 7 * b.1 := by exact_mod_cast k2
  have hn3 : (b.2 : ℝ) + 800 ≤ 9 * b.1 := by exact_mod_cast k3
  have hble := b_le hb
  have hJ : ((jumps f.cls f.Tlim f.C : ℕ) : ℝ) ≤ (if f.id = "ig.Rb" then 300 else 30) := by
    have : ((jumps f.cls f.Tlim f.C : ℕ) : ℝ) ≤ ((if f.id = "ig.Rb" then 300 else 30 : ℕ) : ℝ) := by exact_mod_cast k4
    refine this.trans (le_of_eq ?_)
    split <;> norm_num
  obtain ⟨-, m1, m2, -⟩ := file_limits hb
  have hlo := hlim _ m1
  have hhi := hlim _ m2
  have lo200 := lo_le hf hb
  have hap := limits_apart hb
  have ok := fun T l u => routine_ok h0 h1 hA hf hb hlim q T l u
  obtain ⟨-, -, -, -, -, -, -, -, t6, b20⟩ := ok f.gas.Thi (by linarith) le_rfl
  have tol : |A.lit 1e-6 * y| ≤ 1.000001e-6 * |y| := by
    rw [abs_mul]
    refine mul_le_mul_of_nonneg_right ?_ (abs_nonneg _)
    have := within_abs_le (hA.lit 1e-6)
    rw [abs_of_pos (by norm_num : (0 : ℝ) < 1e-6)] at this
    linarith
  unfold temperatureF at h
  rw [← gas_Tlo, ← gas_Thi, hlo, hhi] at h
  simp only at h
  -- the slopes
  obtain ⟨m, M, hm, hM, hMm, hM2, hsl, hl⟩ : ∃ m M : ℝ, 0 < m ∧ 0 ≤ M ∧
      1.00001 * (1 + M / m) * (1.000001e-6 * |y|) ≤ q.tolerance * |y| ∧ M ≤ 140000 ∧
      (∀ T, f.gas.Tlo ≤ T → T ≤ f.gas.Thi → ∃ yy yyx Y, routineF A f.cls f.data (fileForms f) q T = some (yy, yyx) ∧
        q.exact f.gas T = some Y ∧ |yy - Y| ≤ 1.2e10 * ε ∧ m ≤ |yyx|) ∧
      (∀ x x', f.gas.Tlo ≤ x → x ≤ f.gas.Thi → f.gas.Tlo ≤ x' → x' ≤ f.gas.Thi → ∃ Y Y', q.exact f.gas x = some Y ∧
        q.exact f.gas x' = some Y' ∧ |Y - Y'| ≤ M * |x - x'| + (jumps f.cls f.Tlim f.C : ℕ)) := by
    have ay := abs_nonneg y
    have hlip := exact_lipschitz hb q
    cases q with
    | h =>
      have p1 : (18 : ℝ) ≤ (b.1 : ℝ) / 100 * Ru := by nlinarith
      have p2 : (b.2 : ℝ) / 100 * Ru ≤ 7 * ((b.1 : ℝ) / 100 * Ru) := by nlinarith
      refine ⟨(b.1 : ℝ) / 100 * Ru - 1e-5, (b.2 : ℝ) / 100 * Ru, by linarith, by positivity, ?_, by linarith, ?_, ?_⟩
      · have : (b.2 : ℝ) / 100 * Ru / ((b.1 : ℝ) / 100 * Ru - 1e-5) ≤ 7.0001 := by
          rw [div_le_iff₀ (by linarith)]; linarith
        simp only [From.tolerance]
        nlinarith
      · intro T l u
        obtain ⟨yy, yyx, Y, w1, w2, w3, w4, -⟩ := ok T l u
        exact ⟨yy, yyx, Y, w1, w2, w3, w4⟩
      · intro x x' a1 a2 a3 a4
        obtain ⟨Y, Y', w1, w2, w3, -⟩ := hlip x x' a1 a2 a3 a4
        exact ⟨Y, Y', w1, w2, w3⟩
    | e =>
      have p1 : (10 : ℝ) ≤ ((b.1 : ℝ) - 100) / 100 * Ru := by nlinarith
      have p2 : ((b.2 : ℝ) - 100) / 100 * Ru ≤ 9 * (((b.1 : ℝ) - 100) / 100 * Ru) := by nlinarith
      have p3 : ((b.2 : ℝ) - 100) / 100 * Ru ≤ 7 * ((b.1 : ℝ) / 100 * Ru) := by nlinarith
      have p4 : 0 ≤ ((b.2 : ℝ) - 100) / 100 * Ru := mul_nonneg (by linarith) R0.le
      refine ⟨((b.1 : ℝ) - 100) / 100 * Ru - 1e-5, ((b.2 : ℝ) - 100) / 100 * Ru, by linarith, p4, ?_, by linarith, ?_, ?_⟩
      · have : ((b.2 : ℝ) - 100) / 100 * Ru / (((b.1 : ℝ) - 100) / 100 * Ru - 1e-5) ≤ 9.0001 := by
          rw [div_le_iff₀ (by linarith)]; linarith
        simp only [From.tolerance]
        nlinarith
      · intro T l u
        obtain ⟨yy, yyx, Y, w1, w2, w3, w4, -⟩ := ok T l u
        exact ⟨yy, yyx, Y, w1, w2, w3, w4⟩
      · intro x x' a1 a2 a3 a4
        obtain ⟨Y, Y', w1, w2, w3, -⟩ := hlip x x' a1 a2 a3 a4
        exact ⟨Y, Y', w1, w2, w3⟩
  obtain ⟨v, hv, v1, v2, hval⟩ := C116_value h0 (Nmax := 20) (by norm_num; linarith) hA _
    (fun T => (q.exact f.gas T).getD 0) y _ f.gas.Tlo f.gas.Thi (A.lit 1e-6) m M (jumps f.cls f.Tlim f.C : ℕ) (1.2e10 * ε) 6000
    hm hM (start_ok h0 h1 hA (by linarith) t6 hap) (fun x a1 a2 => by rw [abs_of_nonneg (by linarith)]; linarith)
    (fun x a1 a2 => by
      obtain ⟨yy, yyx, Y, w1, w2, w3, w4⟩ := hsl x a1 a2
      exact ⟨yy, yyx, w1, by rw [w2]; exact w3, w4⟩)
    (fun x x' a1 a2 a3 a4 => by
      obtain ⟨Y, Y', w1, w2, w3⟩ := hl x x' a1 a2 a3 a4
      rw [w1, w2]; exact w3) r h
  obtain ⟨-, -, Y, -, w2, -⟩ := hsl v v1 v2
  refine ⟨v, Y, hv, v1, v2, w2, ?_⟩
  simp only [w2, Option.getD_some] at hval
  refine hval.trans ?_
  have z1 : 1.00001 * (1 + M / m) * |A.lit 1e-6 * y| ≤ 1.00001 * (1 + M / m) * (1.000001e-6 * |y|) :=
    mul_le_mul_of_nonneg_left tol (by positivity)
  have z2 : 2 * (((20 : ℕ) : ℝ) + 1) * ε * (M * 6000) ≤ 3.6e10 * ε := by
    have : ε * M ≤ ε * 140000 := mul_le_mul_of_nonneg_left hM2 h0
    push_cast
    nlinarith
  linarith

/-- C116.  The temperature itself: under the same conditions, if `y` is the exact enthalpy or internal energy at some
temperature `T₀` between the limits, then the temperature found is `T₀` within the same energies divided by 2.33
(1.33 for internal energy) times the universal gas constant. -/
theorem C116_recovered (h0 : 0 ≤ ε) (h1 : ε ≤ 1e-12) (hA : Accurate ε A) (f : File) (hf : f ∈ shipped)
    (hlim : ∀ L ∈ f.data.Tlim, A.lit L = L) (q : From) (y T₀ : ℝ) (l0 : f.gas.Tlo ≤ T₀) (u0 : T₀ ≤ f.gas.Thi)
    (hy : q.exact f.gas T₀ = some y) (r : Nan)
    (h : temperatureF A f.cls f.data (fileForms f) q y = .ok (r, false)) :
    ∃ T, r = some T ∧ q.rise * (Ru * |T - T₀|)
      ≤ q.tolerance * |y| + 2 * (if f.id = "ig.Rb" then 300 else 30) + 5e10 * ε := by
  obtain ⟨T, Y, hr, t1, t2, hY, hacc⟩ := C116_temperature h0 h1 hA f hf hlim q y r h
  obtain ⟨b, hb⟩ := shipped_checked f hf
  obtain ⟨-, -, -, k4⟩ := check_nums hb
  have hJ : ((jumps f.cls f.Tlim f.C : ℕ) : ℝ) ≤ (if f.id = "ig.Rb" then 300 else 30) := by
    have : ((jumps f.cls f.Tlim f.C : ℕ) : ℝ) ≤ ((if f.id = "ig.Rb" then 300 else 30 : ℕ) : ℝ) := by exact_mod_cast k4
    refine this.trans (le_of_eq ?_)
    split <;> norm_num
  obtain ⟨Y', y', e1, e2, -, e4⟩ := exact_lipschitz hb q T T₀ t1 t2 l0 u0
  rw [hY] at e1
  rw [hy] at e2
  cases e1
  cases e2
  exact ⟨T, hr, by linarith⟩

end Props

end PyroMat.Float
