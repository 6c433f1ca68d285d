import Verif.Float.Abs
import Verif.Float.PropsUnits

/-!
# C104: temperature scales and round trips in floating point
-/

set_option linter.unusedSimpArgs false

namespace PyroMat.Float

open PyroMat PyroMat.Units PyroMat.Units.Spec PyroMat.Units.Props

variable {ε : ℝ} {A : Arith}

theorem abs_lit (h0 : 0 ≤ ε) (hA : Accurate ε A) {c : ℝ} (hc : 0 ≤ c) : |A.lit c - c| ≤ ε * c := by
  have := hA.lit c
  unfold Within at this
  rwa [abs_of_nonneg hc] at this

theorem kq_near (h0 : 0 ≤ ε) (h1 : ε < 1) (hA : Accurate ε A) :
    Near ε 3 (const_q / const_k : ℝ) (A.div (qE.eval A) (kE.eval A)) :=
  eval_near h0 h1 hA (.div qE kE)

theorem toKelvin_err (h0 : 0 ≤ ε) (h1 : ε ≤ 1e-5) (hA : Accurate ε A) (s : Scale) (x : ℝ) :
    |toKelvinF A s.name x - toKelvin s.name x| ≤ 4.1 * ε * (|toKelvin s.name x| + 300) := by
  have hlt : ε < 1 := by linarith
  set k := toKelvin s.name x with hk
  have ak := abs_nonneg k
  cases s with
  | K =>
    have : toKelvinF A Scale.K.name x = k := by simp [hk, toKelvinF, toKelvin, Scale.name]
    rw [this, sub_self, abs_zero]
    positivity
  | C =>
    have e1 : toKelvinF A Scale.C.name x = A.add x (A.lit 273.15) := by simp [toKelvinF, Scale.name]
    have e2 : k = x + 273.15 := by rw [hk]; exact toK_C x
    rw [e1]
    have := err_add h0 hA (a := x) (a' := x) (α := 0) (by simp) (abs_lit h0 hA (show (0:ℝ) ≤ 273.15 by norm_num))
    rw [← e2] at this
    nlinarith
  | R =>
    have e1 : toKelvinF A Scale.R.name x = A.div x (A.lit 1.8) := by simp [toKelvinF, Scale.name]
    have e2 : k = x / 1.8 := by rw [hk]; exact toK_R x
    have n := within_of_near h0 (by norm_num at *; linarith) (by linarith)
      (near_trans (near_div (near_refl h0 hlt 0 x) (near_of_within h0 hlt (hA.lit 1.8))) (near_of_within h0 hlt (hA.div x (A.lit 1.8))))
    unfold Within at n
    rw [← e2, ← e1] at n
    norm_num at n ⊢
    nlinarith
  | F =>
    have e1 : toKelvinF A Scale.F.name x = A.add (A.div x (A.lit 1.8)) (A.lit 255.3722222222222) := by
      simp [toKelvinF, Scale.name]
    have e2 : k = x / 1.8 + 255.3722222222222 := by rw [hk]; exact toK_F x
    have n := within_of_near h0 (by norm_num at *; linarith) (by linarith)
      (near_trans (near_div (near_refl h0 hlt 0 x) (near_of_within h0 hlt (hA.lit 1.8))) (near_of_within h0 hlt (hA.div x (A.lit 1.8))))
    unfold Within at n
    have hx : |x / 1.8| ≤ |k| + 256 := by
      have : x / 1.8 = k - 255.3722222222222 := by rw [e2]; ring
      rw [this]
      refine (abs_sub _ _).trans ?_
      rw [abs_of_nonneg (show (0:ℝ) ≤ 255.3722222222222 by norm_num)]
      norm_num
    have n' : |A.div x (A.lit 1.8) - x / 1.8| ≤ 2.02 * ε * (|k| + 256) := by
      refine n.trans ?_
      norm_num at hx ⊢
      nlinarith
    have := err_add h0 hA n' (abs_lit h0 hA (show (0:ℝ) ≤ 255.3722222222222 by norm_num))
    rw [← e2, ← e1] at this
    nlinarith [mul_nonneg h0 ak, mul_nonneg h0 h0, mul_nonneg (mul_nonneg h0 h0) ak]
  | eV =>
    have e1 : toKelvinF A Scale.eV.name x = A.mul x (A.div (qE.eval A) (kE.eval A)) := by simp [toKelvinF, Scale.name]
    have e2 : k = x * (const_q / const_k) := by rw [hk]; exact toK_eV x
    have n := within_of_near h0 (by norm_num at *; linarith) (by linarith)
      (near_trans (near_mul (near_refl h0 hlt 0 x) (kq_near h0 hlt hA)) (near_of_within h0 hlt (hA.mul x _)))
    unfold Within at n
    rw [← e2, ← e1] at n
    norm_num at n ⊢
    nlinarith

theorem fromKelvin_err (h0 : 0 ≤ ε) (h1 : ε ≤ 1e-5) (hA : Accurate ε A) (s : Scale) (k : ℝ) :
    |toKelvin s.name (fromKelvinF A s.name k) - k| ≤ 4.2 * ε * (|k| + 300) := by
  have hlt : ε < 1 := by linarith
  have ak := abs_nonneg k
  cases s with
  | K =>
    have : toKelvin Scale.K.name (fromKelvinF A Scale.K.name k) = k := by simp [fromKelvinF, toKelvin, Scale.name]
    rw [this, sub_self, abs_zero]
    positivity
  | C =>
    have e1 : fromKelvinF A Scale.C.name k = A.sub k (A.lit 273.15) := by simp [fromKelvinF, Scale.name]
    rw [e1, Scale.name, toK_C]
    have := err_sub h0 hA (a := k) (a' := k) (α := 0) (by simp) (abs_lit h0 hA (show (0:ℝ) ≤ 273.15 by norm_num))
    have h3 : |k - 273.15| ≤ |k| + 273.15 := by
      refine (abs_sub _ _).trans ?_
      rw [abs_of_nonneg (show (0:ℝ) ≤ 273.15 by norm_num)]
    rw [show A.sub k (A.lit 273.15) + 273.15 - k = A.sub k (A.lit 273.15) - (k - 273.15) by ring]
    nlinarith
  | R =>
    have e1 : fromKelvinF A Scale.R.name k = A.mul k (A.lit 1.8) := by simp [fromKelvinF, Scale.name]
    rw [e1, Scale.name, toK_R]
    have n := within_of_near h0 (by norm_num at *; linarith) (by linarith)
      (near_trans (near_mul (near_refl h0 hlt 0 k) (near_of_within h0 hlt (hA.lit 1.8))) (near_of_within h0 hlt (hA.mul k (A.lit 1.8))))
    unfold Within at n
    rw [abs_mul, abs_of_pos (show (0:ℝ) < 1.8 by norm_num)] at n
    rw [show A.mul k (A.lit 1.8) / 1.8 - k = (A.mul k (A.lit 1.8) - k * 1.8) / 1.8 by field_simp, abs_div,
      abs_of_pos (show (0:ℝ) < 1.8 by norm_num), div_le_iff₀ (by norm_num)]
    norm_num at n ⊢
    nlinarith
  | F =>
    have e1 : fromKelvinF A Scale.F.name k = A.mul (A.sub k (A.lit 255.3722222222222)) (A.lit 1.8) := by
      simp [fromKelvinF, Scale.name]
    rw [e1, Scale.name, toK_F]
    set d := A.sub k (A.lit 255.3722222222222) with hd
    have h2 := err_sub h0 hA (a := k) (a' := k) (α := 0) (by simp)
      (abs_lit h0 hA (show (0:ℝ) ≤ 255.3722222222222 by norm_num))
    rw [← hd] at h2
    have h3 : |k - 255.3722222222222| ≤ |k| + 256 := by
      refine (abs_sub _ _).trans ?_
      rw [abs_of_nonneg (show (0:ℝ) ≤ 255.3722222222222 by norm_num)]
      norm_num
    have h4 : |d - (k - 255.3722222222222)| ≤ ε * |k| + 513 * ε := by nlinarith
    have h5 : |d| ≤ 1.001 * |k| + 257 := by
      have := abs_add_le (d - (k - 255.3722222222222)) (k - 255.3722222222222)
      rw [sub_add_cancel] at this
      nlinarith
    have n := within_of_near h0 (by norm_num at *; linarith) (by linarith)
      (near_trans (near_mul (near_refl h0 hlt 0 d) (near_of_within h0 hlt (hA.lit 1.8))) (near_of_within h0 hlt (hA.mul d (A.lit 1.8))))
    unfold Within at n
    rw [abs_mul, abs_of_pos (show (0:ℝ) < 1.8 by norm_num)] at n
    have h6 : |A.mul d (A.lit 1.8) / 1.8 - d| ≤ 2.02 * ε * |d| := by
      rw [show A.mul d (A.lit 1.8) / 1.8 - d = (A.mul d (A.lit 1.8) - d * 1.8) / 1.8 by field_simp, abs_div,
        abs_of_pos (show (0:ℝ) < 1.8 by norm_num), div_le_iff₀ (by norm_num)]
      norm_num at n ⊢
      nlinarith
    have h7 := abs_add_le (A.mul d (A.lit 1.8) / 1.8 - d) (d - (k - 255.3722222222222))
    rw [show A.mul d (A.lit 1.8) / 1.8 + 255.3722222222222 - k
      = A.mul d (A.lit 1.8) / 1.8 - d + (d - (k - 255.3722222222222)) by ring]
    nlinarith
  | eV =>
    have e1 : fromKelvinF A Scale.eV.name k = A.div k (A.div (qE.eval A) (kE.eval A)) := by simp [fromKelvinF, Scale.name]
    have c0 : (0:ℝ) < const_q / const_k := by norm_num [const_q, const_k]
    rw [e1, Scale.name, toK_eV]
    have n := within_of_near h0 (by norm_num at *; linarith) (by linarith)
      (near_mul (near_trans (near_div (near_refl h0 hlt 0 k) (kq_near h0 hlt hA)) (near_of_within h0 hlt (hA.div k _)))
        (near_refl h0 hlt 0 (const_q / const_k : ℝ)))
    unfold Within at n
    rw [div_mul_cancel₀ _ c0.ne'] at n
    norm_num at n ⊢
    nlinarith

theorem scale_err (h0 : 0 ≤ ε) (h1 : ε ≤ 1e-5) (hA : Accurate ε A) (s t : Scale) (x : ℝ) :
    |toKelvin t.name (fromKelvinF A t.name (toKelvinF A s.name x)) - toKelvin s.name x|
      ≤ 8.5 * ε * (|toKelvin s.name x| + 300) := by
  have e1 := toKelvin_err h0 h1 hA s x
  set k := toKelvin s.name x
  set k' := toKelvinF A s.name x
  have e2 := fromKelvin_err h0 h1 hA t k'
  have h2 : |k'| ≤ |k| + 4.1 * ε * (|k| + 300) := by
    have := abs_add_le (k' - k) k
    rw [sub_add_cancel] at this
    linarith
  have h3 := abs_add_le (toKelvin t.name (fromKelvinF A t.name k') - k') (k' - k)
  rw [sub_add_sub_cancel] at h3
  have ak := abs_nonneg k
  have : 4.2 * ε * (|k'| + 300) ≤ 4.3 * ε * (|k| + 300) := by
    have : |k'| + 300 ≤ (|k| + 300) * (1 + 4.1 * ε) := by linarith
    have h4 : ε * (|k'| + 300) ≤ ε * ((|k| + 300) * (1 + 4.1 * ε)) := mul_le_mul_of_nonneg_left this h0
    have h5 : 0 ≤ ε * (|k| + 300) := by positivity
    nlinarith
  nlinarith

/-- The code's reading of a scale is the scale up to the digits of its constant for Fahrenheit. -/
theorem kelvin_toKelvin (s : Scale) : ∃ c : ℝ, |c| ≤ 1e-13 ∧ ∀ x, kelvin s x = toKelvin s.name x + c := by
  cases s with
  | K => exact ⟨0, by norm_num, fun x => by simp [kelvin, Scale.name, toK_K]⟩
  | C => exact ⟨0, by norm_num, fun x => by simp [kelvin, Scale.name, toK_C]⟩
  | R => exact ⟨0, by norm_num, fun x => by simp only [kelvin, Scale.name, toK_R]; norm_num; ring⟩
  | F =>
    refine ⟨459.67 * (5 / 9) - 255.3722222222222, by norm_num [abs_le], fun x => ?_⟩
    simp only [kelvin, Scale.name, toK_F]; norm_num; ring
  | eV =>
    refine ⟨0, by norm_num, fun x => ?_⟩
    simp only [kelvin, Scale.name, toK_eV, const_q, const_k]; ring

namespace Props

/-- C104, temperature scales.  With arithmetic accurate to `ε`, `temperature_scale` from any of the five scales to
any other returns what it returns in exact arithmetic, each temperature being off by at most `9 ε (T + 300 K)`, both
measured in kelvin (for doubles `1.2e-12 K` at room temperature). -/
theorem C104_temperature (h0 : 0 ≤ ε) (h1 : ε ≤ 1e-5) (hA : Accurate ε A) (cfg : Cfg) (v : Val ℝ) (s t : Scale)
    (i : Bool) :
    Agrees (fun y y' => |kelvin t y' - kelvin t y| ≤ 9 * ε * (|kelvin t y| + 300))
      (temperatureScale cfg v (some s.name) (some t.name) i) (temperatureScaleF A cfg v (some s.name) (some t.name) i) := by
  obtain ⟨c, hc, hk⟩ := kelvin_toKelvin t
  have hr : ∀ y : ℝ, |kelvin t y - kelvin t y| ≤ 9 * ε * (|kelvin t y| + 300) := by
    intro y
    rw [sub_self, abs_zero]; positivity
  unfold temperatureScale temperatureScaleF
  simp only [pure, Except.pure, bind, Except.bind]
  by_cases hst : s.name = t.name
  · rw [if_pos hst, if_pos hst]; exact agrees_same hr v
  rw [if_neg hst, if_neg hst]
  have hab : resolveAbs s.name t.name = some (s.name, t.name) := by
    cases s <;> cases t <;> rfl
  rw [hab]
  refine agrees_apply hr (fun x => ?_) v i
  have e := scale_err h0 h1 hA s t x
  rw [hk, hk, add_sub_add_right_eq_sub, to_from]
  refine e.trans ?_
  have ak : |toKelvin s.name x| ≤ |toKelvin s.name x + c| + 1e-13 := by
    have := abs_sub (toKelvin s.name x + c) c
    rw [add_sub_cancel_right] at this
    linarith
  have a0 := abs_nonneg (toKelvin s.name x + c)
  nlinarith

/-- C104, round trip.  A value converted from one unit to another and back, by any of the nine conversion objects,
comes back within a relative error of `5 ε`: the conversion factors are taken from the same entries both ways. -/
theorem C104_roundtrip (h0 : 0 ≤ ε) (h1 : ε ≤ 1e-6) (hA : Accurate ε A) (a : SetupArgs ℝ) (c : Conv ℝ)
    (hc : c ∈ convs A a) (cfg : Cfg) (v : Val ℝ) (f u : String) (i j : Bool) (r r' : Res ℝ)
    (h : callF A c cfg v (some f) (some u) none i = .ok r)
    (h' : callF A c cfg r.ret (some u) (some f) none j = .ok r') : ValRel (Within (5 * ε)) v r'.ret := by
  have hlt : ε < 1 := by linarith
  obtain ⟨t, ht, rfl⟩ := List.mem_map.mp hc
  have hr : ∀ x, Within (5 * ε) x x := within_refl (by positivity)
  simp only [callF, Conv.resolve, bind, Except.bind, pure, Except.pure] at h h'
  by_cases hs : f = u
  · rw [if_pos hs] at h
    rw [if_pos hs.symm] at h'
    cases h; cases h'
    exact valRel_refl hr v
  rw [if_neg hs] at h
  rw [if_neg (Ne.symm hs)] at h'
  cases gf : (t.build A).get f with
  | error e => simp [gf] at h
  | ok x =>
  cases gu : (t.build A).get u with
  | error e => simp [gf, gu] at h
  | ok y =>
  simp only [gf, gu, divF, powF] at h h'
  by_cases hy : y = 0
  · simp [hy] at h
  by_cases hx : x = 0
  · simp [hx] at h'
  rw [if_neg hy] at h
  rw [if_neg hx] at h'
  cases h
  cases h'
  have ret : ∀ (w : Val ℝ) (g : ℝ → ℝ) (i : Bool), (applyOp g w i).ret = w.map g := by
    intro w g i; unfold applyOp; split <;> rfl
  have mm : ∀ (w : Val ℝ) (g g' : ℝ → ℝ), (w.map g).map g' = w.map fun x => g' (g x) := by
    intro w g g'; cases w <;> simp [Val.map]
  have mi : v = v.map fun x => x := by cases v <;> simp [Val.map]
  rw [ret, ret, mm]
  conv => arg 2; rw [mi]
  refine valRel_map (fun z => ?_) v
  have n1 := near_of_within h0 hlt (hA.div x y)
  have n2 := near_of_within h0 hlt (hA.div y x)
  have n3 := near_trans (near_mul (near_refl h0 hlt 0 z) n1) (near_of_within h0 hlt (hA.mul z (A.div x y)))
  have n4 := near_trans (near_mul n3 n2) (near_of_within h0 hlt (hA.mul (A.mul z (A.div x y)) (A.div y x)))
  rw [show z * (x / y) * (y / x) = z by field_simp] at n4
  have w := within_of_near h0 (by norm_num at *; linarith) (by linarith) n4
  unfold Within at w ⊢
  refine w.trans (mul_le_mul_of_nonneg_right ?_ (abs_nonneg _))
  norm_num
  linarith

end Props

end PyroMat.Float
