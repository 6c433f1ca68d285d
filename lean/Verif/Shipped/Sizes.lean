import Verif.Shipped.EntropyGrowth

/-!
# The size of the terms of a checked file

Not part of the model: a third checker on natural numbers.  The terms of a property partly cancel; the sum of their
absolute values says how much rounding can matter.
-/

set_option linter.unusedSimpArgs false

namespace PyroMat.Shipped

open PyroMat PyroMat.Gas PyroMat.Gas.Props PyroMat.Gas.Spec

/-- The terms of the heat capacity add up to at most 20000 kJ/kmol/K, and the constants of entropy and enthalpy are at most
8000 kJ/kmol/K and 5e6 kJ/kmol. -/
def terms (c : Cls) (r : List Dec) (l h : Nat) : Bool :=
  match c with
  | .ig => Nat.ble (size40 r 0 + (size40 r 1 * h / 10 ^ 6 + 1) + (size40 r 2 * h ^ 2 / 10 ^ 12 + 1)
      + (size40 r 3 * h ^ 3 / 10 ^ 18 + 1) + (size40 r 4 * 10 ^ 12 / l ^ 2 + 1)) (20000 * 10 ^ 40)
      && Nat.ble (size40 r 6 + 11 * size40 r 0) (8000 * 10 ^ 40) && Nat.ble (1000 * size40 r 5) (5000000 * 10 ^ 40)
  | .ig2 => Nat.ble (9 * (size40 r 0 + (size40 r 1 * h / 10 ^ 3 + 1) + (size40 r 2 * h ^ 2 / 10 ^ 6 + 1)
      + (size40 r 3 * h ^ 3 / 10 ^ 9 + 1) + (size40 r 4 * h ^ 4 / 10 ^ 12 + 1))) (20000 * 10 ^ 40)
      && Nat.ble (9 * (size40 r 6 + 11 * size40 r 0)) (8000 * 10 ^ 40) && Nat.ble (9 * size40 r 5) (5000000 * 10 ^ 40)

/-- The same on every piece. -/
def termss (c : Cls) : List Dec → List (List Dec) → Bool
  | t0 :: t1 :: ts, r :: rs => terms c r (mK t0) (mK t1) && termss c (t1 :: ts) rs
  | _, _ => true

theorem shipped_terms : (shipped.all fun f => termss f.cls f.Tlim f.C) = true := by decide +kernel

/-- The sum of the absolute values of the terms of the heat capacity at `T`. -/
noncomputable def absTerms (c : Cls) (C : Coef) (T : ℝ) : ℝ :=
  match c with
  | .ig => |C.c0| + |C.c1| * (T / 1000) + |C.c2| * (T / 1000) ^ 2 + |C.c3| * (T / 1000) ^ 3 + |C.c4| / (T / 1000) ^ 2
  | .ig2 => Ru * (|C.c0| + |C.c1| * T + |C.c2| * T ^ 2 + |C.c3| * T ^ 3 + |C.c4| * T ^ 4)

/-- The constants of entropy and enthalpy. -/
noncomputable def absS (c : Cls) (C : Coef) : ℝ :=
  match c with
  | .ig => |C.c6| + 11 * |C.c0|
  | .ig2 => Ru * (|C.c6| + 11 * |C.c0|)

/-- The constant of enthalpy. -/
noncomputable def absH (c : Cls) (C : Coef) : ℝ :=
  match c with
  | .ig => 1000 * |C.c5|
  | .ig2 => Ru * |C.c5|

theorem Ru_le_nine : Ru ≤ 9 := by norm_num [Ru, Units.const_Ru, Units.const_k, Units.const_Na]

theorem terms_spec (c : Cls) {r : List Dec} (hr : okRow r = true) {t0 t1 : Dec} (k0 : okT t0 = true) (k1 : okT t1 = true)
    (h : terms c r (mK t0) (mK t1) = true) (T : ℝ) (h1 : t0.val ≤ T) (h2 : T ≤ t1.val) :
    absTerms c (coef r) T ≤ 20000 ∧ absS c (coef r) ≤ 8000 ∧ absH c (coef r) ≤ 5e6 := by
  obtain ⟨v0, p0⟩ := mK_val k0
  obtain ⟨v1, p1⟩ := mK_val k1
  have hT : 0 < T := p0.trans_le h1
  have z := size40_val hr
  have R9 := Ru_le_nine
  have R0 : 0 < Ru := Shipped.Ru_pos
  have hu0 : 0 < mK t0 := by
    have : (0 : ℝ) < (mK t0 : ℕ) := by rw [v0]; positivity
    exact_mod_cast this
  cases c with
  | ig =>
    simp only [terms, Bool.and_eq_true] at h
    obtain ⟨⟨g1, g2⟩, g3⟩ := h
    have g1 : ((_ : ℕ) : ℝ) ≤ ((_ : ℕ) : ℝ) := Nat.cast_le.mpr (Nat.le_of_ble_eq_true g1)
    have g2 : ((_ : ℕ) : ℝ) ≤ ((_ : ℕ) : ℝ) := Nat.cast_le.mpr (Nat.le_of_ble_eq_true g2)
    have g3 : ((_ : ℕ) : ℝ) ≤ ((_ : ℕ) : ℝ) := Nat.cast_le.mpr (Nat.le_of_ble_eq_true g3)
    have d1 := le_div_succ (size40 r 1 * mK t1) (10 ^ 6) (by positivity)
    have d2 := le_div_succ (size40 r 2 * mK t1 ^ 2) (10 ^ 12) (by positivity)
    have d3 := le_div_succ (size40 r 3 * mK t1 ^ 3) (10 ^ 18) (by positivity)
    have d4 := le_div_succ (size40 r 4 * 10 ^ 12) (mK t0 ^ 2) (by positivity)
    rw [Nat.cast_add, Nat.cast_add, Nat.cast_add, Nat.cast_add] at g1
    simp only [Nat.cast_mul, Nat.cast_pow, z, v1, v0] at d1 d2 d3 d4
    simp only [Nat.cast_mul, Nat.cast_add, z] at g2 g3
    rw [z] at g1
    have x0 : 0 < T / 1000 := by positivity
    have q1 : |(cof r 1).val| * (T / 1000) ≤ |(cof r 1).val| * (t1.val / 1000) :=
      mul_le_mul_of_nonneg_left (by linarith) (abs_nonneg _)
    have q2 : |(cof r 2).val| * (T / 1000) ^ 2 ≤ |(cof r 2).val| * (t1.val / 1000) ^ 2 :=
      mul_le_mul_of_nonneg_left (pow_le_pow_left₀ x0.le (by linarith) 2) (abs_nonneg _)
    have q3 : |(cof r 3).val| * (T / 1000) ^ 3 ≤ |(cof r 3).val| * (t1.val / 1000) ^ 3 :=
      mul_le_mul_of_nonneg_left (pow_le_pow_left₀ x0.le (by linarith) 3) (abs_nonneg _)
    have q4 : |(cof r 4).val| / (T / 1000) ^ 2 ≤ |(cof r 4).val| / (t0.val / 1000) ^ 2 := by
      refine div_le_div_of_nonneg_left (abs_nonneg _) (by positivity) (pow_le_pow_left₀ (by positivity) (by linarith) 2)
    have e4 : |(cof r 4).val| * 10 ^ 40 * 10 ^ 12 / (t0.val * 1000) ^ 2 = |(cof r 4).val| / (t0.val / 1000) ^ 2 * 10 ^ 40 := by
      field_simp
      ring
    refine ⟨?_, ?_, ?_⟩
    · simp only [absTerms, coef]
      push_cast at d1 d2 d3 d4 g1
      rw [e4] at d4
      nlinarith
    · simp only [absS, coef]
      push_cast at g2
      linarith
    · simp only [absH, coef]
      push_cast at g3
      linarith
  | ig2 =>
    simp only [terms, Bool.and_eq_true] at h
    obtain ⟨⟨g1, g2⟩, g3⟩ := h
    have g1 : ((_ : ℕ) : ℝ) ≤ ((_ : ℕ) : ℝ) := Nat.cast_le.mpr (Nat.le_of_ble_eq_true g1)
    have g2 : ((_ : ℕ) : ℝ) ≤ ((_ : ℕ) : ℝ) := Nat.cast_le.mpr (Nat.le_of_ble_eq_true g2)
    have g3 : ((_ : ℕ) : ℝ) ≤ ((_ : ℕ) : ℝ) := Nat.cast_le.mpr (Nat.le_of_ble_eq_true g3)
    have d1 := le_div_succ (size40 r 1 * mK t1) (10 ^ 3) (by positivity)
    have d2 := le_div_succ (size40 r 2 * mK t1 ^ 2) (10 ^ 6) (by positivity)
    have d3 := le_div_succ (size40 r 3 * mK t1 ^ 3) (10 ^ 9) (by positivity)
    have d4 := le_div_succ (size40 r 4 * mK t1 ^ 4) (10 ^ 12) (by positivity)
    rw [Nat.cast_mul, Nat.cast_add, Nat.cast_add, Nat.cast_add, Nat.cast_add] at g1
    simp only [Nat.cast_mul, Nat.cast_pow, z, v1, v0] at d1 d2 d3 d4
    simp only [Nat.cast_mul, Nat.cast_add, z] at g2 g3
    rw [z] at g1
    have q1 : |(cof r 1).val| * T ≤ |(cof r 1).val| * t1.val := mul_le_mul_of_nonneg_left h2 (abs_nonneg _)
    have q2 : |(cof r 2).val| * T ^ 2 ≤ |(cof r 2).val| * t1.val ^ 2 :=
      mul_le_mul_of_nonneg_left (pow_le_pow_left₀ hT.le h2 2) (abs_nonneg _)
    have q3 : |(cof r 3).val| * T ^ 3 ≤ |(cof r 3).val| * t1.val ^ 3 :=
      mul_le_mul_of_nonneg_left (pow_le_pow_left₀ hT.le h2 3) (abs_nonneg _)
    have q4 : |(cof r 4).val| * T ^ 4 ≤ |(cof r 4).val| * t1.val ^ 4 :=
      mul_le_mul_of_nonneg_left (pow_le_pow_left₀ hT.le h2 4) (abs_nonneg _)
    refine ⟨?_, ?_, ?_⟩
    · simp only [absTerms, coef]
      push_cast at d1 d2 d3 d4 g1
      have : Ru * (|(cof r 0).val| + |(cof r 1).val| * T + |(cof r 2).val| * T ^ 2 + |(cof r 3).val| * T ^ 3
          + |(cof r 4).val| * T ^ 4) ≤ 9 * (|(cof r 0).val| + |(cof r 1).val| * T + |(cof r 2).val| * T ^ 2
          + |(cof r 3).val| * T ^ 3 + |(cof r 4).val| * T ^ 4) := mul_le_mul_of_nonneg_right R9 (by positivity)
      refine this.trans ?_
      linarith
    · simp only [absS, coef]
      push_cast at g2
      have : Ru * (|(cof r 6).val| + 11 * |(cof r 0).val|) ≤ 9 * (|(cof r 6).val| + 11 * |(cof r 0).val|) :=
        mul_le_mul_of_nonneg_right R9 (by positivity)
      linarith
    · simp only [absH, coef]
      push_cast at g3
      have : Ru * |(cof r 5).val| ≤ 9 * |(cof r 5).val| := mul_le_mul_of_nonneg_right R9 (by positivity)
      linarith

theorem termss_get (c : Cls) (ts : List Dec) (rs : List (List Dec)) (h : termss c ts rs = true) (i : Nat) (t0 t1 : Dec)
    (r : List Dec) (h0 : ts[i]? = some t0) (h1 : ts[i + 1]? = some t1) (h2 : rs[i]? = some r) :
    terms c r (mK t0) (mK t1) = true := by
  induction rs generalizing ts i with
  | nil => simp at h2
  | cons q rs ih =>
    match ts, h with
    | u0 :: u1 :: ts, h =>
      simp only [termss, Bool.and_eq_true] at h
      cases i with
      | zero =>
        simp only [List.getElem?_cons_zero, List.getElem?_cons_succ, Option.some.injEq] at h0 h1 h2
        subst h0 h1 h2
        exact h.1
      | succ i => exact ih (u1 :: ts) h.2 i (by simpa using h0) (by simpa using h1) (by simpa using h2)
    | [], _ => simp at h0
    | [_], _ => simp at h1

end PyroMat.Shipped
