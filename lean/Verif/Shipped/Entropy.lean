import Verif.Gas.PropsInverseLog
import Verif.Shipped.Logs
import Verif.Shipped.Regular

/-!
# The entropy of a checked file: steps between pieces, size, growth

Not part of the model: a second checker on natural numbers, and what follows from it at every real temperature.
-/

set_option linter.unusedSimpArgs false

namespace PyroMat.Shipped

open PyroMat PyroMat.Gas PyroMat.Gas.Props PyroMat.Gas.Spec

/-! ## The checker -/

/-- The change of entropy between two rows at the temperature `u`, in millionths of a kJ/kmol/K, rounded up. -/
def sjump (c : Cls) (r r' : List Dec) (u : Nat) : Nat :=
  match c, logAt c u with
  | _, none => 10 ^ 9
  | .ig, some L => (polyZ (homog 6 [-3 * 10 ^ 12 * dif r r' 4, 0, 6 * (10 ^ 12 * dif r r' 6 + L * dif r r' 0),
      6 * 10 ^ 12 * dif r r' 1, 3 * 10 ^ 12 * dif r r' 2, 2 * 10 ^ 12 * dif r r' 3]) (Int.ofNat u)).natAbs
        / (6 * 10 ^ 64 * u ^ 2) + 1 + ((dif r r' 0).natAbs / 10 ^ 42 + 1)
  | .ig2, some L => (polyZ (homog 3 [12 * (10 ^ 12 * dif r r' 6 + L * dif r r' 0), 12 * 10 ^ 12 * dif r r' 1,
      6 * 10 ^ 12 * dif r r' 2, 4 * 10 ^ 12 * dif r r' 3, 3 * 10 ^ 12 * dif r r' 4]) (Int.ofNat u)).natAbs
        * 831446261815324 / (12 * 10 ^ 72) + 1 + (9 * (dif r r' 0).natAbs / 10 ^ 42 + 1)

/-- All the changes added up. -/
def sjumps (c : Cls) : List Dec → List (List Dec) → Nat
  | _ :: t1 :: ts, r :: r' :: rs => sjump c r r' (mK t1) + sjumps c (t1 :: ts) (r' :: rs)
  | _, _ => 0

/-- The size of a coefficient, times `10^40`. -/
def size40 (r : List Dec) (k : Nat) : Nat := (sc (cof r k)).natAbs

/-- The terms of the entropy between `l` and `h` add up to at most 13000 kJ/kmol/K. -/
def small (c : Cls) (r : List Dec) (l h : Nat) : Bool :=
  Nat.ble 200000 l && Nat.ble h 6000000 &&
  match c with
  | .ig => Nat.ble (size40 r 6 + 9 * size40 r 0 + (size40 r 1 * h / 10 ^ 6 + 1) + (size40 r 2 * h ^ 2 / (2 * 10 ^ 12) + 1)
      + (size40 r 3 * h ^ 3 / (3 * 10 ^ 18) + 1) + (size40 r 4 * 10 ^ 12 / (2 * l ^ 2) + 1)) (13000 * 10 ^ 40)
  | .ig2 => Nat.ble (9 * (size40 r 6 + 9 * size40 r 0 + (size40 r 1 * h / 10 ^ 3 + 1)
      + (size40 r 2 * h ^ 2 / (2 * 10 ^ 6) + 1) + (size40 r 3 * h ^ 3 / (3 * 10 ^ 9) + 1)
      + (size40 r 4 * h ^ 4 / (4 * 10 ^ 12) + 1))) (13000 * 10 ^ 40)

/-- The same on every piece. -/
def smalls (c : Cls) : List Dec → List (List Dec) → Bool
  | t0 :: t1 :: ts, r :: rs => small c r (mK t0) (mK t1) && smalls c (t1 :: ts) rs
  | _, _ => true

/-- Steps of at most 0.08 kJ/kmol/K in all, and no entropy above 13000. -/
def checkS (f : File) : Bool :=
  Nat.ble (sjumps f.cls f.Tlim f.C) 80000 && smalls f.cls f.Tlim f.C

theorem shipped_checkS : (shipped.all checkS) = true := by decide +kernel

/-! ## Soundness -/

/-- The entropy of a class at the reference pressure. -/
noncomputable def sOf : Cls → Coef → ℝ → ℝ
  | .ig => Sho.s
  | .ig2 => Nasa.s

theorem s_deriv (c : Cls) (C : Coef) {T : ℝ} (hT : 0 < T) : HasDerivAt (sOf c C) (cpOf c C T / T) T := by
  cases c with
  | ig => exact sho_s_deriv C hT.ne'
  | ig2 => exact nasa_s_deriv C hT.ne'

theorem abs_ratio_le {A B X e m D k : ℝ} (hm : 0 < m) (hD : 0 < D) (hk : 0 < k) (h : (A * k - X) * D = B * m)
    (hX : |X| ≤ e) : |A| * k ≤ |B| * m / D + e := by
  have := abs_ratio hm hD h
  have h2 : |A| * k ≤ |A * k - X| + |X| := by
    have := abs_add_le (A * k - X) X
    rw [sub_add_cancel, abs_mul, abs_of_pos hk] at this
    exact this
  linarith

/-- The part of the error that comes from the logarithm. -/
theorem log_part {a l q n d : ℝ} (hl : |l - q| ≤ 1e-8) (hn : 0 < n) (hd : n * 10 ^ 42 ≤ 10 ^ 42 * d) :
    |n * (a * (l - q)) * 10 ^ 6| ≤ d * |a * 10 ^ 40| / 10 ^ 42 := by
  rw [abs_mul, abs_mul, abs_mul, abs_mul, abs_of_pos hn, abs_of_pos (show (0 : ℝ) < 10 ^ 6 by norm_num),
    abs_of_pos (show (0 : ℝ) < 10 ^ 40 by norm_num)]
  have h1 : |a| * |l - q| ≤ |a| * 1e-8 := mul_le_mul_of_nonneg_left hl (abs_nonneg _)
  have h2 : n ≤ d := by linarith
  have h3 : n * (|a| * |l - q|) ≤ d * (|a| * 1e-8) := mul_le_mul h2 h1 (by positivity) (by linarith)
  rw [le_div_iff₀ (by positivity)]
  norm_num at h3 ⊢
  linarith

theorem sjump_spec (c : Cls) {r r' : List Dec} (h : okRow r = true) (h' : okRow r' = true) {t : Dec}
    (ht : okT t = true) (hs : sjump c r r' (mK t) < 10 ^ 9) :
    |sOf c (coef r) t.val - sOf c (coef r') t.val| ≤ ((sjump c r r' (mK t) : ℕ) : ℝ) / 10 ^ 6 := by
  obtain ⟨v, p⟩ := mK_val ht
  have k := dif_val h h'
  have v' : ((Int.ofNat (mK t) : ℤ) : ℝ) = t.val * 1000 := by rw [← v]; simp
  have hu : 0 < mK t := by
    have : (0 : ℝ) < (mK t : ℕ) := by rw [v]; positivity
    exact_mod_cast this
  rw [le_div_iff₀ (by positivity)]
  cases hL : logAt c (mK t) with
  | none => simp only [sjump, hL] at hs; omega
  | some L =>
    have hl := logAt_spec c _ L hL
    rw [v, mul_div_cancel_right₀ _ (by norm_num : (1000 : ℝ) ≠ 0)] at hl
    cases c with
    | ig =>
      simp only [sjump, hL]
      rw [Nat.cast_add]
      refine le_trans ?_ (add_le_add (le_div_succ _ _ (by positivity)) (le_div_succ _ _ (by positivity)))
      push_cast
      rw [Nat.cast_natAbs, Nat.cast_natAbs]
      push_cast
      rw [polyZ_cast, polyR_homog]
      simp only [List.map_cons, List.map_nil, polyR, List.length_cons, List.length_nil, Int.cast_mul, Int.cast_add, k]
      push_cast
      simp only [v, v', k]
      simp only [arg] at hl
      obtain ⟨x, hx0, hx⟩ : ∃ x, 0 < x ∧ t.val = x * 1000 := ⟨t.val / 1000, by positivity, by ring⟩
      rw [hx] at hl ⊢
      have e : x * 1000 * 1000 / 10 ^ 6 = x := by ring
      have e' : x * 1000 / 1000 = x := by ring
      rw [e'] at hl
      simp only [sOf, Sho.s, coef, e, e']
      set l := Real.log x
      have lp := log_part (a := (cof r 0).val - (cof r' 0).val) (n := 1) (d := 1) hl one_pos (by norm_num)
      rw [one_mul, one_mul] at lp
      rw [show (1000000000000000000000000000000000000000000 : ℝ) = 10 ^ 42 by norm_num]
      conv_rhs => rw [← mul_one |10 ^ _ * _|]
      refine abs_ratio_le one_pos (by positivity) (by positivity) ?_ lp
      field_simp
      ring
    | ig2 =>
      simp only [sjump, hL]
      rw [Nat.cast_add]
      refine le_trans ?_ (add_le_add (le_div_succ _ _ (by positivity)) (le_div_succ _ _ (by positivity)))
      push_cast
      rw [Nat.cast_natAbs, Nat.cast_natAbs]
      push_cast
      rw [polyZ_cast, polyR_homog]
      simp only [List.map_cons, List.map_nil, polyR, List.length_cons, List.length_nil, Int.cast_mul, Int.cast_add, k]
      push_cast
      simp only [v, v', k]
      simp only [arg] at hl
      generalize t.val = x at *
      have e : x * 1000 / 10 ^ 3 = x := by ring
      simp only [sOf, nasa_s_eq, coef, e, Ru_val]
      set l := Real.log x
      have lp := log_part (a := (cof r 0).val - (cof r' 0).val) (n := 8.31446261815324) (d := 9) hl (by norm_num) (by norm_num)
      rw [show (1000000000000000000000000000000000000000000 : ℝ) = 10 ^ 42 by norm_num]
      refine abs_ratio_le (by positivity) (by positivity) (by positivity) ?_ lp
      ring

end PyroMat.Shipped
