import Verif.Float.GasUnits
import Verif.Shipped.Sizes

/-!
# Rounding errors of the formulas of shipped gases
-/

set_option linter.unusedSimpArgs false

namespace PyroMat.Float

open PyroMat PyroMat.Units PyroMat.Units.Spec PyroMat.Units.Props PyroMat.Gas PyroMat.Gas.Spec PyroMat.Gas.Props
open PyroMat.Shipped

variable {ε : ℝ} {A : Arith}

/-- The formulas of a class. -/
noncomputable def forms (c : Cls) (pref : ℝ) : Forms :=
  match c with
  | .ig => igForms
  | .ig2 => ig2Forms pref

theorem forms_cost (c : Cls) (pref : ℝ) (C : Coef) (T : ℝ) :
    ((forms c pref).cp C T).cost ≤ 40 ∧ ((forms c pref).h C T).cost ≤ 40 ∧ ((forms c pref).s C T).cost ≤ 40 ∧
    ((forms c pref).g C T).cost ≤ 40 ∧ (forms c pref).pref.cost ≤ 1 := by
  cases c <;> refine ⟨?_, ?_, ?_, ?_, ?_⟩ <;> exact Nat.le_of_ble_eq_true rfl

theorem forms_logs (c : Cls) (pref : ℝ) (C : Coef) {T : ℝ} (hT : 0 < T) :
    ((forms c pref).cp C T).Logs ∧ ((forms c pref).h C T).Logs ∧ ((forms c pref).s C T).Logs ∧
    ((forms c pref).g C T).Logs := by
  have h : 0 < T / 1000 := by positivity
  cases c
  · refine ⟨?_, ?_, ?_, ?_⟩ <;>
      simp [forms, igForms, ig2Forms, Sho.cp, Sho.h, Sho.s, Sho.g, Sm.Logs, cf, nm, Sho.t, Ex.eval, exact, hT, h]
  · refine ⟨?_, ?_, ?_, ?_⟩ <;>
      simp [forms, igForms, ig2Forms, Nasa.cp, Nasa.h, Nasa.s, Nasa.g, Sm.Logs, cf, nm, Ex.eval, exact, hT, h]

theorem forms_mag (c : Cls) (pref : ℝ) (C : Coef) {T : ℝ} (h1 : 200 ≤ T) (h2 : T ≤ 6000) :
    ((forms c pref).cp C T).mag ≤ absTerms c C T ∧ ((forms c pref).h C T).mag ≤ absH c C + T * absTerms c C T ∧
    ((forms c pref).s C T).mag ≤ absS c C + absTerms c C T ∧
    ((forms c pref).g C T).mag ≤ absH c C + T * (absS c C + absTerms c C T) := by
  have hT : 0 < T := by linarith
  have a0 := abs_nonneg C.c0
  have a1 := abs_nonneg C.c1
  have a2 := abs_nonneg C.c2
  have a3 := abs_nonneg C.c3
  have a4 := abs_nonneg C.c4
  have R0 : 0 < Ru := Shipped.Ru_pos
  cases c with
  | ig =>
    have ht : 0 < T / 1000 := by positivity
    have hl := log_le_nine (x := T / 1000) (by linarith) (by linarith)
    have eT : T = 1000 * (T / 1000) := by ring
    simp only [forms, igForms, Sho.cp, Sho.h, Sho.s, Sho.g, Sm.mag, cf, nm, Sho.t, Ex.eval, exact, absTerms, absH, absS]
    generalize T / 1000 = t at *
    subst eT
    simp only [abs_of_pos ht, abs_mul, abs_two, abs_div, abs_neg, abs_one, abs_of_pos (show (0:ℝ) < 1000 by norm_num),
      abs_of_pos (show (0:ℝ) < 3 by norm_num), abs_of_pos (show (0:ℝ) < 4 by norm_num), abs_of_pos (show (0:ℝ) < 0.5 by norm_num),
      abs_of_pos (show (0:ℝ) < 6 by norm_num), abs_of_pos (show (0:ℝ) < 12 by norm_num)]
    have p1 : 0 ≤ |C.c1| * t := by positivity
    have p2 : 0 ≤ |C.c2| * t ^ 2 := by positivity
    have p3 : 0 ≤ |C.c3| * t ^ 3 := by positivity
    have p4 : 0 ≤ |C.c4| / t ^ 2 := by positivity
    have pl : |C.c0| * (|Real.log t| + 1) ≤ |C.c0| * 10 := mul_le_mul_of_nonneg_left (by linarith) a0
    have e4 : |C.c4| / t = t * (|C.c4| / t ^ 2) := by field_simp
    have e4' : |C.c4| / (t * t) = |C.c4| / t ^ 2 := by rw [sq]
    have e4'' : |C.c4| / (2 * t * t) = |C.c4| / t ^ 2 / 2 := by field_simp
    have e4''' : 0.5 * |C.c4| / t = 0.5 * (t * (|C.c4| / t ^ 2)) := by field_simp
    rw [e4, e4', e4'', e4''']
    generalize |C.c4| / t ^ 2 = x4 at *
    refine ⟨?_, ?_, ?_, ?_⟩
    · apply le_of_eq; ring
    · have : (|C.c5| + t * (|C.c0| + t * (|C.c1| / 2 + t * (|C.c2| / 3 + t * |C.c3| / 4))) + t * x4)
          ≤ |C.c5| + t * (|C.c0| + |C.c1| * t + |C.c2| * t ^ 2 + |C.c3| * t ^ 3 + x4) := by
        have : t * (|C.c0| + t * (|C.c1| / 2 + t * (|C.c2| / 3 + t * |C.c3| / 4)) + x4)
            ≤ t * (|C.c0| + |C.c1| * t + |C.c2| * t ^ 2 + |C.c3| * t ^ 3 + x4) :=
          mul_le_mul_of_nonneg_left (by nlinarith) ht.le
        linarith
      linarith
    · nlinarith
    · have : t * (|C.c0| * (|Real.log t| + 1) + (|C.c0| + |C.c6| + t * (0.5 * |C.c1| + t * (1 / 6 * |C.c2|
          + t * (1 / 12 * |C.c3|)))) + 0.5 * x4)
          ≤ t * (|C.c6| + 11 * |C.c0| + (|C.c0| + |C.c1| * t + |C.c2| * t ^ 2 + |C.c3| * t ^ 3 + x4)) :=
        mul_le_mul_of_nonneg_left (by nlinarith) ht.le
      nlinarith
  | ig2 =>
    have hl := log_le_nine (x := T) (by linarith) (by linarith)
    simp only [forms, ig2Forms, Nasa.cp, Nasa.h, Nasa.s, Nasa.g, List.foldl, Coef.at, Sm.mag, cf, nm, Ex.eval, exact_Ru, absTerms, absH, absS]
    simp only [exact]
    simp only [abs_of_pos hT, abs_of_pos R0, abs_mul, abs_two, abs_div, abs_neg, abs_one, abs_zero, Nat.abs_cast,
      abs_of_pos (show (0:ℝ) < 0.05 by norm_num), abs_of_pos (show (0:ℝ) < 0.5 by norm_num),
      abs_of_pos (show (0:ℝ) < 6 by norm_num), abs_of_pos (show (0:ℝ) < 12 by norm_num)]
    push_cast
    have p1 : 0 ≤ |C.c1| * T := by positivity
    have p2 : 0 ≤ |C.c2| * T ^ 2 := by positivity
    have p3 : 0 ≤ |C.c3| * T ^ 3 := by positivity
    have p4 : 0 ≤ |C.c4| * T ^ 4 := by positivity
    have pl : |C.c0| * (|Real.log T| + 1) ≤ |C.c0| * 10 := mul_le_mul_of_nonneg_left (by linarith) a0
    refine ⟨?_, ?_, ?_, ?_⟩
    · apply le_of_eq; ring
    · rw [show ∀ x y : ℝ, Ru * x + T * (Ru * y) = Ru * (x + T * y) by intros; ring]
      refine mul_le_mul_of_nonneg_left ?_ R0.le
      have : T * (|C.c0| + |C.c1| * T / 2 + |C.c2| * T ^ 2 / 3 + |C.c3| * T ^ 3 / 4 + |C.c4| * T ^ 4 / 5)
          ≤ T * (|C.c0| + |C.c1| * T + |C.c2| * T ^ 2 + |C.c3| * T ^ 3 + |C.c4| * T ^ 4) :=
        mul_le_mul_of_nonneg_left (by linarith) hT.le
      refine le_trans (le_of_eq ?_) (add_le_add_right this |C.c5|)
      ring
    · rw [← mul_add, mul_comm]
      refine mul_le_mul_of_nonneg_left ?_ R0.le
      have : |C.c1| * T + |C.c2| * T ^ 2 / 2 + |C.c3| * T ^ 3 / 3 + |C.c4| * T ^ 4 / 4 + |C.c6| + |C.c0| * (|Real.log T| + 1)
          ≤ |C.c6| + 11 * |C.c0| + (|C.c0| + |C.c1| * T + |C.c2| * T ^ 2 + |C.c3| * T ^ 3 + |C.c4| * T ^ 4) := by linarith
      refine le_trans (le_of_eq ?_) this
      ring
    · rw [show ∀ x y z : ℝ, Ru * x + T * (Ru * y + Ru * z) = Ru * (x + T * (y + z)) by intros; ring]
      refine mul_le_mul_of_nonneg_left ?_ R0.le
      have : T * (|C.c0| * (|Real.log T| + 1) + (|C.c0| + |C.c6|) + |C.c1| * T / 2 + |C.c2| * T ^ 2 / 6 + |C.c3| * T ^ 3 / 12
          + 0.05 * (|C.c4| * T ^ 4))
          ≤ T * (|C.c6| + 11 * |C.c0| + (|C.c0| + |C.c1| * T + |C.c2| * T ^ 2 + |C.c3| * T ^ 3 + |C.c4| * T ^ 4)) :=
        mul_le_mul_of_nonneg_left (by linarith) hT.le
      refine le_trans (le_of_eq ?_) (add_le_add_right this |C.c5|)
      ring

end PyroMat.Float
