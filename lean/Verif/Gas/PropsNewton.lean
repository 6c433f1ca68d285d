import Mathlib.Tactic.NormNum
import Verif.Gas.PropsInverse

/-!
# When the scalar inversion `_iter1` settles

Not part of the model: general facts about the loop of `_iter1`, used for C107.
-/

set_option linter.unusedSimpArgs false

namespace PyroMat.Gas.Props

open PyroMat PyroMat.Gas

/-- The Newton step of `f` towards the value `y` ends near `r`, from anywhere in `[lo, hi]`: closer by the
factor `ρ`, and from within `D` of `r` at a distance of at most `κ` times the square. -/
structure Draws (f : ℝ → Option (ℝ × ℝ)) (lo hi r y ρ κ D c C : ℝ) : Prop where
  left : lo + D ≤ r
  right : r + D ≤ hi
  step : ∀ x, lo ≤ x → x ≤ hi → ∃ v d, f x = some (v, d) ∧ d ≠ 0 ∧
    |x + (y - v) / d - r| ≤ ρ * |x - r| ∧ c * |x - r| ≤ |y - v| ∧
    (|x - r| < D → |x + (y - v) / d - r| ≤ κ * |x - r| ^ 2 ∧ |y - v| ≤ C * |x - r|)

/-- One pull-back is enough. -/
theorem halve_once {lo hi r x dx ρ : ℝ} (hr1 : lo ≤ r) (hr2 : r ≤ hi) (hx1 : lo ≤ x) (hx2 : x ≤ hi)
    (hρ1 : 1 / 2 ≤ ρ) (hρ2 : ρ < 1) (h : |x + dx - r| ≤ ρ * |x - r|) (k : Nat) :
    ∃ x', halve lo hi (k + 1) (x + dx) dx = .ok x' ∧ lo ≤ x' ∧ x' ≤ hi ∧ |x' - r| ≤ ρ * |x - r| ∧
      (lo ≤ x + dx → x + dx ≤ hi → x' = x + dx) := by
  by_cases hout : x + dx < lo ∨ x + dx > hi
  · have hh : halve lo hi (k + 1) (x + dx) dx = halve lo hi k (x + dx - dx / 2) (dx / 2) := by
      conv_lhs => unfold halve
      rw [if_pos hout]
    have hin : lo ≤ x + dx - dx / 2 ∧ x + dx - dx / 2 ≤ hi ∧ |x + dx - dx / 2 - r| ≤ ρ * |x - r| := by
      rcases le_total 0 (x - r) with hs | hs
      · rw [abs_of_nonneg hs] at h ⊢
        rw [abs_le] at h ⊢
        obtain ⟨h1, h2⟩ := h
        have : ρ * (x - r) ≤ x - r := by nlinarith
        have : 1 / 2 * (x - r) ≤ ρ * (x - r) := mul_le_mul_of_nonneg_right hρ1 hs
        rcases hout with ho | ho
        · refine ⟨by linarith, by linarith, by linarith, by linarith⟩
        · exfalso; linarith
      · rw [abs_of_nonpos hs] at h ⊢
        rw [abs_le] at h ⊢
        obtain ⟨h1, h2⟩ := h
        have : ρ * -(x - r) ≤ -(x - r) := by nlinarith
        have : 1 / 2 * -(x - r) ≤ ρ * -(x - r) := mul_le_mul_of_nonneg_right hρ1 (by linarith)
        rcases hout with ho | ho
        · exfalso; linarith
        · refine ⟨by linarith, by linarith, by linarith, by linarith⟩
    refine ⟨x + dx - dx / 2, ?_, hin.1, hin.2.1, hin.2.2, ?_⟩
    · rw [hh]
      unfold halve
      rw [if_neg (by push Not; exact ⟨hin.1, hin.2.1⟩)]
    · intro a b
      rcases hout with ho | ho
      · exact absurd a (not_le.mpr ho)
      · exact absurd b (not_le.mpr ho)
  · refine ⟨x + dx, ?_, ?_, ?_, h, fun _ _ => rfl⟩
    · unfold halve; rw [if_neg hout]
    · push Not at hout; exact hout.1
    · push Not at hout; exact hout.2

open Classical in
/-- One pass over an element. -/
theorem Draws.pass {f : ℝ → Option (ℝ × ℝ)} {lo hi r y ρ κ D c C : ℝ} (H : Draws f lo hi r y ρ κ D c C)
    (hD : 0 ≤ D) (hρ1 : 1 / 2 ≤ ρ) (hρ2 : ρ < 1) (ep : ℝ) (k : Nat) (x : ℝ) (hx1 : lo ≤ x) (hx2 : x ≤ hi) :
    ∃ x' act, stepEl ep lo hi (k + 1) ⟨f, y, some x, true⟩ = .ok ⟨f, y, some x', act⟩ ∧ lo ≤ x' ∧ x' ≤ hi ∧
      |x' - r| ≤ ρ * |x - r| ∧ (|x - r| < D → |x' - r| ≤ κ * |x - r| ^ 2) ∧
      (act = false → c * |x - r| ≤ |ep * y|) ∧ (|x - r| < D → C * |x - r| ≤ |ep * y| → act = false) := by
  obtain ⟨v, d, hf, hd, h1, h2, h3⟩ := H.step x hx1 hx2
  obtain ⟨x', hx', g1, g2, g3, g4⟩ := halve_once (by linarith [H.left]) (by linarith [H.right]) hx1 hx2 hρ1 hρ2 h1 k
  refine ⟨x', decide (|y - v| > |ep * y|), ?_, g1, g2, g3, ?_, ?_, ?_⟩
  · unfold stepEl
    simp only [hf, if_true, if_neg hd, hx', exOk]
  · intro hlt
    have hb : |x + (y - v) / d - r| ≤ D := by
      have := mul_le_of_le_one_left (abs_nonneg (x - r)) hρ2.le
      linarith
    rw [abs_le] at hb
    rw [g4 (by linarith [H.left]) (by linarith [H.right])]
    exact (h3 hlt).1
  · intro ha
    simp only [decide_eq_false_iff_not, not_lt, gt_iff_lt] at ha
    linarith
  · intro hlt hC
    simp only [decide_eq_false_iff_not, not_lt, gt_iff_lt]
    linarith [(h3 hlt).2]

/-- The bounds on the distance from the solution, pass by pass. -/
noncomputable def distance (ρ q : ℝ) (k : Nat) : ℝ :=
  if k < 13 then 2900 * ρ ^ k else 45 * q ^ (2 ^ (k - 13) - 1)

theorem distance_tail {ρ q : ℝ} (j : Nat) : distance ρ q (13 + j) = 45 * q ^ (2 ^ j - 1) := by
  unfold distance
  rw [if_neg (by omega)]
  congr 3
  simp

/-- From a distance of at most 2900, with a factor of 0.725 or better, and squaring below 50, the loop of `_iter1`
ends without a warning. -/
theorem Draws.settles {f : ℝ → Option (ℝ × ℝ)} {lo hi r y κ c C : ℝ} (H : Draws f lo hi r y 0.725 κ 50 c C)
    (hκ0 : 0 ≤ κ) (hκ : κ * 45 ≤ 0.53) (hC0 : 0 ≤ C) (hC : C ≤ 10000) (hc : 0 < c) (hy : 0.001 ≤ |y|) (x : ℝ) (hx1 : lo ≤ x)
    (hx2 : x ≤ hi) (hx : |x - r| ≤ 2900) :
    ∃ t, iter1 [(f, y)] x lo hi = .ok ([some t], false) ∧ lo ≤ t ∧ t ≤ hi ∧ c * |t - r| ≤ 0.725 * (1e-6 * |y|) := by
  have hey : |(1e-6 : ℝ) * y| = 1e-6 * |y| := by rw [abs_mul, abs_of_pos (by norm_num)]
  have hq0 : 0 ≤ κ * 45 := by positivity
  -- distances stay below the bounds
  have next : ∀ k (x x' : ℝ), |x - r| ≤ distance 0.725 (κ * 45) k → |x' - r| ≤ 0.725 * |x - r| →
      (|x - r| < 50 → |x' - r| ≤ κ * |x - r| ^ 2) → |x' - r| ≤ distance 0.725 (κ * 45) (k + 1) := by
    intro k x x' h1 h2 h3
    by_cases hk : k < 12
    · unfold distance at h1 ⊢
      rw [if_pos (by omega)] at h1
      rw [if_pos (by omega), pow_succ]
      nlinarith
    · by_cases hk' : k = 12
      · subst hk'
        unfold distance at h1 ⊢
        rw [if_pos (by omega)] at h1
        rw [if_neg (by omega)]
        norm_num at h1 h2 ⊢
        linarith
      · obtain ⟨j, rfl⟩ : ∃ j, k = 13 + j := ⟨k - 13, by omega⟩
        rw [distance_tail] at h1
        rw [show 13 + j + 1 = 13 + (j + 1) by ring, distance_tail]
        have hq1 : (κ * 45) ^ (2 ^ j - 1) ≤ 1 := pow_le_one₀ hq0 (by linarith)
        have hlt : |x - r| < 50 := by linarith
        refine (h3 hlt).trans ?_
        have hsq : |x - r| ^ 2 ≤ (45 * (κ * 45) ^ (2 ^ j - 1)) ^ 2 := by
          gcongr
        have e : 2 ^ (j + 1) - 1 = 2 * (2 ^ j - 1) + 1 := by
          have : 1 ≤ 2 ^ j := Nat.one_le_two_pow
          rw [pow_succ]; omega
        have e' : (κ * 45) ^ (2 * (2 ^ j - 1) + 1) = ((κ * 45) ^ (2 ^ j - 1)) ^ 2 * (κ * 45) := by
          rw [pow_succ, mul_comm 2, pow_mul]
        rw [e, e']
        calc κ * |x - r| ^ 2 ≤ κ * (45 * (κ * 45) ^ (2 ^ j - 1)) ^ 2 := by gcongr
          _ = _ := by ring
  have last : distance 0.725 (κ * 45) 19 < 50 ∧ C * distance 0.725 (κ * 45) 19 ≤ 1e-6 * |y| := by
    rw [show 19 = 13 + 6 by norm_num, distance_tail]
    have : (κ * 45) ^ (2 ^ 6 - 1) ≤ 1e-17 := by
      refine (pow_le_pow_left₀ hq0 hκ _).trans ?_
      norm_num
    have hp : 0 ≤ (κ * 45) ^ (2 ^ 6 - 1) := pow_nonneg hq0 _
    generalize (κ * 45) ^ (2 ^ 6 - 1) = z at this hp ⊢
    constructor
    · norm_num at this
      linarith
    · calc C * (45 * z) ≤ 10000 * (45 * 1e-17) := by gcongr
        _ ≤ _ := by norm_num at hy ⊢; linarith
  have main : ∀ n k (x : ℝ), n + k = 20 → 1 ≤ n → lo ≤ x → x ≤ hi → |x - r| ≤ distance 0.725 (κ * 45) k →
      ∃ t, single 1e-6 lo hi 20 n ⟨f, y, some x, true⟩ = .ok (⟨f, y, some t, false⟩, false) ∧ lo ≤ t ∧ t ≤ hi ∧
        c * |t - r| ≤ 0.725 * (1e-6 * |y|) := by
    intro n
    induction n with
    | zero => intro k x _ h; omega
    | succ n ih =>
      intro k x hnk _ g1 g2 hb
      obtain ⟨x', act, hs, i1, i2, i3, i4, i5, i6⟩ :=
        H.pass (by norm_num) (by norm_num) (by norm_num) 1e-6 19 x g1 g2
      rw [single_succ, hs, exOk]
      cases act with
      | false =>
        refine ⟨x', single_inact rfl, i1, i2, ?_⟩
        have := i5 rfl
        rw [hey] at this
        nlinarith
      | true =>
        have hb' := next k x x' hb i3 i4
        by_cases hn : n = 0
        · exfalso
          subst hn
          obtain rfl : k = 19 := by omega
          have := i6 (by linarith [last.1]) (by
            rw [hey]
            exact (mul_le_mul_of_nonneg_left hb hC0).trans last.2)
          cases this
        · exact ih (k + 1) x' (by omega) (by omega) i1 i2 hb'
  obtain ⟨t, ht, t1, t2, t3⟩ := main 20 0 x rfl (by norm_num) hx1 hx2 (by unfold distance; simpa using hx)
  refine ⟨t, ?_, t1, t2, t3⟩
  unfold iter1
  rw [iterLoop_eq]
  simp [ht, exOk, Except.map, pure, Except.pure]

end PyroMat.Gas.Props
