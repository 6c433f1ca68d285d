import Verif.Shipped.Entropy

/-!
# Growth of the entropy of a checked file
-/

set_option linter.unusedSimpArgs false

namespace PyroMat.Shipped

open PyroMat PyroMat.Gas PyroMat.Gas.Props PyroMat.Gas.Spec

theorem size40_val {r : List Dec} (h : okRow r = true) (k : Nat) :
    ((size40 r k : ℕ) : ℝ) = |(cof r k).val| * 10 ^ 40 := by
  unfold size40
  rw [Nat.cast_natAbs, Int.cast_abs, sc_val (cof_ok h k), abs_mul, abs_of_pos (by positivity : (0:ℝ) < 10 ^ 40)]

theorem log_le_nine {x : ℝ} (h1 : 1 / 5 ≤ x) (h2 : x ≤ 6000) : |Real.log x| ≤ 9 := by
  have hx : 0 < x := by linarith
  have l2 := Real.log_two_gt_d9
  have u2 := Real.log_two_lt_d9
  rw [abs_le]
  constructor
  · have : Real.log (1 / 2 ^ 3) ≤ Real.log x := Real.log_le_log (by norm_num) (by linarith)
    rw [Real.log_div (by norm_num) (by norm_num), Real.log_one, Real.log_pow] at this
    norm_num at this
    linarith
  · have e : Real.log 6000 ≤ 9 := by
      have : Real.log 6000 ≤ Real.log (2 ^ 12 * (3 / 2)) := Real.log_le_log (by norm_num) (by norm_num)
      rw [Real.log_mul (by norm_num) (by norm_num), Real.log_pow] at this
      have h3 := Real.log_le_sub_one_of_pos (show (0 : ℝ) < 3 / 2 by norm_num)
      norm_num at this h3
      linarith
    exact (Real.log_le_log hx h2).trans e

theorem term_le {a x y : ℝ} {n : Nat} (h0 : 0 ≤ x) (h : x ≤ y) : |a * x ^ n| ≤ |a| * y ^ n := by
  rw [abs_mul, abs_of_nonneg (pow_nonneg h0 n)]
  exact mul_le_mul_of_nonneg_left (pow_le_pow_left₀ h0 h n) (abs_nonneg _)

theorem small_spec (c : Cls) {r : List Dec} (hr : okRow r = true) {t0 t1 : Dec} (k0 : okT t0 = true) (k1 : okT t1 = true)
    (h : small c r (mK t0) (mK t1) = true) (T : ℝ) (h1 : t0.val ≤ T) (h2 : T ≤ t1.val) :
    200 ≤ T ∧ T ≤ 6000 ∧ |sOf c (coef r) T| ≤ 13000 := by
  obtain ⟨v0, p0⟩ := mK_val k0
  obtain ⟨v1, p1⟩ := mK_val k1
  simp only [small, Bool.and_eq_true] at h
  obtain ⟨⟨g1, g2⟩, g3⟩ := h
  have g1 : ((200000 : ℕ) : ℝ) ≤ (mK t0 : ℕ) := by exact_mod_cast Nat.le_of_ble_eq_true g1
  have g2 : ((mK t1 : ℕ) : ℝ) ≤ (6000000 : ℕ) := by exact_mod_cast Nat.le_of_ble_eq_true g2
  rw [v0] at g1
  rw [v1] at g2
  push_cast at g1 g2
  have b1 : 200 ≤ T := by linarith
  have b2 : T ≤ 6000 := by linarith
  have hT : 0 < T := by linarith
  refine ⟨b1, b2, ?_⟩
  have z := size40_val hr
  cases c with
  | ig =>
    simp only at g3
    have g3 := Nat.le_of_ble_eq_true g3
    have d1 := le_div_succ (size40 r 1 * mK t1) (10 ^ 6) (by positivity)
    have d2 := le_div_succ (size40 r 2 * mK t1 ^ 2) (2 * 10 ^ 12) (by positivity)
    have d3 := le_div_succ (size40 r 3 * mK t1 ^ 3) (3 * 10 ^ 18) (by positivity)
    have hu0 : 0 < mK t0 := by
      have : (0 : ℝ) < (mK t0 : ℕ) := by rw [v0]; positivity
      exact_mod_cast this
    have d4 := le_div_succ (size40 r 4 * 10 ^ 12) (2 * mK t0 ^ 2) (by positivity)
    have g3 : ((_ : ℕ) : ℝ) ≤ ((_ : ℕ) : ℝ) := Nat.cast_le.mpr g3
    rw [Nat.cast_add, Nat.cast_add, Nat.cast_add, Nat.cast_add, Nat.cast_add] at g3
    simp only [Nat.cast_mul, Nat.cast_pow, z, v1, v0] at d1 d2 d3 d4
    rw [Nat.cast_mul, Nat.cast_mul, z, z] at g3
    have key : |(cof r 6).val| * 10 ^ 40 + 9 * (|(cof r 0).val| * 10 ^ 40)
        + |(cof r 1).val| * 10 ^ 40 * (t1.val * 1000) / 10 ^ 6 + |(cof r 2).val| * 10 ^ 40 * (t1.val * 1000) ^ 2 / (2 * 10 ^ 12)
        + |(cof r 3).val| * 10 ^ 40 * (t1.val * 1000) ^ 3 / (3 * 10 ^ 18)
        + |(cof r 4).val| * 10 ^ 40 * 10 ^ 12 / (2 * (t0.val * 1000) ^ 2) ≤ 13000 * 10 ^ 40 := by
      push_cast at d1 d2 d3 d4 g3 ⊢
      linarith
    set x := T / 1000 with hx
    have hl := log_le_nine (x := x) (by rw [hx]; linarith) (by rw [hx]; linarith)
    have x0 : 0 < x := by rw [hx]; positivity
    have q1 := term_le (a := (cof r 1).val) (n := 1) x0.le (show x ≤ t1.val / 1000 by rw [hx]; linarith)
    have q2 := term_le (a := (cof r 2).val / 2) (n := 2) x0.le (show x ≤ t1.val / 1000 by rw [hx]; linarith)
    have q3 := term_le (a := (cof r 3).val / 3) (n := 3) x0.le (show x ≤ t1.val / 1000 by rw [hx]; linarith)
    have q4 := term_le (a := (cof r 4).val / 2) (n := 2) (inv_nonneg.mpr x0.le)
      (show x⁻¹ ≤ (t0.val / 1000)⁻¹ from inv_anti₀ (by positivity) (by rw [hx]; linarith))
    have q0 : |(cof r 0).val * Real.log x| ≤ 9 * |(cof r 0).val| := by
      rw [abs_mul, mul_comm]; exact mul_le_mul_of_nonneg_right hl (abs_nonneg _)
    have e : sOf .ig (coef r) T = (cof r 6).val + (cof r 0).val * Real.log x + (cof r 1).val * x ^ 1
        + (cof r 2).val / 2 * x ^ 2 + (cof r 3).val / 3 * x ^ 3 - (cof r 4).val / 2 * x⁻¹ ^ 2 := by
      simp only [sOf, Sho.s, coef, ← hx]
      field_simp
      ring
    rw [e]
    simp only [abs_div, abs_two, abs_of_pos (show (0 : ℝ) < 3 by norm_num)] at q2 q3 q4
    have tri : |(cof r 6).val + (cof r 0).val * Real.log x + (cof r 1).val * x ^ 1
        + (cof r 2).val / 2 * x ^ 2 + (cof r 3).val / 3 * x ^ 3 - (cof r 4).val / 2 * x⁻¹ ^ 2|
        ≤ |(cof r 6).val| + |(cof r 0).val * Real.log x| + |(cof r 1).val * x ^ 1|
        + |(cof r 2).val / 2 * x ^ 2| + |(cof r 3).val / 3 * x ^ 3| + |(cof r 4).val / 2 * x⁻¹ ^ 2| := by
      refine (abs_sub _ _).trans (add_le_add ?_ le_rfl)
      refine (abs_add_le _ _).trans (add_le_add ?_ le_rfl)
      refine (abs_add_le _ _).trans (add_le_add ?_ le_rfl)
      refine (abs_add_le _ _).trans (add_le_add ?_ le_rfl)
      exact abs_add_le _ _
    refine tri.trans ?_
    have k2 : |(cof r 6).val| + 9 * |(cof r 0).val| + |(cof r 1).val| * (t1.val / 1000) ^ 1
        + |(cof r 2).val| / 2 * (t1.val / 1000) ^ 2 + |(cof r 3).val| / 3 * (t1.val / 1000) ^ 3
        + |(cof r 4).val| / 2 * (t0.val / 1000)⁻¹ ^ 2 ≤ 13000 := by
      refine le_of_mul_le_mul_right (le_trans (le_of_eq ?_) key) (show (0 : ℝ) < 10 ^ 40 by positivity)
      field_simp
      ring
    linarith
  | ig2 =>
    simp only at g3
    have g3 := Nat.le_of_ble_eq_true g3
    have d1 := le_div_succ (size40 r 1 * mK t1) (10 ^ 3) (by positivity)
    have d2 := le_div_succ (size40 r 2 * mK t1 ^ 2) (2 * 10 ^ 6) (by positivity)
    have d3 := le_div_succ (size40 r 3 * mK t1 ^ 3) (3 * 10 ^ 9) (by positivity)
    have d4 := le_div_succ (size40 r 4 * mK t1 ^ 4) (4 * 10 ^ 12) (by positivity)
    have g3 : ((_ : ℕ) : ℝ) ≤ ((_ : ℕ) : ℝ) := Nat.cast_le.mpr g3
    rw [Nat.cast_mul, Nat.cast_add, Nat.cast_add, Nat.cast_add, Nat.cast_add, Nat.cast_add] at g3
    simp only [Nat.cast_mul, Nat.cast_pow, z, v1, v0] at d1 d2 d3 d4
    rw [Nat.cast_mul, Nat.cast_mul, z, z] at g3
    have key : 9 * (|(cof r 6).val| * 10 ^ 40 + 9 * (|(cof r 0).val| * 10 ^ 40)
        + |(cof r 1).val| * 10 ^ 40 * (t1.val * 1000) / 10 ^ 3 + |(cof r 2).val| * 10 ^ 40 * (t1.val * 1000) ^ 2 / (2 * 10 ^ 6)
        + |(cof r 3).val| * 10 ^ 40 * (t1.val * 1000) ^ 3 / (3 * 10 ^ 9)
        + |(cof r 4).val| * 10 ^ 40 * (t1.val * 1000) ^ 4 / (4 * 10 ^ 12)) ≤ 13000 * 10 ^ 40 := by
      push_cast at d1 d2 d3 d4 g3 ⊢
      linarith
    have hl := log_le_nine (x := T) (by linarith) b2
    have q1 := term_le (a := (cof r 1).val) (n := 1) hT.le h2
    have q2 := term_le (a := (cof r 2).val / 2) (n := 2) hT.le h2
    have q3 := term_le (a := (cof r 3).val / 3) (n := 3) hT.le h2
    have q4 := term_le (a := (cof r 4).val / 4) (n := 4) hT.le h2
    have q0 : |(cof r 0).val * Real.log T| ≤ 9 * |(cof r 0).val| := by
      rw [abs_mul, mul_comm]; exact mul_le_mul_of_nonneg_right hl (abs_nonneg _)
    have e : sOf .ig2 (coef r) T = Ru * ((cof r 6).val + (cof r 0).val * Real.log T + (cof r 1).val * T ^ 1
        + (cof r 2).val / 2 * T ^ 2 + (cof r 3).val / 3 * T ^ 3 + (cof r 4).val / 4 * T ^ 4) := by
      simp only [sOf, nasa_s_eq, coef, pow_one]
    rw [e, abs_mul, abs_of_pos Ru_pos]
    simp only [abs_div, abs_two, abs_of_pos (show (0 : ℝ) < 3 by norm_num), abs_of_pos (show (0 : ℝ) < 4 by norm_num)]
      at q2 q3 q4
    have tri : |(cof r 6).val + (cof r 0).val * Real.log T + (cof r 1).val * T ^ 1
        + (cof r 2).val / 2 * T ^ 2 + (cof r 3).val / 3 * T ^ 3 + (cof r 4).val / 4 * T ^ 4|
        ≤ |(cof r 6).val| + |(cof r 0).val * Real.log T| + |(cof r 1).val * T ^ 1|
        + |(cof r 2).val / 2 * T ^ 2| + |(cof r 3).val / 3 * T ^ 3| + |(cof r 4).val / 4 * T ^ 4| := by
      refine (abs_add_le _ _).trans (add_le_add ?_ le_rfl)
      refine (abs_add_le _ _).trans (add_le_add ?_ le_rfl)
      refine (abs_add_le _ _).trans (add_le_add ?_ le_rfl)
      refine (abs_add_le _ _).trans (add_le_add ?_ le_rfl)
      exact abs_add_le _ _
    have k2 : 9 * (|(cof r 6).val| + 9 * |(cof r 0).val| + |(cof r 1).val| * t1.val ^ 1
        + |(cof r 2).val| / 2 * t1.val ^ 2 + |(cof r 3).val| / 3 * t1.val ^ 3
        + |(cof r 4).val| / 4 * t1.val ^ 4) ≤ 13000 := by
      refine le_of_mul_le_mul_right (le_trans (le_of_eq ?_) key) (show (0 : ℝ) < 10 ^ 40 by positivity)
      ring
    refine le_trans (mul_le_mul (show Ru ≤ 9 by rw [Ru_val]; norm_num) tri (abs_nonneg _) (by norm_num)) ?_
    linarith

theorem piece_growth_s (c : Cls) (C : Coef) (lo hi m M : ℝ) (h0 : 0 < lo)
    (hb : ∀ T, lo ≤ T → T ≤ hi → m ≤ cpOf c C T ∧ cpOf c C T ≤ M) (x y : ℝ) (h1 : lo ≤ x)
    (h2 : x ≤ y) (h3 : y ≤ hi) :
    m * (Real.log y - Real.log x) ≤ sOf c C y - sOf c C x ∧
      sOf c C y - sOf c C x ≤ M * (Real.log y - Real.log x) := by
  have hd : ∀ (a k : ℝ), ∀ T ∈ Set.Icc lo hi,
      HasDerivAt (fun T => a * sOf c C T - k * Real.log T) ((a * cpOf c C T - k) / T) T := by
    intro a k T hT
    have p := h0.trans_le hT.1
    refine (((s_deriv c C p).const_mul a).sub ((Real.hasDerivAt_log p.ne').const_mul k)).congr_deriv ?_
    field_simp
  have hi' : ∀ T ∈ interior (Set.Icc lo hi), T ∈ Set.Icc lo hi := fun T hT => interior_subset hT
  have mono : ∀ (a k : ℝ), (∀ T ∈ Set.Icc lo hi, 0 ≤ a * cpOf c C T - k) →
      a * sOf c C x - k * Real.log x ≤ a * sOf c C y - k * Real.log y := by
    intro a k hk
    refine monotoneOn_of_deriv_nonneg (f := fun T => a * sOf c C T - k * Real.log T) (convex_Icc lo hi)
      (fun T hT => (hd a k T hT).continuousAt.continuousWithinAt)
      (fun T hT => (hd a k T (hi' T hT)).differentiableAt.differentiableWithinAt) ?_
      ⟨h1, h2.trans h3⟩ ⟨h1.trans h2, h3⟩ h2
    intro T hT
    rw [(hd a k T (hi' T hT)).deriv]
    exact div_nonneg (hk T (hi' T hT)) (h0.trans_le (hi' T hT).1).le
  have A := mono 1 m (fun T hT => by linarith [(hb T hT.1 hT.2).1])
  have B := mono (-1) (-M) (fun T hT => by linarith [(hb T hT.1 hT.2).2])
  constructor <;> linarith

theorem sjumps_tail (c : Cls) (t0 : Dec) (ts : List Dec) (r0 : List Dec) (rs : List (List Dec)) :
    sjumps c ts rs ≤ sjumps c (t0 :: ts) (r0 :: rs) := by
  cases ts with
  | nil => simp [sjumps]
  | cons t1 ts =>
    cases rs with
    | nil => simp [sjumps]
    | cons r1 rs => simp only [sjumps]; omega

/-- Growth of the entropy from a temperature in one piece to a higher one in the same or a later
piece. -/
theorem chain_s (c : Cls) (a b : Nat) (ts : List Dec) (rs : List (List Dec))
    (h : walk c a b ts rs = true) (hj : sjumps c ts rs < 10 ^ 9) (i j : Nat) (hij : i ≤ j) (s0 s1 u0 u1 : Dec)
    (r q : List Dec)
    (e1 : ts[i]? = some s0) (e2 : ts[i + 1]? = some s1) (e3 : rs[i]? = some r)
    (e4 : ts[j]? = some u0) (e5 : ts[j + 1]? = some u1) (e6 : rs[j]? = some q) (x y : ℝ)
    (h1 : s0.val ≤ x) (h2 : x ≤ s1.val) (h3 : u0.val ≤ y) (h4 : y ≤ u1.val) (hxy : x ≤ y) :
    (a : ℝ) / 100 * Ru * (Real.log y - Real.log x) - (sjumps c ts rs : ℕ) / 10 ^ 6
        ≤ sOf c (coef q) y - sOf c (coef r) x ∧
      sOf c (coef q) y - sOf c (coef r) x
        ≤ (b : ℝ) / 100 * Ru * (Real.log y - Real.log x) + (sjumps c ts rs : ℕ) / 10 ^ 6 := by
  induction rs generalizing ts i j s0 s1 r x with
  | nil => simp at e3
  | cons r0 rs ih =>
    have hok := walk_ok c a b ts (r0 :: rs) h
    have hp := walk_piece c a b ts (r0 :: rs) h
    match ts, h, hj, e1, e2, e4, e5, hok, hp with
    | [t], h, _, _, _, _, _, _, _ => simp [walk] at h
    | [], h, _, _, _, _, _, _, _ => simp [walk] at h
    | t0 :: t1 :: ts, h, hj, e1, e2, e4, e5, hok, hp =>
      have hw : walk c a b (t1 :: ts) rs = true := by
        simp only [walk, Bool.and_eq_true] at h
        exact h.2
      have tail := sjumps_tail c t0 (t1 :: ts) r0 rs
      have tail' : ((sjumps c (t1 :: ts) rs : ℕ) : ℝ) / 10 ^ 6 ≤ (sjumps c (t0 :: t1 :: ts) (r0 :: rs) : ℕ) / 10 ^ 6 :=
        div_le_div_of_nonneg_right (by exact_mod_cast tail) (by positivity)
      cases i with
      | succ i =>
        obtain ⟨j, rfl⟩ : ∃ k, j = k + 1 := ⟨j - 1, by omega⟩
        have := ih (t1 :: ts) hw (by omega) i j (by omega) s0 s1 r (by simpa using e1) (by simpa using e2)
          (by simpa using e3) (by simpa using e4) (by simpa using e5) (by simpa using e6) x h1 h2 hxy
        constructor <;> linarith [this.1, this.2]
      | zero =>
        have g1 : t0 = s0 := by simpa using e1
        have g2 : t1 = s1 := by simpa using e2
        have g3 : r0 = r := by simpa using e3
        subst g1 g2 g3
        obtain ⟨o1, o2, o3⟩ := hp 0 t0 t1 r0 (by simp) (by simp) (by simp)
        have p0 := (mK_val (hok t0 (by simp))).2
        have J0 : (0 : ℝ) ≤ (sjumps c (t0 :: t1 :: ts) (r0 :: rs) : ℕ) / 10 ^ 6 := by positivity
        have pg := fun z (hz : x ≤ z) (hz' : z ≤ t1.val) =>
          piece_growth_s c (coef r0) t0.val t1.val _ _ p0 o3 x z h1 hz hz'
        cases j with
        | zero =>
          have g4 : t1 = u1 := by simpa using e5
          have g6 : r0 = q := by simpa using e6
          subst g4 g6
          have := pg y hxy h4
          constructor <;> linarith [this.1, this.2]
        | succ j =>
          cases rs with
          | nil => simp at e6
          | cons r1 rs =>
            cases ts with
            | nil => simp [walk] at hw
            | cons t2 ts =>
              have hp' := walk_piece c a b (t1 :: t2 :: ts) (r1 :: rs) hw
              obtain ⟨o4, o5, -⟩ := hp' 0 t1 t2 r1 (by simp) (by simp) (by simp)
              have hy : t1.val ≤ y := by
                have mono : ∀ (k : Nat) (d : Dec), (t1 :: t2 :: ts)[k]? = some d → t1.val ≤ d.val := by
                  intro k
                  induction k with
                  | zero => intro d hd; simp at hd; rw [hd]
                  | succ k ihk =>
                    intro d hd
                    have hlen := walk_length c a b _ _ hw
                    have hk : k + 1 < (t1 :: t2 :: ts).length := by
                      by_contra hc
                      rw [List.getElem?_eq_none (by omega)] at hd
                      cases hd
                    have hkr : k < (r1 :: rs).length := by omega
                    have m1 := hp' k _ d _ (List.getElem?_eq_getElem (by omega)) hd
                      (List.getElem?_eq_getElem hkr)
                    exact (ihk _ (List.getElem?_eq_getElem (by omega))).trans m1.2.1.le
                exact (mono j u0 (by simpa using e4)).trans h3
              have J1 : sjumps c (t0 :: t1 :: t2 :: ts) (r0 :: r1 :: rs)
                  = sjump c r0 r1 (mK t1) + sjumps c (t1 :: t2 :: ts) (r1 :: rs) := by
                simp only [sjumps]
              have A := pg t1.val h2 le_rfl
              have B := sjump_spec c o1 o4 (hok t1 (by simp)) (by omega)
              have D := ih (t1 :: t2 :: ts) hw (by omega) 0 j (by omega) t1 t2 r1 (by simp) (by simp) (by simp)
                (by simpa using e4) (by simpa using e5) (by simpa using e6) t1.val le_rfl o5.le hy
              rw [J1]
              push_cast
              rw [add_div]
              rw [abs_le] at B
              constructor <;> nlinarith [A.1, A.2, B.1, B.2, D.1, D.2]

/-! ## The file -/

variable {f : File} {b : Nat × Nat}

/-- Each temperature within the limits lies in a piece, whose row gives the entropy. -/
theorem piece_of_s (h : check f b = true) (T : ℝ) (h1 : f.gas.Tlo ≤ T) (h2 : T ≤ f.gas.Thi) :
    ∃ (i : Nat) (t0 t1 : Dec) (r : List Dec), f.Tlim[i]? = some t0 ∧ f.Tlim[i + 1]? = some t1 ∧
      f.C[i]? = some r ∧ t0.val ≤ T ∧ T ≤ t1.val ∧ 0 < T ∧
      f.gas.s T = some (sOf f.cls (coef r) T, cpOf f.cls (coef r) T / T) := by
  have hwf := wellFormed h
  have h1' : f.data.Tlim.headD 0 ≤ T := by
    cases hc : f.cls <;> simpa [File.gas, hc, ig, ig2] using h1
  have h2' : T ≤ f.data.Tlim.getLastD 0 := by
    cases hc : f.cls <;> simpa [File.gas, hc, ig, ig2] using h2
  obtain ⟨i, lo, hi, c, e1, e2, e3, e4, e5, pw⟩ := (C33_evaluation f.data hwf T).1 h1' h2'
  simp only [File.data, List.getElem?_map, Option.map_eq_some_iff] at e1 e2 e5
  obtain ⟨t0, e1, rfl⟩ := e1
  obtain ⟨t1, e2, rfl⟩ := e2
  obtain ⟨r, e5, rfl⟩ := e5
  have p0 := (mK_val (walk_ok _ _ _ _ _ (check_walk h) t0 (List.mem_of_getElem? e1))).2
  have hT := p0.trans_le e3
  refine ⟨i, t0, t1, r, e1, e2, e5, e3, e4, hT, ?_⟩
  cases hc : f.cls <;> simp only [File.gas, hc, ig, ig2, cpOf, sOf]
  · rw [pw]; simp [sho_sT _ hT.ne']
  · rw [pw]; simp [nasa_sT_eq _ hT.ne']

theorem smalls_get (c : Cls) (ts : List Dec) (rs : List (List Dec)) (h : smalls c ts rs = true) (i : Nat)
    (t0 t1 : Dec) (r : List Dec) (e1 : ts[i]? = some t0) (e2 : ts[i + 1]? = some t1) (e3 : rs[i]? = some r) :
    small c r (mK t0) (mK t1) = true := by
  induction rs generalizing ts i with
  | nil => simp at e3
  | cons r0 rs ih =>
    match ts, h, e1, e2 with
    | [], _, e1, _ => simp at e1
    | [t], _, _, e2 => simp at e2
    | s0 :: s1 :: ts, h, e1, e2 =>
      simp only [smalls, Bool.and_eq_true] at h
      cases i with
      | zero =>
        have g1 : s0 = t0 := by simpa using e1
        have g2 : s1 = t1 := by simpa using e2
        have g3 : r0 = r := by simpa using e3
        rw [← g1, ← g2, ← g3]; exact h.1
      | succ i => exact ih (s1 :: ts) h.2 i (by simpa using e1) (by simpa using e2) (by simpa using e3)

theorem checkS_of (hf : f ∈ shipped) : sjumps f.cls f.Tlim f.C ≤ 80000 ∧ smalls f.cls f.Tlim f.C = true := by
  have := List.all_eq_true.mp shipped_checkS f hf
  simp only [checkS, Bool.and_eq_true] at this
  exact ⟨Nat.le_of_ble_eq_true this.1, this.2⟩

/-- Growth of the entropy. -/
theorem s_growth (hf : f ∈ shipped) (h : check f b = true) (x y : ℝ) (h1 : f.gas.Tlo ≤ x) (hxy : x ≤ y)
    (h2 : y ≤ f.gas.Thi) :
    ∃ sx sy cx cy, f.gas.s x = some (sx, cx) ∧ f.gas.s y = some (sy, cy) ∧
      (b.1 : ℝ) / 100 * Ru * (Real.log y - Real.log x) - 0.08 ≤ sy - sx ∧
      sy - sx ≤ (b.2 : ℝ) / 100 * Ru * (Real.log y - Real.log x) + 0.08 := by
  obtain ⟨i, s0, s1, r, a1, a2, a3, a4, a5, -, a6⟩ := piece_of_s h x h1 (hxy.trans h2)
  obtain ⟨j, u0, u1, q, c1, c2, c3, c4, c5, -, c6⟩ := piece_of_s h y (h1.trans hxy) h2
  refine ⟨_, _, _, _, a6, c6, ?_⟩
  have hw := check_walk h
  obtain ⟨hj, -⟩ := checkS_of hf
  have hj' : ((sjumps f.cls f.Tlim f.C : ℕ) : ℝ) / 10 ^ 6 ≤ 0.08 := by
    rw [div_le_iff₀ (by positivity)]
    have : ((sjumps f.cls f.Tlim f.C : ℕ) : ℝ) ≤ (80000 : ℕ) := by exact_mod_cast hj
    norm_num at this ⊢
    linarith
  rcases Nat.lt_or_ge j i with hji | hij
  · -- then `x` and `y` are the same breakpoint
    have hlen := walk_length _ _ _ _ _ hw
    have mono : ∀ (k : Nat) (d e : Dec) (m : Nat), f.Tlim[k]? = some d → f.Tlim[k + m]? = some e → d.val ≤ e.val := by
      intro k d e m
      induction m generalizing e with
      | zero => intro hd he; rw [Nat.add_zero, hd] at he; cases he; exact le_rfl
      | succ m ih =>
        intro hd he
        have hk : k + (m + 1) < f.Tlim.length := by
          by_contra hc
          rw [List.getElem?_eq_none (by omega)] at he
          cases he
        have m1 := walk_piece _ _ _ _ _ hw (k + m) _ e _ (List.getElem?_eq_getElem (by omega))
          (by rw [← he]; rfl) (List.getElem?_eq_getElem (by omega))
        exact (ih _ hd (List.getElem?_eq_getElem (by omega))).trans m1.2.1.le
    have hle : u1.val ≤ s0.val := mono (j + 1) u1 s0 (i - (j + 1)) c2 (by rw [← a1]; congr 1; omega)
    have hxy' : x = y := by linarith
    subst hxy'
    have := c6.symm.trans a6
    simp only [Option.some.injEq, Prod.mk.injEq] at this
    rw [this.1]
    constructor <;> norm_num
  · have := chain_s _ _ _ _ _ hw (by omega) i j hij s0 s1 u0 u1 r q a1 a2 a3 c1 c2 c3 x y a4 a5 c4 c5 hxy
    constructor <;> linarith [this.1, this.2]

/-- Range and size. -/
theorem s_size (hf : f ∈ shipped) (h : check f b = true) (T : ℝ) (h1 : f.gas.Tlo ≤ T) (h2 : T ≤ f.gas.Thi) :
    200 ≤ T ∧ T ≤ 6000 ∧ ∃ s cp, f.gas.s T = some (s, cp / T) ∧ |s| ≤ 13000 ∧
      (b.1 : ℝ) / 100 * Ru ≤ cp ∧ cp ≤ (b.2 : ℝ) / 100 * Ru := by
  obtain ⟨i, t0, t1, r, a1, a2, a3, a4, a5, -, a6⟩ := piece_of_s h T h1 h2
  have hw := check_walk h
  have hok := walk_ok _ _ _ _ _ hw
  obtain ⟨o1, -, o3⟩ := walk_piece _ _ _ _ _ hw i t0 t1 r a1 a2 a3
  obtain ⟨q1, q2, q3⟩ := small_spec f.cls o1 (hok _ (List.mem_of_getElem? a1)) (hok _ (List.mem_of_getElem? a2))
    (smalls_get _ _ _ (checkS_of hf).2 i t0 t1 r a1 a2 a3) T a4 a5
  exact ⟨q1, q2, _, _, a6, q3, (o3 T a4 a5).1, (o3 T a4 a5).2⟩

end PyroMat.Shipped
