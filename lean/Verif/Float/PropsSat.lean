import Verif.Float.PropsIdeal
import Verif.Float.Sat
import Verif.Float.SpecSat
import Verif.Mp.PropsSat

/-!
# C115: saturation curves in floating point
-/

set_option linter.unusedSimpArgs false

namespace PyroMat.Float.Props

open PyroMat PyroMat.Mp PyroMat.Float PyroMat.Float.Spec PyroMat.Mp.Spec

variable {ε : ℝ} {A : Arith}

/-- The value of a polynomial alone, at a rounded argument. -/
theorem poly_value (h0 : 0 ≤ ε) (h1 : ε < 1) (hA : Accurate ε A) {pw : ℝ → ℝ → ℝ} (hP : Powers ε pw) {x x' : ℝ} (hx : 0 < x)
    {a α : ℕ} (hxn : Near ε a x x') (ha : a + 1 ≤ α) (n : ℕ) (gs : List Group1) (hg : ∀ g ∈ gs, Sorted1 g)
    (he : ∀ g ∈ gs, Mild1 a α g) (hn : ∀ g ∈ gs, ∀ t ∈ g.terms, t.1 ≤ n) :
    ∃ j, poly1 A pw x' gs 0 = .ok j ∧
      Off ε ((n + 1) * (α + 2) + α + 1 + gs.length) (size0 gs x) (poly1At gs x) j.p := by
  obtain ⟨j, hj, h, -, -⟩ := poly_off h0 h1 hA hP hx hxn ha n gs hg he hn
  refine ⟨P3.cut 0 j, by rw [C112_order1 A pw 0, hj]; rfl, ?_⟩
  rw [Mp.Props.evalGs1_value _ _ hg] at h
  exact h

/-- The exponents are small enough for `α` roundings. -/
theorem mild_of {a w α : ℕ} (h : a * w + 1 ≤ α) {g : Group1} (hw : |g.pre| ≤ w ∧ |g.post| ≤ w) : Mild1 a α g := by
  have h' : (a : ℝ) * w + 1 ≤ α := by exact_mod_cast h
  have a0 : (0 : ℝ) ≤ a := Nat.cast_nonneg a
  exact ⟨by nlinarith [hw.1], by nlinarith [hw.2]⟩

/-- The fit, with its scale. -/
theorem satCurve_off (h0 : 0 ≤ ε) (hA : Accurate ε A) {pw : ℝ → ℝ → ℝ} (hP : Powers ε pw) {ex : ℝ → ℝ} (hE : Exps ε ex)
    (g : SatGroup) (hf : g.fn ≤ 3) (hs : ∀ q ∈ g.coef, Sorted1 q) (hsc : 0 < g.scale) (n w Q M N : ℕ)
    (hn : ∀ q ∈ g.coef, ∀ t ∈ q.terms, t.1 ≤ n) (hw : ∀ q ∈ g.coef, |q.pre| ≤ w ∧ |q.post| ≤ w) (hw1 : 1 ≤ w)
    (T : ℝ) (hT : 0 < T) (hT' : T < g.Tscale) (hQ : g.Tscale + T ≤ Q * (g.Tscale - T))
    (hM : argSize g.fn g.coef (T / g.Tscale) ≤ M) (hN : N = satRoundings n w Q M g.coef.length) (hk : N * ε ≤ 1e-3) :
    ∃ y, satCurve A pw ex g T = .ok y ∧
      Off ε N (g.scale * satSize g.fn g.coef (T / g.Tscale)) (g.scale * satAt g.fn g.coef (T / g.Tscale)) y := by
  obtain ⟨Ts, sc, fn, gs⟩ := g
  simp only at *
  have hTs : 0 < Ts := hT.trans hT'
  set t := T / Ts with ht
  have t0 : 0 < t := div_pos hT hTs
  have t1 : t < 1 := (div_lt_one hTs).mpr hT'
  have hQt : 1 + t ≤ Q * (1 - t) := by
    have e1 : 1 + t = (Ts + T) / Ts := by rw [ht]; field_simp
    have e2 : (Q : ℝ) * (1 - t) = Q * (Ts - T) / Ts := by rw [ht]; field_simp
    rw [e1, e2]
    exact div_le_div_of_nonneg_right hQ hTs.le
  have hQ1 : 1 ≤ Q := by
    rcases Nat.eq_zero_or_pos Q with rfl | h
    · norm_num at hQt; linarith
    · exact h
  set α := 6 * Q * w + 1 with hα
  set c := (n + 1) * (α + 2) + α + 1 + gs.length with hc
  have hNc : N = 2 * (c + 4) * (M + 1) + 3 := by
    rw [hN, satRoundings, hc, hα]; ring
  have hcN : 2 * (c + 4) + 3 ≤ N := by
    rw [hNc]
    have := Nat.le_mul_of_pos_right (2 * (c + 4)) (by omega : 0 < M + 1)
    omega
  have hle : ∀ l : ℕ, l ≤ N → (l : ℝ) * ε ≤ 1e-3 := fun l hl =>
    (mul_le_mul_of_nonneg_right (by exact_mod_cast hl) h0).trans hk
  have h1' : ε ≤ 1e-3 := by simpa using hle 1 (by omega)
  have h1 : ε < 1 := by linarith
  have hQw : 6 * Q ≤ 6 * Q * w := Nat.le_mul_of_pos_right _ hw1
  have hαc : α ≤ c := by
    rw [hc]; omega
  have ht' := near_scale' h0 h1 hA T Ts
  rw [← ht] at ht'
  have hto : Off ε 2 t t (A.div T (A.lit Ts)) := by have := err_of_near ht'; rwa [abs_of_pos t0] at this
  have h1o := off_exact h0 h1 0 (1 : ℝ)
  rw [abs_one] at h1o
  have hxo : Off ε 3 (1 + t) (1 - t) (A.sub 1 (A.div T (A.lit Ts))) := off_sub h0 h1 hA h1o hto
  have hx0 : 0 < 1 - t := by linarith
  have hx := near_of_off h0 h1' hxo hx0 hQt (hle _ (by omega))
  rw [show 2 * 3 * Q = 6 * Q by ring] at hx
  have lit := off_of_within h0 h1 (hA.lit sc)
  rw [abs_of_pos hsc] at lit
  have fin : ∀ {k : ℕ} {m x y : ℝ}, Off ε k m x y → k + 2 ≤ N → Off ε N (sc * m) (sc * x) (A.mul y (A.lit sc)) := by
    intro k m x y h hk
    have := off_mul h0 h1 hA h lit
    rw [mul_comm m, mul_comm x] at this
    exact err_mono h0 h1 (by omega) le_rfl this
  have e2c : ∀ {k : ℕ}, k ≤ c + 4 → 2 * k * M + 1 + 2 ≤ N := by
    intro k hk
    rw [hNc]
    have : 2 * k * M ≤ 2 * (c + 4) * (M + 1) := Nat.mul_le_mul (by omega) (by omega)
    omega
  have mild : ∀ {a : ℕ}, a ≤ 6 * Q → ∀ q ∈ gs, Mild1 a α q := by
    intro a ha q hq
    refine mild_of ?_ (hw q hq)
    have := Nat.mul_le_mul_right w ha
    omega
  have hpoly := poly_value h0 h1 hA hP hx0 hx (α := α) (by omega) n gs hs (mild le_rfl) hn
  rw [← hc] at hpoly
  obtain ⟨j, hj, hjo⟩ := hpoly
  match fn, hf with
  | 0, _ =>
    obtain ⟨i, hi, hio⟩ := poly_value h0 h1 hA hP t0 ht' (α := α) (by omega) n gs hs (mild (by omega)) hn
    rw [← hc] at hio
    refine ⟨A.mul i.p (A.lit sc), by simp only [satCurve, satFit, hi, Except.map], ?_⟩
    exact fin hio (by omega)
  | 1, _ =>
    refine ⟨A.mul j.p (A.lit sc), by simp only [satCurve, satFit, hj, Except.map], ?_⟩
    exact fin hjo (by omega)
  | 2, _ =>
    refine ⟨A.mul (ex j.p) (A.lit sc), by simp only [satCurve, satFit, hj, Except.map], ?_⟩
    exact fin (off_exp h0 h1' hE hjo hM (hle _ (by omega))) (e2c (by omega))
  | 3, _ =>
    refine ⟨A.mul (ex (A.mul j.p (A.div 1 (A.div T (A.lit Ts))))) (A.lit sc),
      by simp only [satCurve, satFit, hj, Except.map], ?_⟩
    have inv := off_div h0 h1 hA h1o t0 ht'
    have arg := off_mul h0 h1 hA hjo inv
    rw [show size0 gs (1 - t) * (1 / t) = size0 gs (1 - t) / t by ring,
      show poly1At gs (1 - t) * (1 / t) = 1 / t * poly1At gs (1 - t) by ring] at arg
    have arg' : Off ε (c + 4) (size0 gs (1 - t) / t) (1 / t * poly1At gs (1 - t)) _ :=
      err_mono h0 h1 (by omega) le_rfl arg
    exact fin (off_exp h0 h1' hE arg' hM (hle _ (by omega))) (e2c le_rfl)

/-- **C115.** Evaluated with rounded operations, a saturation pressure or density of one of the four documented forms is off by no
more than a stated number of roundings of the size of its terms, which for the exponential forms is the value itself.  The
number grows with the exponents and, through the difference `1 - T/Tc`, as the critical temperature is approached. -/
theorem C115_curve (h0 : 0 ≤ ε) (hA : Accurate ε A) {pw : ℝ → ℝ → ℝ} (hP : Powers ε pw) {ex : ℝ → ℝ} (hE : Exps ε ex)
    (g : SatGroup) (hf : g.fn ≤ 3) (hs : ∀ q ∈ g.coef, Sorted1 q) (hsc : 0 < g.scale) (n w Q M N : ℕ)
    (hn : ∀ q ∈ g.coef, ∀ t ∈ q.terms, t.1 ≤ n) (hw : ∀ q ∈ g.coef, |q.pre| ≤ w ∧ |q.post| ≤ w) (hw1 : 1 ≤ w)
    (T : ℝ) (hT : 0 < T) (hT' : T < g.Tscale) (hQ : g.Tscale + T ≤ Q * (g.Tscale - T))
    (hM : argSize g.fn g.coef (T / g.Tscale) ≤ M) (hN : N = satRoundings n w Q M g.coef.length) (hk : N * ε ≤ 1e-3) :
    ∃ y, satCurve A pw ex g T = .ok y ∧
      |y - g.scale * satAt g.fn g.coef (T / g.Tscale)| ≤ 1.01 * N * ε * (g.scale * satSize g.fn g.coef (T / g.Tscale)) := by
  obtain ⟨y, hy, h⟩ := satCurve_off h0 hA hP hE g hf hs hsc n w Q M N hn hw hw1 T hT hT' hQ hM hN hk
  have : 1 ≤ N := by rw [hN, satRoundings]; omega
  have h1 : ε ≤ 1e-3 := by
    have : (1 : ℝ) ≤ N := by exact_mod_cast this
    nlinarith
  exact ⟨y, hy, err_abs h0 hk h1 h⟩

/-- **C115.** Another form is not answered in floating point either. -/
theorem C115_unsupported (A : Arith) (pw : ℝ → ℝ → ℝ) (ex : ℝ → ℝ) (g : SatGroup) (hf : 3 < g.fn) (T : ℝ) :
    satCurve A pw ex g T = .error .unboundLocal := by
  obtain ⟨Ts, sc, fn, gs⟩ := g
  match fn, hf with
  | n + 4, _ => rfl

/-- **C115.** Without rounding, these are the curves of C56. -/
theorem C115_exact (g : SatGroup) (T : ℝ) :
    satCurve exact (fun x y => x ^ y) Real.exp g T = (satprop g 0 T).map (·.p) := by
  obtain ⟨Ts, sc, fn, gs⟩ := g
  unfold satCurve satprop satFit satfit
  have e1 : exact.lit Ts = Ts := rfl
  have e2 : ∀ a b, exact.div a b = a / b := fun _ _ => rfl
  have e3 : ∀ a b, exact.sub a b = a - b := fun _ _ => rfl
  simp only [e1, e2, e3, C112_exact1]
  match fn with
  | 0 => cases Mp.poly1 (T / Ts) gs 0 <;> rfl
  | 1 => cases Mp.poly1 (1 - T / Ts) gs 0 <;> rfl
  | 2 => cases Mp.poly1 (1 - T / Ts) gs 0 <;> rfl
  | 3 => cases Mp.poly1 (1 - T / Ts) gs 0 <;> rfl
  | n + 4 => rfl

end PyroMat.Float.Props
