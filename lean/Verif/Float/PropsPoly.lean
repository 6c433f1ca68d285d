import Verif.Float.Sum
import Verif.Float.Poly
import Verif.Float.SpecPoly
import Verif.Mp.PropsPoly

/-!
# C112: polynomials in floating point
-/

set_option linter.unusedSimpArgs false

namespace PyroMat.Float.Props

open PyroMat PyroMat.Mp PyroMat.Float PyroMat.Float.Spec PyroMat.Mp.Spec

variable {ε : ℝ} {A : Arith}

/-! ## Single operations -/

theorem off_exact (h0 : 0 ≤ ε) (h1 : ε < 1) (k : ℕ) (x : ℝ) : Off ε k |x| x x := by
  exact err_mono h0 h1 (Nat.zero_le k) le_rfl (err_of_near (near_refl h0 h1 0 x))

theorem off_zero (h0 : 0 ≤ ε) (h1 : ε < 1) (k : ℕ) : Off ε k 0 0 0 := by
  simpa using off_exact h0 h1 k 0

theorem off_of_within (h0 : 0 ≤ ε) (h1 : ε < 1) {x y : ℝ} (h : Within ε x y) : Off ε 1 |x| x y :=
  err_of_near (near_of_within h0 h1 h)

theorem off_mul (h0 : 0 ≤ ε) (h1 : ε < 1) (hA : Accurate ε A) {k l : ℕ} {m n x y x' y' : ℝ} (h : Off ε k m x y)
    (h' : Off ε l n x' y') : Off ε (k + l + 1) (m * n) (x * x') (A.mul y y') :=
  err_within h0 h1 (err_times h0 h1 h h') (hA.mul _ _)

theorem off_add (h0 : 0 ≤ ε) (h1 : ε < 1) (hA : Accurate ε A) {k l : ℕ} {m n x y x' y' : ℝ} (h : Off ε k m x y)
    (h' : Off ε l n x' y') : Off ε (max k l + 1) (m + n) (x + x') (A.add y y') :=
  err_within h0 h1 (err_plus h0 h1 h h') (hA.add _ _)

theorem off_div (h0 : 0 ≤ ε) (h1 : ε < 1) (hA : Accurate ε A) {k a : ℕ} {m x y z w : ℝ} (h : Off ε k m x y) (hz : 0 < z)
    (hw : Near ε a z w) : Off ε (k + a + 1) (m / z) (x / z) (A.div y w) := by
  refine err_within h0 h1 (y := y / w) ?_ (hA.div _ _)
  have := err_times h0 h1 h (err_of_near (near_inv hw))
  rwa [← div_eq_mul_inv, ← div_eq_mul_inv, abs_of_pos (inv_pos.mpr hz), ← div_eq_mul_inv] at this

/-- A power of an argument that has been rounded `a` times. -/
theorem off_pow (h0 : 0 ≤ ε) (h1 : ε < 1) {pw : ℝ → ℝ → ℝ} (hP : Powers ε pw) {x x' : ℝ} (hx : 0 < x) {a α : ℕ}
    (hn : Near ε a x x') (e : ℝ) (he : a * |e| + 1 ≤ α) : Off ε α (x ^ e) (x ^ e) (pw x' e) := by
  have hx' := near_pos hn hx
  have hα : 1 ≤ α := by
    have : (1 : ℝ) ≤ α := by
      have := mul_nonneg (Nat.cast_nonneg (α := ℝ) a) (abs_nonneg e)
      linarith
    exact_mod_cast this
  have hq : Near ε (α - 1) (x ^ e) (x' ^ e) := by
    obtain ⟨θ, h, rfl⟩ := hn
    refine ⟨e * θ, ?_, ?_⟩
    · rw [abs_mul, Nat.cast_sub hα, Nat.cast_one]
      have s0 := step_nonneg h0 h1
      have q1 := mul_le_mul_of_nonneg_left h (abs_nonneg e)
      have q2 := mul_le_mul_of_nonneg_right (show (a : ℝ) * |e| ≤ α - 1 by linarith) s0
      linarith
    · rw [Real.mul_rpow hx.le (Real.exp_pos _).le, ← Real.exp_mul, mul_comm θ e]
  have hr := near_trans hq (near_of_within h0 h1 (hP x' e hx'))
  rw [Nat.sub_add_cancel hα] at hr
  have := err_of_near hr
  rwa [abs_of_pos (Real.rpow_pos_of_pos hx _)] at this

/-- The factors of the derivatives of a power. -/
theorem off_pow1 (h0 : 0 ≤ ε) (h1 : ε < 1) (hA : Accurate ε A) {pw : ℝ → ℝ → ℝ} (hP : Powers ε pw) {x x' : ℝ} (hx : 0 < x)
    {a α : ℕ} (hn : Near ε a x x') (ha : a + 1 ≤ α) (e : ℝ) (he : a * |e| + 1 ≤ α) :
    Off ε (2 * α + 1) (x ^ e * |e| / x) (x ^ e * e / x) (A.div (A.mul (pw x' e) e) x') ∧
    Off ε (2 * α + 1) (x ^ e * |e| / x) (x ^ e * e / x) (A.div (A.mul e (pw x' e)) x') := by
  have hX := off_pow h0 h1 hP hx hn e he
  constructor
  · exact err_mono h0 h1 (by omega) le_rfl (off_div h0 h1 hA (off_mul h0 h1 hA hX (off_exact h0 h1 0 e)) hx hn)
  · have := off_div h0 h1 hA (off_mul h0 h1 hA (off_exact h0 h1 0 e) hX) hx hn
    rw [mul_comm |e|, mul_comm e] at this
    exact err_mono h0 h1 (by omega) le_rfl this

theorem off_pow2 (h0 : 0 ≤ ε) (h1 : ε < 1) (hA : Accurate ε A) {x x' : ℝ} (hx : 0 < x) {a α : ℕ} (hn : Near ε a x x')
    (ha : a + 1 ≤ α) (e : ℝ) {m u v : ℝ} (h : Off ε (2 * α + 1) m u v) :
    Off ε (3 * α + 3) (m * |e - 1| / x) (u * (e - 1) / x) (A.div (A.mul v (A.sub e 1)) x') :=
  err_mono h0 h1 (by omega) le_rfl
    (off_div h0 h1 hA (off_mul h0 h1 hA h (off_of_within h0 h1 (hA.sub e 1))) hx hn)

/-! ## The loop -/

/-- Value and derivatives after `k` roundings of terms of size `m`. -/
structure Off3 (ε : ℝ) (k : ℕ) (m s t : P3) : Prop where
  p : Off ε k m.p s.p t.p
  px : Off ε k m.px s.px t.px
  pxx : Off ε k m.pxx s.pxx t.pxx

/-- The terms with positive coefficients. -/
def sized (r : List (Nat × ℝ)) : List (Nat × ℝ) := r.map fun t => (t.1, |t.2|)

theorem skip_off (h0 : 0 ≤ ε) (h1 : ε < 1) (hA : Accurate ε A) {a k : ℕ} {X x : ℝ} (hX : Off ε a X X x)
    {m s t : P3} (h : Off3 ε k m s t) :
    Off3 ε (k + (a + 2)) (Mp.fold1 2 X 0 m) (Mp.fold1 2 X 0 s) (skip1 A 2 x t) := by
  have h2 := off_exact h0 h1 0 (2 : ℝ)
  rw [abs_of_pos (by norm_num : (0 : ℝ) < 2)] at h2
  refine ⟨?_, ?_, ?_⟩
  · simp only [Mp.fold1, skip1, zero_add]
    exact err_mono h0 h1 (by omega) le_rfl (off_mul h0 h1 hA hX h.p)
  · simp only [Mp.fold1, skip1, gt_iff_lt, Nat.zero_lt_two, if_true]
    exact err_mono h0 h1 (by omega) le_rfl (off_add h0 h1 hA h.p (off_mul h0 h1 hA hX h.px))
  · simp only [Mp.fold1, skip1, gt_iff_lt, Nat.one_lt_two, if_true]
    exact err_mono h0 h1 (by omega) le_rfl (off_add h0 h1 hA (off_mul h0 h1 hA h2 h.px) (off_mul h0 h1 hA hX h.pxx))

theorem fold_off (h0 : 0 ≤ ε) (h1 : ε < 1) (hA : Accurate ε A) {a k : ℕ} {X x : ℝ} (hX : Off ε a X X x) (c : ℝ)
    {m s t : P3} (h : Off3 ε k m s t) :
    Off3 ε (k + (a + 2)) (Mp.fold1 2 X |c| m) (Mp.fold1 2 X c s) (fold1 A 2 x (A.lit c) t) := by
  have hs := skip_off h0 h1 hA hX h
  refine ⟨?_, hs.px, hs.pxx⟩
  simp only [Mp.fold1, fold1]
  exact err_mono h0 h1 (by omega) le_rfl
    (off_add h0 h1 hA (off_of_within h0 h1 (hA.lit c)) (off_mul h0 h1 hA hX h.p))

theorem loop_off (h0 : 0 ≤ ε) (h1 : ε < 1) (hA : Accurate ε A) {a : ℕ} {X x : ℝ} (hX : Off ε a X X x) (n : ℕ) :
    ∀ (r : List (Nat × ℝ)) (k : ℕ) (m s t : P3), Off3 ε k m s t →
      Off3 ε (k + n * (a + 2)) (Mp.loop1 2 X n (sized r) m) (Mp.loop1 2 X n r s) (loop1 A 2 x n r t) := by
  induction n with
  | zero => intro r k m s t h; simpa [Mp.loop1, loop1] using h
  | succ n ih =>
    intro r k m s t h
    have e : k + (n + 1) * (a + 2) = k + (a + 2) + n * (a + 2) := by ring
    rw [e]
    match r with
    | [] =>
      simp only [sized, List.map_nil, Mp.loop1, loop1]
      exact ih [] _ _ _ _ (skip_off h0 h1 hA hX h)
    | (i, c) :: r =>
      by_cases hi : i = n
      · simp only [sized, List.map_cons, Mp.loop1, loop1, if_pos hi]
        exact ih r _ _ _ _ (fold_off h0 h1 hA hX c h)
      · simp only [sized, List.map_cons, Mp.loop1, loop1, if_neg hi]
        exact ih ((i, c) :: r) _ _ _ _ (skip_off h0 h1 hA hX h)

/-! ## The sizes -/

theorem sum_deriv (r : List (Nat × ℝ)) (x : ℝ) :
    HasDerivAt (fun z : ℝ => (r.map fun t => t.2 * z ^ t.1).sum) (r.map fun t => t.2 * (t.1 * x ^ (t.1 - 1))).sum x := by
  induction r with
  | nil => simpa using hasDerivAt_const x (0 : ℝ)
  | cons t r ih =>
    simp only [List.map_cons, List.sum_cons]
    exact ((hasDerivAt_pow t.1 x).const_mul t.2).add ih

theorem sum_deriv2 (r : List (Nat × ℝ)) (x : ℝ) :
    HasDerivAt (fun z : ℝ => (r.map fun t => t.2 * (t.1 * z ^ (t.1 - 1))).sum)
      (r.map fun t => t.2 * (t.1 * ((t.1 - 1 : ℕ) * x ^ (t.1 - 1 - 1)))).sum x := by
  induction r with
  | nil => simpa using hasDerivAt_const x (0 : ℝ)
  | cons t r ih =>
    simp only [List.map_cons, List.sum_cons]
    exact (((hasDerivAt_pow (t.1 - 1) x).const_mul (t.1 : ℝ)).const_mul t.2).add ih

/-- The Horner scheme computes the sum and its derivatives. -/
theorem loop_sums (r : List (Nat × ℝ)) (n : ℕ) (hs : r.Pairwise fun a b => b.1 < a.1) (hn : ∀ t ∈ r, t.1 < n) (X : ℝ) :
    Mp.loop1 2 X n r ⟨0, 0, 0⟩ = ⟨(r.map fun t => t.2 * X ^ t.1).sum, (r.map fun t => t.2 * (t.1 * X ^ (t.1 - 1))).sum,
      (r.map fun t => t.2 * (t.1 * ((t.1 - 1 : ℕ) * X ^ (t.1 - 1 - 1)))).sum⟩ := by
  have hj : ∀ X, Mp.Jet1 (fun X => Mp.loop1 2 X n r ⟨0, 0, 0⟩) X := fun X =>
    Mp.Props.loop1_jet n r (Jet1.const 0 X)
  have hv : ∀ X : ℝ, (Mp.loop1 2 X n r ⟨0, 0, 0⟩).p = (r.map fun t => t.2 * X ^ t.1).sum := by
    intro X
    rw [Mp.Props.loop1_value 2 X n r _ hs hn]
    simp
  have hd : ∀ X : ℝ, (Mp.loop1 2 X n r ⟨0, 0, 0⟩).px = (r.map fun t => t.2 * (t.1 * X ^ (t.1 - 1))).sum := by
    intro X
    have := (hj X).d1
    simp only [hv] at this
    exact this.unique (sum_deriv r X)
  have hdd : (Mp.loop1 2 X n r ⟨0, 0, 0⟩).pxx =
      (r.map fun t => t.2 * (t.1 * ((t.1 - 1 : ℕ) * X ^ (t.1 - 1 - 1)))).sum := by
    have := (hj X).d2
    simp only [hd] at this
    exact this.unique (sum_deriv2 r X)
  rw [← hv X, ← hd X, ← hdd]

/-! ## A group -/

/-- The value computed for a group. -/
noncomputable def evalG1 (A : Arith) (pw : ℝ → ℝ → ℝ) (d : Nat) (g : Group1) (x : ℝ) : P3 :=
  postFix1 A pw d x g.post (preFix1 A d g.pre (preExp A pw d x g.pre)
    (loop1 A d (preExp A pw d x g.pre).p ((g.terms.head?.map Prod.fst).getD 0 + 1) g.terms ⟨0, 0, 0⟩))

theorem group1_eq (A : Arith) (pw : ℝ → ℝ → ℝ) (d : Nat) (g : Group1) (x : ℝ) (h : g.terms ≠ []) :
    group1 A pw d x g = .ok (evalG1 A pw d g x) := by
  unfold group1 evalG1
  cases ht : g.terms with
  | nil => exact absurd ht h
  | cons p r => rfl

/-- The pre-exponential and its derivatives. -/
theorem preExp_off (h0 : 0 ≤ ε) (h1 : ε < 1) (hA : Accurate ε A) {pw : ℝ → ℝ → ℝ} (hP : Powers ε pw) {x x' : ℝ} (hx : 0 < x)
    {a α : ℕ} (hn : Near ε a x x') (ha : a + 1 ≤ α) (pre : ℝ) (he : a * |pre| + 1 ≤ α) :
    Off ε α (x ^ pre) (x ^ pre) (preExp A pw 2 x' pre).p ∧
    Off ε (2 * α + 1) (x ^ pre * |pre| / x) (Mp.preExp 2 x pre).px (preExp A pw 2 x' pre).px ∧
    Off ε (3 * α + 3) (x ^ pre * |pre| / x * |pre - 1| / x) (Mp.preExp 2 x pre).pxx (preExp A pw 2 x' pre).pxx := by
  by_cases hp : pre = 1
  · have e : x ^ pre * |pre| / x = 1 := by rw [hp]; simp [hx.ne']
    have e' : |pre - 1| = 0 := by rw [hp]; simp
    rw [e, e']
    simp only [Mp.preExp, preExp, hp, ne_eq, not_true_eq_false, if_false, Real.rpow_one, mul_zero, zero_div]
    refine ⟨?_, ?_, off_zero h0 h1 _⟩
    · have := err_of_near hn
      rw [abs_of_pos hx] at this
      exact err_mono h0 h1 (by omega) le_rfl this
    · have := off_exact h0 h1 (2 * α + 1) (1 : ℝ)
      rwa [abs_one] at this
  · have q := (off_pow1 h0 h1 hA hP hx hn ha pre he).1
    simp only [Mp.preExp, preExp, hp, ne_eq, not_false_eq_true, if_true, gt_iff_lt, Nat.zero_lt_two, Nat.one_lt_two]
    exact ⟨off_pow h0 h1 hP hx hn pre he, q, off_pow2 h0 h1 hA hx hn ha pre q⟩

/-- Sizes of the derivatives after the pre-exponential. -/
theorem pre_off (h0 : 0 ≤ ε) (h1 : ε < 1) (hA : Accurate ε A) {pw : ℝ → ℝ → ℝ} (hP : Powers ε pw) {x x' : ℝ} (hx : 0 < x)
    {a α : ℕ} (hn : Near ε a x x') (ha : a + 1 ≤ α)
    (g : Group1) (he : a * |g.pre| + 1 ≤ α) {k : ℕ} {m s t : P3} (h : Off3 ε k m s t) :
    Off ε k m.p (Mp.preFix1 2 g (Mp.preExp 2 x g.pre) s).p (preFix1 A 2 g.pre (preExp A pw 2 x' g.pre) t).p ∧
    Off ε (k + 2 * α + 2) (m.px * (x ^ g.pre * |g.pre| / x)) (Mp.preFix1 2 g (Mp.preExp 2 x g.pre) s).px
      (preFix1 A 2 g.pre (preExp A pw 2 x' g.pre) t).px ∧
    Off ε (k + 4 * α + 5) (m.pxx * (x ^ g.pre * |g.pre| / x) * (x ^ g.pre * |g.pre| / x)
        + m.px * (x ^ g.pre * |g.pre| / x * |g.pre - 1| / x)) (Mp.preFix1 2 g (Mp.preExp 2 x g.pre) s).pxx
      (preFix1 A 2 g.pre (preExp A pw 2 x' g.pre) t).pxx := by
  by_cases hp : g.pre = 1
  · have e : x ^ g.pre * |g.pre| / x = 1 := by rw [hp]; simp [hx.ne']
    have e' : |g.pre - 1| = 0 := by rw [hp]; simp
    simp only [Mp.preFix1, preFix1, hp, ne_eq, not_true_eq_false, if_false]
    rw [hp] at e e'
    rw [e, e']
    refine ⟨h.p, ?_, ?_⟩
    · rw [mul_one]; exact err_mono h0 h1 (by omega) le_rfl h.px
    · simp only [mul_one, mul_zero, zero_div, add_zero]
      exact err_mono h0 h1 (by omega) le_rfl h.pxx
  · obtain ⟨-, hx1, hx2⟩ := preExp_off h0 h1 hA hP hx hn ha g.pre he
    simp only [Mp.preFix1, preFix1, hp, ne_eq, not_false_eq_true, if_true, gt_iff_lt, Nat.zero_lt_two, Nat.one_lt_two]
    refine ⟨h.p, ?_, ?_⟩
    · exact err_mono h0 h1 (by omega) le_rfl (off_mul h0 h1 hA h.px hx1)
    · exact err_mono h0 h1 (by omega) le_rfl (off_add h0 h1 hA
        (off_mul h0 h1 hA (off_mul h0 h1 hA h.pxx hx1) hx1) (off_mul h0 h1 hA h.px hx2))

/-- Sizes after the post-exponential. -/
theorem post_off (h0 : 0 ≤ ε) (h1 : ε < 1) (hA : Accurate ε A) {pw : ℝ → ℝ → ℝ} (hP : Powers ε pw) {x x' : ℝ} (hx : 0 < x)
    {a α : ℕ} (hn : Near ε a x x') (ha : a + 1 ≤ α) (post : ℝ) (he : a * |post| + 1 ≤ α)
    {k : ℕ} {m mx mxx : ℝ} {s t : P3} (hp : Off ε k m s.p t.p) (hpx : Off ε (k + 2 * α + 2) mx s.px t.px)
    (hpxx : Off ε (k + 4 * α + 5) mxx s.pxx t.pxx) :
    Off ε (k + α + 1) (m * x ^ post) (Mp.postFix1 2 x post s).p (postFix1 A pw 2 x' post t).p ∧
    Off ε (k + 3 * α + 4) (mx * x ^ post + m * (x ^ post * |post| / x)) (Mp.postFix1 2 x post s).px
      (postFix1 A pw 2 x' post t).px ∧
    Off ε (k + 5 * α + 8) (mxx * x ^ post + 2 * mx * (x ^ post * |post| / x) + m * (x ^ post * |post| / x * |post - 1| / x))
      (Mp.postFix1 2 x post s).pxx (postFix1 A pw 2 x' post t).pxx := by
  by_cases h : post = 0
  · simp only [Mp.postFix1, postFix1, h, ne_eq, not_true_eq_false, if_false, Real.rpow_zero, mul_one, abs_zero, zero_div,
      zero_mul, mul_zero, add_zero]
    exact ⟨err_mono h0 h1 (by omega) le_rfl hp, err_mono h0 h1 (by omega) le_rfl hpx,
      err_mono h0 h1 (by omega) le_rfl hpxx⟩
  · have hf := off_pow h0 h1 hP hx hn post he
    have hfx := (off_pow1 h0 h1 hA hP hx hn ha post he).2
    have hfxx := off_pow2 h0 h1 hA hx hn ha post hfx
    have h2 := off_exact h0 h1 0 (2 : ℝ)
    rw [abs_of_pos (by norm_num : (0 : ℝ) < 2)] at h2
    simp only [Mp.postFix1, postFix1, h, ne_eq, not_false_eq_true, if_true, gt_iff_lt, Nat.zero_lt_two, Nat.one_lt_two,
      mul_comm post]
    refine ⟨?_, ?_, ?_⟩
    · exact err_mono h0 h1 (by omega) le_rfl (off_mul h0 h1 hA hp hf)
    · exact err_mono h0 h1 (by omega) le_rfl (off_add h0 h1 hA (off_mul h0 h1 hA hpx hf) (off_mul h0 h1 hA hp hfx))
    · exact err_mono h0 h1 (by omega) le_rfl (off_add h0 h1 hA (off_add h0 h1 hA (off_mul h0 h1 hA hpxx hf)
        (off_mul h0 h1 hA (off_mul h0 h1 hA h2 hpx) hfx)) (off_mul h0 h1 hA hp hfxx))

theorem sum_congr {l : List (Nat × ℝ)} {f g : Nat × ℝ → ℝ} (h : ∀ t ∈ l, f t = g t) : (l.map f).sum = (l.map g).sum := by
  rw [List.map_congr_left h]

theorem sum_scale (l : List (Nat × ℝ)) (f : Nat × ℝ → ℝ) (a : ℝ) : (l.map f).sum * a = (l.map fun t => f t * a).sum := by
  rw [List.sum_map_mul_right]

theorem sum_plus (l : List (Nat × ℝ)) (f g : Nat × ℝ → ℝ) :
    (l.map f).sum + (l.map g).sum = (l.map fun t => f t + g t).sum := by
  rw [List.sum_map_add]

/-- The exponents do not blow up the roundings of the argument. -/
def Mild1 (a α : ℕ) (g : Group1) : Prop := a * |g.pre| + 1 ≤ α ∧ a * |g.post| + 1 ≤ α

/-- One group: the roundings are counted, and the sizes are those of the specification. -/
theorem group_off (h0 : 0 ≤ ε) (h1 : ε < 1) (hA : Accurate ε A) {pw : ℝ → ℝ → ℝ} (hP : Powers ε pw) {x x' : ℝ} (hx : 0 < x)
    {a α : ℕ} (hxn : Near ε a x x') (ha : a + 1 ≤ α) (g : Group1) (hg : Sorted1 g) (he : Mild1 a α g)
    (n : ℕ) (hn : ∀ t ∈ g.terms, t.1 ≤ n) :
    Off ε ((n + 1) * (α + 2) + α + 1) (size0 [g] x) (Mp.Props.evalG1 2 g x).p (evalG1 A pw 2 g x').p ∧
    Off ε ((n + 1) * (α + 2) + 3 * α + 4) (size1 [g] x) (Mp.Props.evalG1 2 g x).px (evalG1 A pw 2 g x').px ∧
    Off ε ((n + 1) * (α + 2) + 5 * α + 8) (size2 [g] x) (Mp.Props.evalG1 2 g x).pxx (evalG1 A pw 2 g x').pxx := by
  set X := x ^ g.pre with hXd
  have hXpos : 0 < X := Real.rpow_pos_of_pos hx _
  set top := (g.terms.head?.map Prod.fst).getD 0 with htop
  have htn : top ≤ n := by
    rw [htop]
    cases ht : g.terms with
    | nil => simp
    | cons p r => simpa using hn p (by rw [ht]; simp)
  have hlt : ∀ t ∈ sized g.terms, t.1 < top + 1 := by
    intro t ht
    obtain ⟨u, hu, rfl⟩ := List.mem_map.mp ht
    obtain ⟨hne, hs⟩ := hg
    rw [htop]
    cases hgt : g.terms with
    | nil => exact absurd hgt hne
    | cons p r =>
      rw [hgt] at hu hs
      simp only [List.head?_cons, Option.map_some, Option.getD_some]
      rcases List.mem_cons.mp hu with rfl | hu
      · omega
      · have := (List.pairwise_cons.mp hs).1 u hu
        omega
  have hsort : (sized g.terms).Pairwise fun a b => b.1 < a.1 := by
    rw [sized, List.pairwise_map]
    exact hg.2
  -- the loop
  have hXoff : Off ε α X X (preExp A pw 2 x' g.pre).p := (preExp_off h0 h1 hA hP hx hxn ha g.pre he.1).1
  have hloop := loop_off h0 h1 hA hXoff (top + 1) g.terms 0 ⟨0, 0, 0⟩ ⟨0, 0, 0⟩ ⟨0, 0, 0⟩
    ⟨off_zero h0 h1 0, off_zero h0 h1 0, off_zero h0 h1 0⟩
  rw [loop_sums (sized g.terms) (top + 1) hsort hlt X] at hloop
  obtain ⟨q1, q2, q3⟩ := pre_off h0 h1 hA hP hx hxn ha g he.1 hloop
  obtain ⟨w1, w2, w3⟩ := post_off h0 h1 hA hP hx hxn ha g.post he.2
    (s := Mp.preFix1 2 g (Mp.preExp 2 x g.pre) _) (t := preFix1 A 2 g.pre (preExp A pw 2 x' g.pre) _) q1 q2 q3
  have hval : (Mp.preExp 2 x g.pre).p = X := Mp.Props.preExp_value 2 x g.pre
  have hpow1 : ∀ i : ℕ, (i : ℝ) * X ^ (i - 1) * X = i * X ^ i := by
    intro i
    cases i with
    | zero => simp
    | succ i => simp only [Nat.add_sub_cancel]; ring
  have hpow2 : ∀ i : ℕ, (i : ℝ) * ((i - 1 : ℕ) * X ^ (i - 1 - 1)) * X * X = i * (i - 1) * X ^ i := by
    intro i
    match i with
    | 0 => simp
    | 1 => simp
    | i + 2 =>
      have : i + 2 - 1 = i + 1 := rfl
      have h2 : i + 2 - 1 - 1 = i := rfl
      rw [this, show i + 1 - 1 = i from rfl]
      push_cast
      ring
  have e0 : ((sized g.terms).map fun t => t.2 * X ^ t.1).sum * x ^ g.post = size0 [g] x := by
    simp only [size0, List.map_cons, List.map_nil, List.sum_cons, List.sum_nil, add_zero, sized, List.map_map,
      Function.comp_def]
    rw [mul_comm]
  have e1 : ((sized g.terms).map fun t => t.2 * (t.1 * X ^ (t.1 - 1))).sum * (X * |g.pre| / x) * x ^ g.post
      + ((sized g.terms).map fun t => t.2 * X ^ t.1).sum * (x ^ g.post * |g.post| / x) = size1 [g] x := by
    simp only [size1, List.map_cons, List.map_nil, List.sum_cons, List.sum_nil, add_zero, sized, List.map_map,
      Function.comp_def]
    rw [mul_comm (x ^ g.post / x)]
    simp only [sum_scale, sum_plus]
    refine sum_congr fun t _ => ?_
    have := hpow1 t.1
    rw [← hXd]
    field_simp
    linear_combination (|t.2| * |g.pre|) * this
  have e2 : (((sized g.terms).map fun t => t.2 * (t.1 * ((t.1 - 1 : ℕ) * X ^ (t.1 - 1 - 1)))).sum * (X * |g.pre| / x) * (X * |g.pre| / x)
      + ((sized g.terms).map fun t => t.2 * (t.1 * X ^ (t.1 - 1))).sum * (X * |g.pre| / x * |g.pre - 1| / x)) * x ^ g.post
      + 2 * (((sized g.terms).map fun t => t.2 * (t.1 * X ^ (t.1 - 1))).sum * (X * |g.pre| / x)) * (x ^ g.post * |g.post| / x)
      + ((sized g.terms).map fun t => t.2 * X ^ t.1).sum * (x ^ g.post * |g.post| / x * |g.post - 1| / x) = size2 [g] x := by
    simp only [size2, List.map_cons, List.map_nil, List.sum_cons, List.sum_nil, add_zero, sized, List.map_map,
      Function.comp_def]
    rw [mul_comm (x ^ g.post / x ^ 2), mul_comm (2 : ℝ)]
    simp only [sum_scale, sum_plus]
    refine sum_congr fun t _ => ?_
    have a1 := hpow1 t.1
    have a2 := hpow2 t.1
    have a3 : g.pre ^ 2 = |g.pre| * |g.pre| := by rw [← pow_two, sq_abs]
    rw [← hXd, a3]
    field_simp
    linear_combination (|t.2| * |g.pre| * |g.pre|) * a2 + (|t.2| * |g.pre| * |g.pre - 1| + 2 * |t.2| * |g.pre| * |g.post|) * a1
  simp only [← hXd] at w1 w2 w3
  rw [e0] at w1
  rw [e1] at w2
  rw [e2] at w3
  unfold Mp.Props.evalG1 evalG1
  rw [← htop, hval]
  have hk : 0 + (top + 1) * (α + 2) ≤ (n + 1) * (α + 2) := by
    rw [zero_add]; exact Nat.mul_le_mul_right _ (by omega)
  exact ⟨err_mono h0 h1 (by omega) le_rfl w1, err_mono h0 h1 (by omega) le_rfl w2, err_mono h0 h1 (by omega) le_rfl w3⟩

/-! ## All groups -/

theorem groups_off (h0 : 0 ≤ ε) (h1 : ε < 1) (hA : Accurate ε A) {pw : ℝ → ℝ → ℝ} (hP : Powers ε pw) {x x' : ℝ} (hx : 0 < x)
    {a α : ℕ} (hxn : Near ε a x x') (ha : a + 1 ≤ α) (n : ℕ) (gs : List Group1) (hg : ∀ g ∈ gs, Sorted1 g)
    (he : ∀ g ∈ gs, Mild1 a α g) (hn : ∀ g ∈ gs, ∀ t ∈ g.terms, t.1 ≤ n) :
    ∀ (k : ℕ) (m m1 m2 : ℝ) (s t : P3), Off ε ((n + 1) * (α + 2) + α + 1 + k) m s.p t.p → Off ε ((n + 1) * (α + 2) + 3 * α + 4 + k) m1 s.px t.px →
      Off ε ((n + 1) * (α + 2) + 5 * α + 8 + k) m2 s.pxx t.pxx → ∃ j, groups1 A pw 2 x' gs t = .ok j ∧
      Off ε ((n + 1) * (α + 2) + α + 1 + (k + gs.length)) (m + size0 gs x) (s.p + (Mp.Props.evalGs1 gs x).p) j.p ∧
      Off ε ((n + 1) * (α + 2) + 3 * α + 4 + (k + gs.length)) (m1 + size1 gs x) (s.px + (Mp.Props.evalGs1 gs x).px) j.px ∧
      Off ε ((n + 1) * (α + 2) + 5 * α + 8 + (k + gs.length)) (m2 + size2 gs x) (s.pxx + (Mp.Props.evalGs1 gs x).pxx) j.pxx := by
  induction gs with
  | nil =>
    intro k m m1 m2 s t a b c
    refine ⟨t, rfl, ?_, ?_, ?_⟩ <;> simpa [size0, size1, size2, Mp.Props.evalGs1]
  | cons g gs ih =>
    intro k m m1 m2 s t a b c
    obtain ⟨w1, w2, w3⟩ := group_off h0 h1 hA hP hx hxn ha g (hg g (by simp)) (he g (by simp)) n (hn g (by simp))
    have q1 := err_mono h0 h1 (l := (n + 1) * (α + 2) + α + 1 + (k + 1)) (by omega) le_rfl (off_add h0 h1 hA a w1)
    have q2 := err_mono h0 h1 (l := (n + 1) * (α + 2) + 3 * α + 4 + (k + 1)) (by omega) le_rfl (off_add h0 h1 hA b w2)
    have q3 := err_mono h0 h1 (l := (n + 1) * (α + 2) + 5 * α + 8 + (k + 1)) (by omega) le_rfl (off_add h0 h1 hA c w3)
    obtain ⟨j, hj, r1, r2, r3⟩ := ih (fun g' h => hg g' (by simp [h])) (fun g' h => he g' (by simp [h])) (fun g' h => hn g' (by simp [h])) (k + 1) _ _ _
      ⟨_, _, _⟩ ⟨A.add t.p (evalG1 A pw 2 g x').p, A.add t.px (evalG1 A pw 2 g x').px, A.add t.pxx (evalG1 A pw 2 g x').pxx⟩
      q1 q2 q3
    refine ⟨j, ?_, ?_, ?_, ?_⟩
    · rw [groups1, group1_eq A pw 2 g x' (hg g (by simp)).1]
      exact hj
    · have e1 : m + size0 (g :: gs) x = m + size0 [g] x + size0 gs x := by simp [size0]; ring
      rw [e1, List.length_cons]
      simp only [Mp.Props.evalGs1]
      rw [← add_assoc s.p, show k + (gs.length + 1) = k + 1 + gs.length by omega]
      exact r1
    · have e1 : m1 + size1 (g :: gs) x = m1 + size1 [g] x + size1 gs x := by simp [size1]; ring
      rw [e1, List.length_cons]
      simp only [Mp.Props.evalGs1]
      rw [← add_assoc s.px, show k + (gs.length + 1) = k + 1 + gs.length by omega]
      exact r2
    · have e1 : m2 + size2 (g :: gs) x = m2 + size2 [g] x + size2 gs x := by simp [size2]; ring
      rw [e1, List.length_cons]
      simp only [Mp.Props.evalGs1]
      rw [← add_assoc s.pxx, show k + (gs.length + 1) = k + 1 + gs.length by omega]
      exact r3

theorem poly_off (h0 : 0 ≤ ε) (h1 : ε < 1) (hA : Accurate ε A) {pw : ℝ → ℝ → ℝ} (hP : Powers ε pw) {x x' : ℝ} (hx : 0 < x)
    {a α : ℕ} (hxn : Near ε a x x') (ha : a + 1 ≤ α) (n : ℕ) (gs : List Group1) (hg : ∀ g ∈ gs, Sorted1 g)
    (he : ∀ g ∈ gs, Mild1 a α g) (hn : ∀ g ∈ gs, ∀ t ∈ g.terms, t.1 ≤ n) :
    ∃ j, poly1 A pw x' gs 2 = .ok j ∧ Off ε ((n + 1) * (α + 2) + α + 1 + gs.length) (size0 gs x) (Mp.Props.evalGs1 gs x).p j.p ∧
      Off ε ((n + 1) * (α + 2) + 3 * α + 4 + gs.length) (size1 gs x) (Mp.Props.evalGs1 gs x).px j.px ∧
      Off ε ((n + 1) * (α + 2) + 5 * α + 8 + gs.length) (size2 gs x) (Mp.Props.evalGs1 gs x).pxx j.pxx := by
  unfold poly1
  split
  · rename_i g
    obtain ⟨w1, w2, w3⟩ := group_off h0 h1 hA hP hx hxn ha g (hg g (by simp)) (he g (by simp)) n (hn g (by simp))
    refine ⟨_, group1_eq A pw 2 g x' (hg g (by simp)).1, ?_, ?_, ?_⟩ <;> simp only [Mp.Props.evalGs1, add_zero]
    · exact err_mono h0 h1 (by omega) le_rfl w1
    · exact err_mono h0 h1 (by omega) le_rfl w2
    · exact err_mono h0 h1 (by omega) le_rfl w3
  · obtain ⟨j, hj, a, b, c⟩ := groups_off h0 h1 hA hP hx hxn ha n gs hg he hn 0 0 0 0 ⟨0, 0, 0⟩ ⟨0, 0, 0⟩
      (off_zero h0 h1 _) (off_zero h0 h1 _) (off_zero h0 h1 _)
    simp only [zero_add] at a b c
    exact ⟨j, hj, a, b, c⟩

/-- **C112.** Evaluated with rounded operations, a polynomial of the documented form with exponents up to `n` and its first two
derivatives are off by no more than about `3 n` roundings of the terms they are made of, whatever the
coefficients, the exponents outside, the number of groups and the positive argument. -/
theorem C112_poly1 (h0 : 0 ≤ ε) (hA : Accurate ε A) {pw : ℝ → ℝ → ℝ} (hP : Powers ε pw) (x : ℝ) (hx : 0 < x)
    (n : ℕ) (gs : List Group1) (hg : ∀ g ∈ gs, Sorted1 g) (hn : ∀ g ∈ gs, ∀ t ∈ g.terms, t.1 ≤ n)
    (hk : ((3 * n + 16 + gs.length : ℕ) : ℝ) * ε ≤ 1e-3) :
    ∃ j, poly1 A pw x gs 2 = .ok j ∧
      |j.p - poly1At gs x| ≤ 1.01 * (3 * n + 5 + gs.length : ℕ) * ε * size0 gs x ∧
      |j.px - deriv (poly1At gs) x| ≤ 1.01 * (3 * n + 10 + gs.length : ℕ) * ε * size1 gs x ∧
      |j.pxx - deriv (deriv (poly1At gs)) x| ≤ 1.01 * (3 * n + 16 + gs.length : ℕ) * ε * size2 gs x := by
  have hle : ∀ l : ℕ, l ≤ 3 * n + 16 + gs.length → (l : ℝ) * ε ≤ 1e-3 := fun l hl =>
    (mul_le_mul_of_nonneg_right (by exact_mod_cast hl) h0).trans hk
  have h1' : ε ≤ 1e-3 := by simpa using hle 1 (by omega)
  have h1 : ε < 1 := by linarith
  obtain ⟨j, hj, a, b, c⟩ := poly_off h0 h1 hA hP hx (near_refl h0 h1 0 x) (α := 1) le_rfl n gs hg
    (fun g _ => by simp [Mild1]) hn
  rw [show (n + 1) * (1 + 2) + 1 + 1 = 3 * n + 5 by ring] at a
  rw [show (n + 1) * (1 + 2) + 3 * 1 + 4 = 3 * n + 10 by ring] at b
  rw [show (n + 1) * (1 + 2) + 5 * 1 + 8 = 3 * n + 16 by ring] at c
  obtain ⟨e, he, hd⟩ := Mp.Props.C46_poly1 gs hg x hx
  rw [Mp.Props.poly1_eq gs x (fun g h => (hg g h).1)] at he
  cases he
  rw [hd.val] at a
  rw [← hd.d1.deriv] at b
  rw [← hd.d2.deriv] at c
  exact ⟨j, hj, err_abs h0 (hle _ (by omega)) h1' a, err_abs h0 (hle _ (by omega)) h1' b, err_abs h0 (hle _ (by omega)) h1' c⟩

/-! ## Lower orders -/

theorem fold1_cut (A : Arith) (d : Nat) (x c : ℝ) (s : P3) :
    fold1 A d x c (P3.cut d s) = P3.cut d (fold1 A 2 x c s) := by
  rcases d with _ | _ | d <;> simp [fold1, P3.cut]

theorem skip1_cut (A : Arith) (d : Nat) (x : ℝ) (s : P3) :
    skip1 A d x (P3.cut d s) = P3.cut d (skip1 A 2 x s) := by
  rcases d with _ | _ | d <;> simp [skip1, P3.cut]

theorem loop1_cut (A : Arith) (d : Nat) (x : ℝ) (n : Nat) (r : List (Nat × ℝ)) (s : P3) :
    loop1 A d x n r (P3.cut d s) = P3.cut d (loop1 A 2 x n r s) := by
  induction n generalizing r s with
  | zero => simp [loop1]
  | succ n ih =>
    cases r with
    | nil => rw [loop1, loop1, skip1_cut, ih]
    | cons p r =>
      obtain ⟨i, c⟩ := p
      rw [loop1, loop1]
      split_ifs
      · rw [fold1_cut, ih]
      · rw [skip1_cut, ih]

theorem preExp_value (A : Arith) (pw : ℝ → ℝ → ℝ) (d : Nat) (x pre : ℝ) :
    (preExp A pw d x pre).p = (preExp A pw 2 x pre).p := by
  by_cases h : pre = 1 <;> simp [preExp, h]

theorem preFix1_cut (A : Arith) (pw : ℝ → ℝ → ℝ) (d : Nat) (pre : ℝ) (x : ℝ) (s : P3) :
    preFix1 A d pre (preExp A pw d x pre) (P3.cut d s) = P3.cut d (preFix1 A 2 pre (preExp A pw 2 x pre) s) := by
  unfold preFix1 preExp
  by_cases h : pre = 1
  · simp [h]
  · rcases d with _ | _ | d <;> simp [P3.cut, h]

theorem postFix1_cut (A : Arith) (pw : ℝ → ℝ → ℝ) (d : Nat) (x post : ℝ) (s : P3) :
    postFix1 A pw d x post (P3.cut d s) = P3.cut d (postFix1 A pw 2 x post s) := by
  unfold postFix1
  by_cases h : post = 0
  · simp [h]
  · rcases d with _ | _ | d <;> simp [P3.cut, h]

theorem group1_cut (A : Arith) (pw : ℝ → ℝ → ℝ) (d : Nat) (x : ℝ) (g : Group1) :
    group1 A pw d x g = (group1 A pw 2 x g).map (P3.cut d) := by
  unfold group1
  cases g.terms with
  | nil => rfl
  | cons p r =>
    simp only [Except.map]
    rw [← Mp.Props.zero_cut d, preExp_value A pw d, loop1_cut, preFix1_cut, postFix1_cut, Mp.Props.zero_cut d]

theorem groups1_cut (A : Arith) (pw : ℝ → ℝ → ℝ) (d : Nat) (x : ℝ) (gs : List Group1) (s : P3) :
    groups1 A pw d x gs (P3.cut d s) = (groups1 A pw 2 x gs s).map (P3.cut d) := by
  induction gs generalizing s with
  | nil => rfl
  | cons g gs ih =>
    rw [groups1, groups1, group1_cut]
    cases group1 A pw 2 x g with
    | error e => rfl
    | ok q =>
      simp only [Except.map, Bind.bind, Except.bind] at ih ⊢
      rw [← ih]
      congr 1
      rcases d with _ | _ | d <;> simp [P3.cut]

/-- **C112.** Asking for fewer derivatives returns the very same rounded numbers, with the others 0. -/
theorem C112_order1 (A : Arith) (pw : ℝ → ℝ → ℝ) (d : Nat) (x : ℝ) (gs : List Group1) :
    poly1 A pw x gs d = (poly1 A pw x gs 2).map (P3.cut d) := by
  unfold poly1
  split
  · exact group1_cut A pw d x _
  · rw [← groups1_cut, Mp.Props.zero_cut]

/-- **C112.** Without rounding, this is the evaluation of C46. -/
theorem C112_exact1 (x : ℝ) (gs : List Group1) (d : Nat) :
    poly1 exact (fun x y => x ^ y) x gs d = Mp.poly1 x gs d := by
  have hf : ∀ X c s, fold1 exact d X (exact.lit c) s = Mp.fold1 d X c s := fun _ _ _ => rfl
  have hk : ∀ X s, skip1 exact d X s = Mp.fold1 d X 0 s := by
    intro X s
    simp [skip1, Mp.fold1, exact]
  have hl : ∀ (n : ℕ) (X : ℝ) (r : List (Nat × ℝ)) (s : P3), loop1 exact d X n r s = Mp.loop1 d X n r s := by
    intro n X
    induction n with
    | zero => intro r s; simp [loop1, Mp.loop1]
    | succ n ih =>
      intro r s
      match r with
      | [] => simp [loop1, Mp.loop1, ih, hk]
      | (i, c) :: r =>
        by_cases hi : i = n <;> simp [loop1, Mp.loop1, ih, hf, hk, hi]
  have hg : ∀ g, group1 exact (fun x y => x ^ y) d x g = Mp.group1 d x g := by
    intro g
    unfold group1 Mp.group1
    cases g.terms with
    | nil => rfl
    | cons p r =>
      simp only [hl]
      rfl
  have hgs : ∀ s, groups1 exact (fun x y => x ^ y) d x gs s = Mp.groups1 d x gs s := by
    induction gs with
    | nil => intro s; rfl
    | cons g gs ih =>
      intro s
      rw [groups1, Mp.groups1, hg]
      cases Mp.group1 d x g with
      | error e => rfl
      | ok q => exact ih _
  match gs, hgs with
  | [], h => exact h _
  | [g], _ => exact hg g
  | _ :: _ :: _, h => exact h _

end PyroMat.Float.Props
