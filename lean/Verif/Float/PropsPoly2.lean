import Verif.Float.PropsPoly
import Verif.Float.Poly2

/-!
# C112: polynomials in two variables in floating point
-/

set_option linter.unusedSimpArgs false

namespace PyroMat.Float.Props

open PyroMat PyroMat.Mp PyroMat.Float PyroMat.Float.Spec PyroMat.Mp.Spec

variable {ε : ℝ} {A : Arith}

/-- Value and derivatives after `k` roundings of terms of size `m`. -/
structure Off6 (ε : ℝ) (k : ℕ) (m s t : J6) : Prop where
  p : Off ε k m.p s.p t.p
  px : Off ε k m.px s.px t.px
  py : Off ε k m.py s.py t.py
  pxx : Off ε k m.pxx s.pxx t.pxx
  pxy : Off ε k m.pxy s.pxy t.pxy
  pyy : Off ε k m.pyy s.pyy t.pyy

theorem Off6.zero (h0 : 0 ≤ ε) (h1 : ε < 1) (k : ℕ) :
    Off6 ε k ⟨0, 0, 0, 0, 0, 0⟩ ⟨0, 0, 0, 0, 0, 0⟩ ⟨0, 0, 0, 0, 0, 0⟩ :=
  ⟨off_zero h0 h1 k, off_zero h0 h1 k, off_zero h0 h1 k, off_zero h0 h1 k, off_zero h0 h1 k, off_zero h0 h1 k⟩

theorem Off3.mono (h0 : 0 ≤ ε) (h1 : ε < 1) {k l : ℕ} (hk : k ≤ l) {m s t : P3} (h : Off3 ε k m s t) : Off3 ε l m s t :=
  ⟨err_mono h0 h1 hk le_rfl h.p, err_mono h0 h1 hk le_rfl h.px, err_mono h0 h1 hk le_rfl h.pxx⟩

/-- The terms with positive coefficients. -/
def sized2 (r : List Term2) : List Term2 := r.map fun t => (t.1, t.2.1, |t.2.2|)

/-! ## The loops -/

theorem inner_off (h0 : 0 ≤ ε) (h1 : ε < 1) (hA : Accurate ε A) {α : ℕ} {Y y : ℝ} (hY : Off ε α Y Y y) (ii n : ℕ) :
    ∀ (r : List Term2) (k : ℕ) (m s t : P3), Off3 ε k m s t →
      Off3 ε (k + n * (α + 2)) (Mp.inner 2 Y ii n (sized2 r) m).1 (Mp.inner 2 Y ii n r s).1 (innerY A 2 y ii n r t).1 ∧
      (Mp.inner 2 Y ii n (sized2 r) m).2 = sized2 (Mp.inner 2 Y ii n r s).2 ∧
      (innerY A 2 y ii n r t).2 = (Mp.inner 2 Y ii n r s).2 ∧
      ∀ z ∈ (Mp.inner 2 Y ii n r s).2, z ∈ r := by
  induction n with
  | zero => intro r k m s t h; simpa [Mp.inner, innerY] using h
  | succ n ih =>
    intro r k m s t h
    have e : k + (n + 1) * (α + 2) = k + (α + 2) + n * (α + 2) := by ring
    rw [e]
    match r with
    | [] =>
      simp only [sized2, List.map_nil, Mp.inner, innerY]
      exact ih [] _ _ _ _ (skip_off h0 h1 hA hY h)
    | (i, j, c) :: r =>
      by_cases hi : i = ii ∧ j = n
      · simp only [sized2, List.map_cons, Mp.inner, innerY, if_pos hi]
        obtain ⟨a1, a2, a3, a4⟩ := ih r _ _ _ _ (fold_off h0 h1 hA hY c h)
        exact ⟨a1, a2, a3, fun z hz => List.mem_cons_of_mem _ (a4 z hz)⟩
      · simp only [sized2, List.map_cons, Mp.inner, innerY, if_neg hi]
        exact ih ((i, j, c) :: r) _ _ _ _ (skip_off h0 h1 hA hY h)

theorem fold2_off (h0 : 0 ≤ ε) (h1 : ε < 1) (hA : Accurate ε A) {α k l : ℕ} (hl : l ≤ k) {X x : ℝ} (hX : Off ε α X X x)
    {n q r : P3} (hq : Off3 ε l n q r) {m s t : J6} (h : Off6 ε k m s t) :
    Off6 ε (k + (α + 2)) (Mp.fold2 2 X n m) (Mp.fold2 2 X q s) (fold2 A 2 x r t) := by
  have h2 := off_exact h0 h1 0 (2 : ℝ)
  rw [abs_of_pos (by norm_num : (0 : ℝ) < 2)] at h2
  constructor <;> simp only [Mp.fold2, fold2, gt_iff_lt, Nat.zero_lt_two, Nat.one_lt_two, if_true]
  · exact err_mono h0 h1 (by omega) le_rfl (off_add h0 h1 hA hq.p (off_mul h0 h1 hA hX h.p))
  · exact err_mono h0 h1 (by omega) le_rfl (off_add h0 h1 hA h.p (off_mul h0 h1 hA hX h.px))
  · exact err_mono h0 h1 (by omega) le_rfl (off_add h0 h1 hA hq.px (off_mul h0 h1 hA hX h.py))
  · exact err_mono h0 h1 (by omega) le_rfl (off_add h0 h1 hA (off_mul h0 h1 hA h2 h.px) (off_mul h0 h1 hA hX h.pxx))
  · exact err_mono h0 h1 (by omega) le_rfl (off_add h0 h1 hA h.py (off_mul h0 h1 hA hX h.pxy))
  · exact err_mono h0 h1 (by omega) le_rfl (off_add h0 h1 hA hq.pxx (off_mul h0 h1 hA hX h.pyy))

theorem skip2_off (h0 : 0 ≤ ε) (h1 : ε < 1) (hA : Accurate ε A) {α k : ℕ} {X x : ℝ} (hX : Off ε α X X x)
    {m s t : J6} (h : Off6 ε k m s t) :
    Off6 ε (k + (α + 2)) (Mp.fold2 2 X ⟨0, 0, 0⟩ m) (Mp.fold2 2 X ⟨0, 0, 0⟩ s) (skip2 A 2 x t) := by
  have h2 := off_exact h0 h1 0 (2 : ℝ)
  rw [abs_of_pos (by norm_num : (0 : ℝ) < 2)] at h2
  constructor <;> simp only [Mp.fold2, skip2, gt_iff_lt, Nat.zero_lt_two, Nat.one_lt_two, if_true, zero_add]
  · exact err_mono h0 h1 (by omega) le_rfl (off_mul h0 h1 hA hX h.p)
  · exact err_mono h0 h1 (by omega) le_rfl (off_add h0 h1 hA h.p (off_mul h0 h1 hA hX h.px))
  · exact err_mono h0 h1 (by omega) le_rfl (off_mul h0 h1 hA hX h.py)
  · exact err_mono h0 h1 (by omega) le_rfl (off_add h0 h1 hA (off_mul h0 h1 hA h2 h.px) (off_mul h0 h1 hA hX h.pxx))
  · exact err_mono h0 h1 (by omega) le_rfl (off_add h0 h1 hA h.py (off_mul h0 h1 hA hX h.pxy))
  · exact err_mono h0 h1 (by omega) le_rfl (off_mul h0 h1 hA hX h.pyy)

theorem outer_off (h0 : 0 ≤ ε) (h1 : ε < 1) (hA : Accurate ε A) {α : ℕ} {X x Y y : ℝ} (hX : Off ε α X X x)
    (hY : Off ε α Y Y y) (ny n : ℕ) :
    ∀ (r : List Term2) (k : ℕ) (m s t : J6), (∀ z ∈ r, z.2.1 ≤ ny) → (ny + 1) * (α + 2) ≤ k → Off6 ε k m s t →
      Off6 ε (k + n * (α + 2)) (Mp.outer 2 X Y n (sized2 r) m) (Mp.outer 2 X Y n r s) (outer A 2 x y n r t) := by
  induction n with
  | zero => intro r k m s t _ _ h; simpa [Mp.outer, outer] using h
  | succ n ih =>
    intro r k m s t hr hk h
    have e : k + (n + 1) * (α + 2) = k + (α + 2) + n * (α + 2) := by ring
    rw [e]
    match r with
    | [] =>
      simp only [sized2, List.map_nil, Mp.outer, outer]
      exact ih [] _ _ _ _ (by simp) (by omega) (skip2_off h0 h1 hA hX h)
    | (i, j, c) :: r =>
      by_cases hi : i = n
      · obtain ⟨a1, a2, a3, a4⟩ := inner_off h0 h1 hA hY n (j + 1) ((i, j, c) :: r) 0 ⟨0, 0, 0⟩ ⟨0, 0, 0⟩ ⟨0, 0, 0⟩
          ⟨off_zero h0 h1 0, off_zero h0 h1 0, off_zero h0 h1 0⟩
        have hj : (j + 1) * (α + 2) ≤ (ny + 1) * (α + 2) :=
          Nat.mul_le_mul_right _ (Nat.succ_le_succ (hr (i, j, c) (by simp)))
        have := ih (Mp.inner 2 Y n (j + 1) ((i, j, c) :: r) ⟨0, 0, 0⟩).2 _ _ _ _ (fun z hz => hr z (a4 z hz)) (by omega)
          (fold2_off h0 h1 hA (show 0 + (j + 1) * (α + 2) ≤ k by omega) hX a1 h)
        rw [← a2] at this
        simp only [sized2, List.map_cons] at this ⊢
        simp only [Mp.outer, outer, if_pos hi, a3]
        exact this
      · simp only [sized2, List.map_cons, Mp.outer, outer, if_neg hi]
        exact ih ((i, j, c) :: r) _ _ _ _ hr (by omega) (skip2_off h0 h1 hA hX h)

/-! ## The sizes -/

/-- The derivatives of a natural power. -/
def pd (i : ℕ) (x : ℝ) : ℕ → ℝ
  | 0 => x ^ i
  | 1 => i * x ^ (i - 1)
  | _ => i * ((i - 1 : ℕ) * x ^ (i - 1 - 1))

theorem pd_deriv (i : ℕ) (a : ℕ) (ha : a ≤ 1) (x : ℝ) : HasDerivAt (fun z => pd i z a) (pd i x (a + 1)) x := by
  match a with
  | 0 => exact hasDerivAt_pow i x
  | 1 => exact (hasDerivAt_pow (i - 1) x).const_mul (i : ℝ)

theorem sum2_x (r : List Term2) (a : ℕ) (ha : a ≤ 1) (b : ℕ) (x y : ℝ) :
    HasDerivAt (fun z => (r.map fun t => t.2.2 * pd t.1 z a * pd t.2.1 y b).sum)
      (r.map fun t => t.2.2 * pd t.1 x (a + 1) * pd t.2.1 y b).sum x := by
  induction r with
  | nil => simpa using hasDerivAt_const x (0 : ℝ)
  | cons t r ih =>
    simp only [List.map_cons, List.sum_cons]
    exact (((pd_deriv t.1 a ha x).const_mul t.2.2).mul_const _).add ih

theorem sum2_y (r : List Term2) (a b : ℕ) (hb : b ≤ 1) (x y : ℝ) :
    HasDerivAt (fun z => (r.map fun t => t.2.2 * pd t.1 x a * pd t.2.1 z b).sum)
      (r.map fun t => t.2.2 * pd t.1 x a * pd t.2.1 y (b + 1)).sum y := by
  induction r with
  | nil => simpa using hasDerivAt_const y (0 : ℝ)
  | cons t r ih =>
    simp only [List.map_cons, List.sum_cons]
    exact ((pd_deriv t.2.1 b hb y).const_mul _).add ih

/-- The sum of the derivatives of the terms. -/
noncomputable def sums (r : List Term2) (x y : ℝ) (a b : ℕ) : ℝ := (r.map fun t => t.2.2 * pd t.1 x a * pd t.2.1 y b).sum

/-- The nested Horner scheme computes the sum and its derivatives. -/
theorem outer_sums (r : List Term2) (n : ℕ) (hs : r.Pairwise Mp.Props.After) (hn : ∀ t ∈ r, t.1 < n) (X Y : ℝ) :
    Mp.outer 2 X Y n r ⟨0, 0, 0, 0, 0, 0⟩ =
      ⟨sums r X Y 0 0, sums r X Y 1 0, sums r X Y 0 1, sums r X Y 2 0, sums r X Y 1 1, sums r X Y 0 2⟩ := by
  have hj : ∀ X Y, Mp.Jet2 (fun X Y => Mp.outer 2 X Y n r ⟨0, 0, 0, 0, 0, 0⟩) X Y := fun X Y =>
    Mp.Props.outer_jet n r (Jet2.const 0 X Y)
  have hv : ∀ X Y : ℝ, (Mp.outer 2 X Y n r ⟨0, 0, 0, 0, 0, 0⟩).p = sums r X Y 0 0 := by
    intro X Y
    rw [Mp.Props.outer_value 2 X Y n r _ hs hn]
    simp [sums, pd]
  have hx : ∀ X Y : ℝ, (Mp.outer 2 X Y n r ⟨0, 0, 0, 0, 0, 0⟩).px = sums r X Y 1 0 := by
    intro X Y
    have := (hj X Y).dx
    simp only [hv] at this
    exact this.unique (sum2_x r 0 (by omega) 0 X Y)
  have hy : ∀ X Y : ℝ, (Mp.outer 2 X Y n r ⟨0, 0, 0, 0, 0, 0⟩).py = sums r X Y 0 1 := by
    intro X Y
    have := (hj X Y).dy
    simp only [hv] at this
    exact this.unique (sum2_y r 0 0 (by omega) X Y)
  have hxx : (Mp.outer 2 X Y n r ⟨0, 0, 0, 0, 0, 0⟩).pxx = sums r X Y 2 0 := by
    have := (hj X Y).dxx
    simp only [hx] at this
    exact this.unique (sum2_x r 1 (by omega) 0 X Y)
  have hxy : (Mp.outer 2 X Y n r ⟨0, 0, 0, 0, 0, 0⟩).pxy = sums r X Y 1 1 := by
    have := (hj X Y).dxy
    simp only [hx] at this
    exact this.unique (sum2_y r 1 0 (by omega) X Y)
  have hyy : (Mp.outer 2 X Y n r ⟨0, 0, 0, 0, 0, 0⟩).pyy = sums r X Y 0 2 := by
    have := (hj X Y).dyy
    simp only [hy] at this
    exact this.unique (sum2_y r 0 1 (by omega) X Y)
  rw [← hv X Y, ← hx X Y, ← hy X Y, ← hxx, ← hxy, ← hyy]

/-! ## A group -/

/-- The value computed for a group. -/
noncomputable def evalG2 (A : Arith) (pw : ℝ → ℝ → ℝ) (d : Nat) (g : Group2) (x y : ℝ) : J6 :=
  postY A pw d y g.posty (postX A pw d x g.postx (preFix2 A d g.prex (preExp A pw d x g.prex) (preExp A pw d y g.prey)
    (outer A d (preExp A pw d x g.prex).p (preExp A pw d y g.prey).p
      ((g.terms.head?.map Prod.fst).getD 0 + 1) g.terms ⟨0, 0, 0, 0, 0, 0⟩)))

theorem group2_eq (A : Arith) (pw : ℝ → ℝ → ℝ) (d : Nat) (g : Group2) (x y : ℝ) (h : g.terms ≠ []) :
    group2 A pw d x y g = .ok (evalG2 A pw d g x y) := by
  unfold group2 evalG2
  cases ht : g.terms with
  | nil => exact absurd ht h
  | cons p r => rfl

/-- The exponents do not blow up the roundings of the arguments. -/
def Mild2 (a α : ℕ) (g : Group2) : Prop :=
  (a * |g.prex| + 1 ≤ α ∧ a * |g.postx| + 1 ≤ α) ∧ a * |g.prey| + 1 ≤ α ∧ a * |g.posty| + 1 ≤ α

/-- Value and derivatives with counts of their own. -/
structure Offs (ε : ℝ) (k kx ky kxx kxy kyy : ℕ) (m s t : J6) : Prop where
  p : Off ε k m.p s.p t.p
  px : Off ε kx m.px s.px t.px
  py : Off ε ky m.py s.py t.py
  pxx : Off ε kxx m.pxx s.pxx t.pxx
  pxy : Off ε kxy m.pxy s.pxy t.pxy
  pyy : Off ε kyy m.pyy s.pyy t.pyy

/-- Sizes after the pre-exponentials. -/
theorem pre2_off (h0 : 0 ≤ ε) (h1 : ε < 1) (hA : Accurate ε A) {pw : ℝ → ℝ → ℝ} (hP : Powers ε pw) {x x' y y' : ℝ} (hx : 0 < x)
    (hy : 0 < y) {a α : ℕ} (hxn : Near ε a x x') (hyn : Near ε a y y') (ha : a + 1 ≤ α) (g : Group2) (hok : Mp.Props.PreOk g)
    (he : Mild2 a α g) {k : ℕ} {m s t : J6} (h : Off6 ε k m s t) {a1 a2 b1 b2 : ℝ} (ea1 : a1 = x ^ g.prex * |g.prex| / x)
    (ea2 : a2 = x ^ g.prex * |g.prex| / x * |g.prex - 1| / x) (eb1 : b1 = y ^ g.prey * |g.prey| / y)
    (eb2 : b2 = y ^ g.prey * |g.prey| / y * |g.prey - 1| / y) :
    Offs ε k (k + 2 * α + 2) (k + 2 * α + 2) (k + 4 * α + 5) (k + 4 * α + 4) (k + 4 * α + 5)
      ⟨m.p, m.px * a1, m.py * b1, m.pxx * a1 * a1 + m.px * a2, m.pxy * a1 * b1, m.pyy * b1 * b1 + m.py * b2⟩
      (Mp.preFix2 2 g (Mp.preExp 2 x g.prex) (Mp.preExp 2 y g.prey) s)
      (preFix2 A 2 g.prex (preExp A pw 2 x' g.prex) (preExp A pw 2 y' g.prey) t) := by
  by_cases hp : g.prex = 1
  · have hp' := hok hp
    have e1 : a1 = 1 := by rw [ea1, hp]; simp [hx.ne']
    have e2 : a2 = 0 := by rw [ea2, hp]; simp
    have e3 : b1 = 1 := by rw [eb1, hp']; simp [hy.ne']
    have e4 : b2 = 0 := by rw [eb2, hp']; simp
    rw [e1, e2, e3, e4]
    constructor <;>
      simp only [Mp.preFix2, preFix2, hp, ne_eq, not_true_eq_false, if_false, mul_one, mul_zero, add_zero]
    · exact h.p
    · exact err_mono h0 h1 (by omega) le_rfl h.px
    · exact err_mono h0 h1 (by omega) le_rfl h.py
    · exact err_mono h0 h1 (by omega) le_rfl h.pxx
    · exact err_mono h0 h1 (by omega) le_rfl h.pxy
    · exact err_mono h0 h1 (by omega) le_rfl h.pyy
  · obtain ⟨-, hx1, hx2⟩ := preExp_off h0 h1 hA hP hx hxn ha g.prex he.1.1
    obtain ⟨-, hy1, hy2⟩ := preExp_off h0 h1 hA hP hy hyn ha g.prey he.2.1
    rw [← ea1] at hx1
    rw [← ea2] at hx2
    rw [← eb1] at hy1
    rw [← eb2] at hy2
    constructor <;> simp only [Mp.preFix2, preFix2, hp, ne_eq, not_false_eq_true, if_true, gt_iff_lt, Nat.zero_lt_two,
      Nat.one_lt_two]
    · exact h.p
    · exact err_mono h0 h1 (by omega) le_rfl (off_mul h0 h1 hA h.px hx1)
    · exact err_mono h0 h1 (by omega) le_rfl (off_mul h0 h1 hA h.py hy1)
    · exact err_mono h0 h1 (by omega) le_rfl (off_add h0 h1 hA
        (off_mul h0 h1 hA (off_mul h0 h1 hA h.pxx hx1) hx1) (off_mul h0 h1 hA h.px hx2))
    · exact err_mono h0 h1 (by omega) le_rfl (off_mul h0 h1 hA (off_mul h0 h1 hA h.pxy hx1) hy1)
    · exact err_mono h0 h1 (by omega) le_rfl (off_add h0 h1 hA
        (off_mul h0 h1 hA (off_mul h0 h1 hA h.pyy hy1) hy1) (off_mul h0 h1 hA h.py hy2))

/-- Sizes after the x post-exponential. -/
theorem postX_off (h0 : 0 ≤ ε) (h1 : ε < 1) (hA : Accurate ε A) {pw : ℝ → ℝ → ℝ} (hP : Powers ε pw) {x x' : ℝ} (hx : 0 < x)
    {a α : ℕ} (hn : Near ε a x x') (ha : a + 1 ≤ α) (post : ℝ) (he : a * |post| + 1 ≤ α) {k : ℕ} {m s t : J6}
    (h : Offs ε k (k + 2 * α + 2) (k + 2 * α + 2) (k + 4 * α + 5) (k + 4 * α + 4) (k + 4 * α + 5) m s t)
    {f f1 f2 : ℝ} (ef : f = x ^ post) (ef1 : f1 = x ^ post * |post| / x) (ef2 : f2 = x ^ post * |post| / x * |post - 1| / x) :
    Offs ε (k + α + 1) (k + 3 * α + 4) (k + 3 * α + 3) (k + 5 * α + 8) (k + 5 * α + 6) (k + 5 * α + 6)
      ⟨m.p * f, m.px * f + m.p * f1, m.py * f, m.pxx * f + 2 * m.px * f1 + m.p * f2, m.pxy * f + m.py * f1, m.pyy * f⟩
      (Mp.postX 2 x post s) (postX A pw 2 x' post t) := by
  by_cases hp : post = 0
  · have e0 : f = 1 := by rw [ef, hp]; simp
    have e1 : f1 = 0 := by rw [ef1, hp]; simp
    have e2 : f2 = 0 := by rw [ef2, hp]; simp
    rw [e0, e1, e2]
    constructor <;> simp only [Mp.postX, postX, hp, ne_eq, not_true_eq_false, if_false, mul_one, mul_zero, add_zero]
    · exact err_mono h0 h1 (by omega) le_rfl h.p
    · exact err_mono h0 h1 (by omega) le_rfl h.px
    · exact err_mono h0 h1 (by omega) le_rfl h.py
    · exact err_mono h0 h1 (by omega) le_rfl h.pxx
    · exact err_mono h0 h1 (by omega) le_rfl h.pxy
    · exact err_mono h0 h1 (by omega) le_rfl h.pyy
  · have hf := off_pow h0 h1 hP hx hn post he
    have hf1 := (off_pow1 h0 h1 hA hP hx hn ha post he).2
    have hf2 := off_pow2 h0 h1 hA hx hn ha post hf1
    have h2 := off_exact h0 h1 0 (2 : ℝ)
    rw [abs_of_pos (by norm_num : (0 : ℝ) < 2)] at h2
    rw [ef, ef1, ef2]
    constructor <;> simp only [Mp.postX, postX, hp, ne_eq, not_false_eq_true, if_true, gt_iff_lt, Nat.zero_lt_two,
      Nat.one_lt_two, mul_comm post]
    · exact err_mono h0 h1 (by omega) le_rfl (off_mul h0 h1 hA h.p hf)
    · exact err_mono h0 h1 (by omega) le_rfl (off_add h0 h1 hA (off_mul h0 h1 hA h.px hf) (off_mul h0 h1 hA h.p hf1))
    · exact err_mono h0 h1 (by omega) le_rfl (off_mul h0 h1 hA h.py hf)
    · exact err_mono h0 h1 (by omega) le_rfl (off_add h0 h1 hA (off_add h0 h1 hA (off_mul h0 h1 hA h.pxx hf)
        (off_mul h0 h1 hA (off_mul h0 h1 hA h2 h.px) hf1)) (off_mul h0 h1 hA h.p hf2))
    · exact err_mono h0 h1 (by omega) le_rfl (off_add h0 h1 hA (off_mul h0 h1 hA h.pxy hf) (off_mul h0 h1 hA h.py hf1))
    · exact err_mono h0 h1 (by omega) le_rfl (off_mul h0 h1 hA h.pyy hf)

/-- Sizes after the y post-exponential. -/
theorem postY_off (h0 : 0 ≤ ε) (h1 : ε < 1) (hA : Accurate ε A) {pw : ℝ → ℝ → ℝ} (hP : Powers ε pw) {y y' : ℝ} (hy : 0 < y)
    {a α : ℕ} (hn : Near ε a y y') (ha : a + 1 ≤ α) (post : ℝ) (he : a * |post| + 1 ≤ α) {k : ℕ} {m s t : J6}
    (h : Offs ε (k + α + 1) (k + 3 * α + 4) (k + 3 * α + 3) (k + 5 * α + 8) (k + 5 * α + 6) (k + 5 * α + 6) m s t)
    {f f1 f2 : ℝ} (ef : f = y ^ post) (ef1 : f1 = y ^ post * |post| / y) (ef2 : f2 = y ^ post * |post| / y * |post - 1| / y) :
    Offs ε (k + 2 * α + 2) (k + 4 * α + 5) (k + 4 * α + 5) (k + 6 * α + 9) (k + 6 * α + 9) (k + 6 * α + 9)
      ⟨m.p * f, m.px * f, m.py * f + m.p * f1, m.pxx * f, m.pxy * f + m.px * f1, m.pyy * f + 2 * m.py * f1 + m.p * f2⟩
      (Mp.postY 2 y post s) (postY A pw 2 y' post t) := by
  by_cases hp : post = 0
  · have e0 : f = 1 := by rw [ef, hp]; simp
    have e1 : f1 = 0 := by rw [ef1, hp]; simp
    have e2 : f2 = 0 := by rw [ef2, hp]; simp
    rw [e0, e1, e2]
    constructor <;> simp only [Mp.postY, postY, hp, ne_eq, not_true_eq_false, if_false, mul_one, mul_zero, add_zero]
    · exact err_mono h0 h1 (by omega) le_rfl h.p
    · exact err_mono h0 h1 (by omega) le_rfl h.px
    · exact err_mono h0 h1 (by omega) le_rfl h.py
    · exact err_mono h0 h1 (by omega) le_rfl h.pxx
    · exact err_mono h0 h1 (by omega) le_rfl h.pxy
    · exact err_mono h0 h1 (by omega) le_rfl h.pyy
  · have hf := off_pow h0 h1 hP hy hn post he
    have hf1 := (off_pow1 h0 h1 hA hP hy hn ha post he).2
    have hf2 := off_pow2 h0 h1 hA hy hn ha post hf1
    have h2 := off_exact h0 h1 0 (2 : ℝ)
    rw [abs_of_pos (by norm_num : (0 : ℝ) < 2)] at h2
    rw [ef, ef1, ef2]
    constructor <;> simp only [Mp.postY, postY, hp, ne_eq, not_false_eq_true, if_true, gt_iff_lt, Nat.zero_lt_two,
      Nat.one_lt_two, mul_comm post]
    · exact err_mono h0 h1 (by omega) le_rfl (off_mul h0 h1 hA h.p hf)
    · exact err_mono h0 h1 (by omega) le_rfl (off_mul h0 h1 hA h.px hf)
    · exact err_mono h0 h1 (by omega) le_rfl (off_add h0 h1 hA (off_mul h0 h1 hA h.py hf) (off_mul h0 h1 hA h.p hf1))
    · exact err_mono h0 h1 (by omega) le_rfl (off_mul h0 h1 hA h.pxx hf)
    · exact err_mono h0 h1 (by omega) le_rfl (off_add h0 h1 hA (off_mul h0 h1 hA h.pxy hf) (off_mul h0 h1 hA h.px hf1))
    · exact err_mono h0 h1 (by omega) le_rfl (off_add h0 h1 hA (off_add h0 h1 hA (off_mul h0 h1 hA h.pyy hf)
        (off_mul h0 h1 hA (off_mul h0 h1 hA h2 h.py) hf1)) (off_mul h0 h1 hA h.p hf2))

/-! ## What the derivatives of a power bring down -/

theorem weight_one {x : ℝ} (hx : 0 < x) (pre post : ℝ) (i : ℕ) :
    pd i (x ^ pre) 1 * (x ^ pre * |pre| / x) * x ^ post + pd i (x ^ pre) 0 * (x ^ post * |post| / x) =
      x ^ post / x ^ 1 * (weight pre post i 1 * (x ^ pre) ^ i) := by
  have hp : (i : ℝ) * (x ^ pre) ^ (i - 1) * x ^ pre = i * (x ^ pre) ^ i := by
    cases i with
    | zero => simp
    | succ i => simp only [Nat.add_sub_cancel]; ring
  simp only [pd, weight]
  field_simp
  linear_combination |pre| * hp

theorem weight_two {x : ℝ} (hx : 0 < x) (pre post : ℝ) (i : ℕ) :
    (pd i (x ^ pre) 2 * (x ^ pre * |pre| / x) * (x ^ pre * |pre| / x)
      + pd i (x ^ pre) 1 * (x ^ pre * |pre| / x * |pre - 1| / x)) * x ^ post
      + 2 * (pd i (x ^ pre) 1 * (x ^ pre * |pre| / x)) * (x ^ post * |post| / x)
      + pd i (x ^ pre) 0 * (x ^ post * |post| / x * |post - 1| / x) =
      x ^ post / x ^ 2 * (weight pre post i 2 * (x ^ pre) ^ i) := by
  have a1 : (i : ℝ) * (x ^ pre) ^ (i - 1) * x ^ pre = i * (x ^ pre) ^ i := by
    cases i with
    | zero => simp
    | succ i => simp only [Nat.add_sub_cancel]; ring
  have a2 : (i : ℝ) * ((i - 1 : ℕ) * (x ^ pre) ^ (i - 1 - 1)) * x ^ pre * x ^ pre = i * (i - 1) * (x ^ pre) ^ i := by
    match i with
    | 0 => simp
    | 1 => simp
    | i + 2 =>
      rw [show i + 2 - 1 = i + 1 from rfl, show i + 1 - 1 = i from rfl]
      push_cast
      ring
  have a3 : pre ^ 2 = |pre| * |pre| := by rw [← pow_two, sq_abs]
  simp only [pd, weight]
  rw [a3]
  field_simp
  linear_combination (|pre| * |pre|) * a2 + (|pre| * |pre - 1| + 2 * |pre| * |post|) * a1

theorem sums_congr {l : List Term2} {f g : Term2 → ℝ} (h : ∀ t ∈ l, f t = g t) : (l.map f).sum = (l.map g).sum := by
  rw [List.map_congr_left h]

theorem sums_scale (l : List Term2) (f : Term2 → ℝ) (a : ℝ) : (l.map f).sum * a = (l.map fun t => f t * a).sum := by
  rw [List.sum_map_mul_right]

theorem sums_plus (l : List Term2) (f g : Term2 → ℝ) :
    (l.map f).sum + (l.map g).sum = (l.map fun t => f t + g t).sum := by
  rw [List.sum_map_add]

/-- One group: the roundings are counted, and the sizes are those of the specification. -/
theorem group2_off (h0 : 0 ≤ ε) (h1 : ε < 1) (hA : Accurate ε A) {pw : ℝ → ℝ → ℝ} (hP : Powers ε pw) {x x' y y' : ℝ}
    (hx : 0 < x) (hy : 0 < y) {a α : ℕ} (hxn : Near ε a x x') (hyn : Near ε a y y') (ha : a + 1 ≤ α) (g : Group2)
    (hg : Sorted2 g) (hok : Mp.Props.PreOk g) (he : Mild2 a α g) (nx ny : ℕ) (hn : ∀ t ∈ g.terms, t.1 ≤ nx ∧ t.2.1 ≤ ny)
    {k : ℕ} (hk : k = (nx + ny + 2) * (α + 2)) :
    Offs ε (k + 2 * α + 2) (k + 4 * α + 5) (k + 4 * α + 5) (k + 6 * α + 9) (k + 6 * α + 9) (k + 6 * α + 9)
      ⟨sizeAt 0 0 [g] x y, sizeAt 1 0 [g] x y, sizeAt 0 1 [g] x y, sizeAt 2 0 [g] x y, sizeAt 1 1 [g] x y,
        sizeAt 0 2 [g] x y⟩ (Mp.Props.evalG2 2 g x y) (evalG2 A pw 2 g x' y') := by
  set top := (g.terms.head?.map Prod.fst).getD 0 with htop
  have htn : top ≤ nx := by
    rw [htop]
    cases ht : g.terms with
    | nil => simp
    | cons p r => simpa using (hn p (by rw [ht]; simp)).1
  have hlt : ∀ t ∈ sized2 g.terms, t.1 < top + 1 := by
    intro t ht
    obtain ⟨u, hu, rfl⟩ := List.mem_map.mp ht
    obtain ⟨hne, hs⟩ := hg
    rw [htop]
    cases hgt : g.terms with
    | nil => exact absurd hgt hne
    | cons p r =>
      rw [hgt] at hu hs
      simp only [List.head?_cons, Option.map_some, Option.getD_some]
      rcases List.mem_cons.mp hu with rfl | hu
      · omega
      · have := (List.pairwise_cons.mp hs).1 u hu
        omega
  have hsort : (sized2 g.terms).Pairwise Mp.Props.After := by
    rw [sized2, List.pairwise_map]
    exact hg.2
  have hX := (preExp_off h0 h1 hA hP hx hxn ha g.prex he.1.1).1
  have hY := (preExp_off h0 h1 hA hP hy hyn ha g.prey he.2.1).1
  have hloop := outer_off h0 h1 hA hX hY ny (top + 1) g.terms ((ny + 1) * (α + 2)) ⟨0, 0, 0, 0, 0, 0⟩ ⟨0, 0, 0, 0, 0, 0⟩
    ⟨0, 0, 0, 0, 0, 0⟩ (fun z hz => (hn z hz).2) le_rfl (Off6.zero h0 h1 _)
  rw [outer_sums (sized2 g.terms) (top + 1) hsort hlt] at hloop
  have hkk : (ny + 1) * (α + 2) + (top + 1) * (α + 2) ≤ k := by
    rw [hk, ← Nat.add_mul]; exact Nat.mul_le_mul_right _ (by omega)
  have w := postY_off h0 h1 hA hP hy hyn ha g.posty he.2.2 (postX_off h0 h1 hA hP hx hxn ha g.postx he.1.2
    (pre2_off h0 h1 hA hP hx hy hxn hyn ha g hok he hloop rfl rfl rfl rfl) rfl rfl rfl) rfl rfl rfl
  have hvx : (Mp.preExp 2 x g.prex).p = x ^ g.prex := Mp.Props.preExp_value 2 x g.prex
  have hvy : (Mp.preExp 2 y g.prey).p = y ^ g.prey := Mp.Props.preExp_value 2 y g.prey
  have hev : Mp.Props.evalG2 2 g x y = Mp.postY 2 y g.posty (Mp.postX 2 x g.postx (Mp.preFix2 2 g (Mp.preExp 2 x g.prex)
      (Mp.preExp 2 y g.prey) (Mp.outer 2 (x ^ g.prex) (y ^ g.prey) (top + 1) g.terms ⟨0, 0, 0, 0, 0, 0⟩))) := by
    unfold Mp.Props.evalG2
    rw [← htop, hvx, hvy]
  have hef : evalG2 A pw 2 g x' y' = postY A pw 2 y' g.posty (postX A pw 2 x' g.postx (preFix2 A 2 g.prex
      (preExp A pw 2 x' g.prex) (preExp A pw 2 y' g.prey) (outer A 2 (preExp A pw 2 x' g.prex).p (preExp A pw 2 y' g.prey).p
      (top + 1) g.terms ⟨0, 0, 0, 0, 0, 0⟩))) := rfl
  rw [hev, hef]
  have e0 : ∀ (z pre post : ℝ) (i : ℕ), z ^ post / z ^ 0 * (weight pre post i 0 * (z ^ pre) ^ i) = pd i (z ^ pre) 0 * z ^ post := by
    intro z pre post i
    simp [weight, pd, mul_comm]
  have hsz : ∀ a b, sizeAt a b [g] x y = (g.terms.map fun t => |t.2.2| *
      (x ^ g.postx / x ^ a * (weight g.prex g.postx t.1 a * (x ^ g.prex) ^ t.1)) *
      (y ^ g.posty / y ^ b * (weight g.prey g.posty t.2.1 b * (y ^ g.prey) ^ t.2.1))).sum := by
    intro a b
    simp only [sizeAt, List.map_cons, List.map_nil, List.sum_cons, List.sum_nil, add_zero]
    rw [mul_comm, sums_scale]
    refine sums_congr fun t _ => ?_
    ring
  have u1 := fun i => weight_one hx g.prex g.postx i
  have u2 := fun i => weight_two hx g.prex g.postx i
  have v1 := fun i => weight_one hy g.prey g.posty i
  have v2 := fun i => weight_two hy g.prey g.posty i
  have hs : ∀ a b, sums (sized2 g.terms) (x ^ g.prex) (y ^ g.prey) a b =
      (g.terms.map fun t => |t.2.2| * pd t.1 (x ^ g.prex) a * pd t.2.1 (y ^ g.prey) b).sum := by
    intro a b
    simp only [sums, sized2, List.map_map, Function.comp_def]
  constructor
  · refine err_mono h0 h1 (by omega) (le_of_eq ?_) w.p
    simp only [hs, hsz, sums_scale, sums_plus, e0]
    exact sums_congr fun t _ => by ring
  · refine err_mono h0 h1 (by omega) (le_of_eq ?_) w.px
    simp only [hs, hsz, sums_scale, sums_plus, e0, ← u1]
    exact sums_congr fun t _ => by ring
  · refine err_mono h0 h1 (by omega) (le_of_eq ?_) w.py
    simp only [hs, hsz, sums_scale, sums_plus, e0, ← v1]
    exact sums_congr fun t _ => by ring
  · refine err_mono h0 h1 (by omega) (le_of_eq ?_) w.pxx
    simp only [hs, hsz, mul_comm (2 : ℝ), sums_scale, sums_plus, e0, ← u2]
    exact sums_congr fun t _ => by ring
  · refine err_mono h0 h1 (by omega) (le_of_eq ?_) w.pxy
    simp only [hs, hsz, sums_scale, sums_plus, e0, ← u1, ← v1]
    exact sums_congr fun t _ => by ring
  · refine err_mono h0 h1 (by omega) (le_of_eq ?_) w.pyy
    simp only [hs, hsz, mul_comm (2 : ℝ), sums_scale, sums_plus, e0, ← v2]
    exact sums_congr fun t _ => by ring

/-! ## All groups -/

theorem sizeAt_cons (a b : ℕ) (g : Group2) (gs : List Group2) (x y : ℝ) :
    sizeAt a b (g :: gs) x y = sizeAt a b [g] x y + sizeAt a b gs x y := by
  simp [sizeAt]

/-- All sizes. -/
noncomputable def sizes (gs : List Group2) (x y : ℝ) : J6 :=
  ⟨sizeAt 0 0 gs x y, sizeAt 1 0 gs x y, sizeAt 0 1 gs x y, sizeAt 2 0 gs x y, sizeAt 1 1 gs x y, sizeAt 0 2 gs x y⟩

/-- Adding one more. -/
theorem Offs.acc (h0 : 0 ≤ ε) (h1 : ε < 1) (hA : Accurate ε A) {k kx ky kxx kxy kyy : ℕ} {m s t m' s' t' : J6}
    (h : Offs ε k kx ky kxx kxy kyy m s t) (h' : Offs ε k kx ky kxx kxy kyy m' s' t') :
    Offs ε (k + 1) (kx + 1) (ky + 1) (kxx + 1) (kxy + 1) (kyy + 1) (m.add m') (s.add s') (acc6 A 2 t t') := by
  constructor <;> simp only [J6.add, acc6, gt_iff_lt, Nat.zero_lt_two, Nat.one_lt_two, if_true]
  · exact err_mono h0 h1 (by omega) le_rfl (off_add h0 h1 hA h.p h'.p)
  · exact err_mono h0 h1 (by omega) le_rfl (off_add h0 h1 hA h.px h'.px)
  · exact err_mono h0 h1 (by omega) le_rfl (off_add h0 h1 hA h.py h'.py)
  · exact err_mono h0 h1 (by omega) le_rfl (off_add h0 h1 hA h.pxx h'.pxx)
  · exact err_mono h0 h1 (by omega) le_rfl (off_add h0 h1 hA h.pxy h'.pxy)
  · exact err_mono h0 h1 (by omega) le_rfl (off_add h0 h1 hA h.pyy h'.pyy)

theorem Offs.mono (h0 : 0 ≤ ε) (h1 : ε < 1) {k kx ky kxx kxy kyy : ℕ} {m s t : J6}
    (h : Offs ε k kx ky kxx kxy kyy m s t) {l lx ly lxx lxy lyy : ℕ} (q : k ≤ l) (qx : kx ≤ lx) (qy : ky ≤ ly)
    (qxx : kxx ≤ lxx) (qxy : kxy ≤ lxy) (qyy : kyy ≤ lyy) : Offs ε l lx ly lxx lxy lyy m s t :=
  ⟨err_mono h0 h1 q le_rfl h.p, err_mono h0 h1 qx le_rfl h.px, err_mono h0 h1 qy le_rfl h.py,
    err_mono h0 h1 qxx le_rfl h.pxx, err_mono h0 h1 qxy le_rfl h.pxy, err_mono h0 h1 qyy le_rfl h.pyy⟩

theorem groups2_off (h0 : 0 ≤ ε) (h1 : ε < 1) (hA : Accurate ε A) {pw : ℝ → ℝ → ℝ} (hP : Powers ε pw) {x x' y y' : ℝ}
    (hx : 0 < x) (hy : 0 < y) {a α : ℕ} (hxn : Near ε a x x') (hyn : Near ε a y y') (ha : a + 1 ≤ α)
    (nx ny : ℕ) {k : ℕ} (hk : k = (nx + ny + 2) * (α + 2)) (gs : List Group2)
    (hg : ∀ g ∈ gs, Sorted2 g) (hok : ∀ g ∈ gs, Mp.Props.PreOk g) (he : ∀ g ∈ gs, Mild2 a α g)
    (hn : ∀ g ∈ gs, ∀ t ∈ g.terms, t.1 ≤ nx ∧ t.2.1 ≤ ny) :
    ∀ (l : ℕ) (m s t : J6), Offs ε (k + 2 * α + 2 + l) (k + 4 * α + 5 + l) (k + 4 * α + 5 + l) (k + 6 * α + 9 + l)
        (k + 6 * α + 9 + l) (k + 6 * α + 9 + l) m s t → ∃ j, groups2 A pw 2 x' y' gs t = .ok j ∧
      Offs ε (k + 2 * α + 2 + (l + gs.length)) (k + 4 * α + 5 + (l + gs.length)) (k + 4 * α + 5 + (l + gs.length))
        (k + 6 * α + 9 + (l + gs.length)) (k + 6 * α + 9 + (l + gs.length)) (k + 6 * α + 9 + (l + gs.length))
        (m.add (sizes gs x y)) (s.add (Mp.Props.evalGs2 gs x y)) j := by
  induction gs with
  | nil =>
    intro l m s t h
    refine ⟨t, rfl, ?_⟩
    have e1 : m.add (sizes [] x y) = m := by simp [sizes, sizeAt, J6.add]
    have e2 : s.add (Mp.Props.evalGs2 [] x y) = s := by simp [Mp.Props.evalGs2, J6.add]
    rw [e1, e2]
    simpa using h
  | cons g gs ih =>
    intro l m s t h
    have w := group2_off h0 h1 hA hP hx hy hxn hyn ha g (hg g (by simp)) (hok g (by simp)) (he g (by simp)) nx ny
      (hn g (by simp)) hk
    have q := h.acc h0 h1 hA (w.mono h0 h1 (l := k + 2 * α + 2 + l) (lx := k + 4 * α + 5 + l) (ly := k + 4 * α + 5 + l)
      (lxx := k + 6 * α + 9 + l) (lxy := k + 6 * α + 9 + l) (lyy := k + 6 * α + 9 + l)
      (by omega) (by omega) (by omega) (by omega) (by omega) (by omega))
    obtain ⟨j, hj, r⟩ := ih (fun g' h => hg g' (by simp [h])) (fun g' h => hok g' (by simp [h]))
      (fun g' h => he g' (by simp [h])) (fun g' h => hn g' (by simp [h])) (l + 1) _ _ _ q
    refine ⟨j, ?_, ?_⟩
    · rw [groups2, group2_eq A pw 2 g x' y' (hg g (by simp)).1]
      exact hj
    · have e1 : m.add (sizes (g :: gs) x y) = (m.add (sizes [g] x y)).add (sizes gs x y) := by
        simp only [sizes, J6.add, sizeAt_cons _ _ g gs, add_assoc]
      have e2 : s.add (Mp.Props.evalGs2 (g :: gs) x y) = (s.add (Mp.Props.evalG2 2 g x y)).add (Mp.Props.evalGs2 gs x y) := by
        simp only [Mp.Props.evalGs2, J6.add, add_assoc]
      rw [e1, e2, List.length_cons, show l + (gs.length + 1) = l + 1 + gs.length by omega]
      exact r

theorem poly2_off (h0 : 0 ≤ ε) (h1 : ε < 1) (hA : Accurate ε A) {pw : ℝ → ℝ → ℝ} (hP : Powers ε pw) {x x' y y' : ℝ}
    (hx : 0 < x) (hy : 0 < y) {a α : ℕ} (hxn : Near ε a x x') (hyn : Near ε a y y') (ha : a + 1 ≤ α)
    (nx ny : ℕ) {k : ℕ} (gs : List Group2) (hk : k = (nx + ny + 2) * (α + 2) + gs.length)
    (hg : ∀ g ∈ gs, Sorted2 g) (hok : ∀ g ∈ gs, Mp.Props.PreOk g) (he : ∀ g ∈ gs, Mild2 a α g)
    (hn : ∀ g ∈ gs, ∀ t ∈ g.terms, t.1 ≤ nx ∧ t.2.1 ≤ ny) :
    ∃ j, poly2 A pw x' y' gs 2 = .ok j ∧
      Offs ε (k + 2 * α + 2) (k + 4 * α + 5) (k + 4 * α + 5) (k + 6 * α + 9) (k + 6 * α + 9) (k + 6 * α + 9)
        (sizes gs x y) (Mp.Props.evalGs2 gs x y) j := by
  unfold poly2
  split
  · rename_i g
    have w := group2_off h0 h1 hA hP hx hy hxn hyn ha g (hg g (by simp)) (hok g (by simp)) (he g (by simp)) nx ny
      (hn g (by simp)) rfl
    refine ⟨_, group2_eq A pw 2 g x' y' (hg g (by simp)).1, ?_⟩
    have e2 : Mp.Props.evalGs2 [g] x y = Mp.Props.evalG2 2 g x y := by simp [Mp.Props.evalGs2, J6.add]
    rw [e2]
    exact w.mono h0 h1 (by omega) (by omega) (by omega) (by omega) (by omega) (by omega)
  · obtain ⟨j, hj, r⟩ := groups2_off h0 h1 hA hP hx hy hxn hyn ha nx ny rfl gs hg hok he hn 0 ⟨0, 0, 0, 0, 0, 0⟩
      ⟨0, 0, 0, 0, 0, 0⟩ ⟨0, 0, 0, 0, 0, 0⟩ ⟨off_zero h0 h1 _, off_zero h0 h1 _, off_zero h0 h1 _, off_zero h0 h1 _,
        off_zero h0 h1 _, off_zero h0 h1 _⟩
    refine ⟨j, hj, ?_⟩
    simp only [J6.add, zero_add] at r
    exact r.mono h0 h1 (by omega) (by omega) (by omega) (by omega) (by omega) (by omega)

/-- **C112.** Evaluated with rounded operations, a polynomial in two variables of the documented form with exponents up to `nx` and
`ny`, and its five derivatives, are off by no more than about `3 (nx + ny)` roundings of the terms they are made
of, whatever the coefficients, the exponents outside, the number of groups and the positive arguments.  As in C47 no group
has x pre-exponent 1 with another y pre-exponent. -/
theorem C112_poly2 (h0 : 0 ≤ ε) (hA : Accurate ε A) {pw : ℝ → ℝ → ℝ} (hP : Powers ε pw) (x y : ℝ) (hx : 0 < x) (hy : 0 < y)
    (nx ny : ℕ) (gs : List Group2) (hg : ∀ g ∈ gs, Sorted2 g) (hok : ∀ g ∈ gs, g.prex = 1 → g.prey = 1)
    (hn : ∀ g ∈ gs, ∀ t ∈ g.terms, t.1 ≤ nx ∧ t.2.1 ≤ ny)
    (hk : ((3 * (nx + ny) + 21 + gs.length : ℕ) : ℝ) * ε ≤ 1e-3) :
    ∃ j, poly2 A pw x y gs 2 = .ok j ∧
      |j.p - poly2At gs x y| ≤ 1.01 * (3 * (nx + ny) + 10 + gs.length : ℕ) * ε * sizeAt 0 0 gs x y ∧
      |j.px - deriv (fun u => poly2At gs u y) x| ≤ 1.01 * (3 * (nx + ny) + 15 + gs.length : ℕ) * ε * sizeAt 1 0 gs x y ∧
      |j.py - deriv (fun u => poly2At gs x u) y| ≤ 1.01 * (3 * (nx + ny) + 15 + gs.length : ℕ) * ε * sizeAt 0 1 gs x y ∧
      |j.pxx - deriv (fun s => deriv (fun u => poly2At gs u y) s) x| ≤
        1.01 * (3 * (nx + ny) + 21 + gs.length : ℕ) * ε * sizeAt 2 0 gs x y ∧
      |j.pxy - deriv (fun s => deriv (fun u => poly2At gs u s) x) y| ≤
        1.01 * (3 * (nx + ny) + 21 + gs.length : ℕ) * ε * sizeAt 1 1 gs x y ∧
      |j.pyy - deriv (fun s => deriv (fun u => poly2At gs x u) s) y| ≤
        1.01 * (3 * (nx + ny) + 21 + gs.length : ℕ) * ε * sizeAt 0 2 gs x y := by
  have hle : ∀ l : ℕ, l ≤ 3 * (nx + ny) + 21 + gs.length → (l : ℝ) * ε ≤ 1e-3 := fun l hl =>
    (mul_le_mul_of_nonneg_right (by exact_mod_cast hl) h0).trans hk
  have h1' : ε ≤ 1e-3 := by simpa using hle 1 (by omega)
  have h1 : ε < 1 := by linarith
  obtain ⟨j, hj, w⟩ := poly2_off h0 h1 hA hP hx hy (near_refl h0 h1 0 x) (near_refl h0 h1 0 y) (α := 1) le_rfl nx ny gs rfl
    hg hok (fun g _ => by simp [Mild2]) hn
  obtain ⟨e, he, hd⟩ := Mp.Props.C47_poly2_partial gs hg hok x y hx hy
  rw [Mp.Props.poly2_eq gs x y (fun g h => (hg g h).1)] at he
  cases he
  have w := w.mono h0 h1 (l := 3 * (nx + ny) + 10 + gs.length) (lx := 3 * (nx + ny) + 15 + gs.length)
    (ly := 3 * (nx + ny) + 15 + gs.length) (lxx := 3 * (nx + ny) + 21 + gs.length) (lxy := 3 * (nx + ny) + 21 + gs.length)
    (lyy := 3 * (nx + ny) + 21 + gs.length) (by omega) (by omega) (by omega) (by omega) (by omega) (by omega)
  have c1 := w.p
  have c2 := w.px
  have c3 := w.py
  have c4 := w.pxx
  have c5 := w.pxy
  have c6 := w.pyy
  rw [hd.val] at c1
  rw [← hd.dx.deriv] at c2
  rw [← hd.dy.deriv] at c3
  rw [← hd.dxx.deriv] at c4
  rw [← hd.dxy.deriv] at c5
  rw [← hd.dyy.deriv] at c6
  exact ⟨j, hj, err_abs h0 (hle _ (by omega)) h1' c1, err_abs h0 (hle _ (by omega)) h1' c2,
    err_abs h0 (hle _ (by omega)) h1' c3, err_abs h0 (hle _ (by omega)) h1' c4, err_abs h0 (hle _ (by omega)) h1' c5,
    err_abs h0 (hle _ (by omega)) h1' c6⟩

/-! ## Lower orders -/

theorem inner_cut (A : Arith) (d : Nat) (y : ℝ) (ii n : Nat) (r : List Term2) (s : P3) :
    (innerY A d y ii n r (P3.cut d s)).1 = P3.cut d (innerY A 2 y ii n r s).1 ∧
    (innerY A d y ii n r (P3.cut d s)).2 = (innerY A 2 y ii n r s).2 := by
  induction n generalizing r s with
  | zero => simp [innerY]
  | succ n ih =>
    cases r with
    | nil => rw [innerY, innerY, skip1_cut]; exact ih _ _
    | cons p r =>
      obtain ⟨i, j, c⟩ := p
      rw [innerY, innerY]
      split_ifs
      · rw [fold1_cut]; exact ih _ _
      · rw [skip1_cut]; exact ih _ _

theorem fold2_cut (A : Arith) (d : Nat) (x : ℝ) (q : P3) (s : J6) :
    fold2 A d x (P3.cut d q) (J6.cut d s) = J6.cut d (fold2 A 2 x q s) := by
  rcases d with _ | _ | d <;> simp [fold2, P3.cut, J6.cut]

theorem skip2_cut (A : Arith) (d : Nat) (x : ℝ) (s : J6) :
    skip2 A d x (J6.cut d s) = J6.cut d (skip2 A 2 x s) := by
  rcases d with _ | _ | d <;> simp [skip2, J6.cut]

theorem outer_cut (A : Arith) (d : Nat) (x y : ℝ) (n : Nat) (r : List Term2) (s : J6) :
    outer A d x y n r (J6.cut d s) = J6.cut d (outer A 2 x y n r s) := by
  induction n generalizing r s with
  | zero => simp [outer]
  | succ n ih =>
    cases r with
    | nil => rw [outer, outer, skip2_cut, ih]
    | cons p r =>
      obtain ⟨i, j, c⟩ := p
      rw [outer, outer]
      split_ifs
      · simp only
        have hi := inner_cut A d y n (j + 1) ((i, j, c) :: r) ⟨0, 0, 0⟩
        rw [Mp.Props.zero_cut] at hi
        rw [hi.1, hi.2, fold2_cut, ih]
      · rw [skip2_cut, ih]

theorem postX_cut (A : Arith) (pw : ℝ → ℝ → ℝ) (d : Nat) (x post : ℝ) (s : J6) :
    postX A pw d x post (J6.cut d s) = J6.cut d (postX A pw 2 x post s) := by
  unfold postX
  by_cases h : post = 0
  · simp [h]
  · rcases d with _ | _ | d <;> simp [J6.cut, h]

theorem postY_cut (A : Arith) (pw : ℝ → ℝ → ℝ) (d : Nat) (y post : ℝ) (s : J6) :
    postY A pw d y post (J6.cut d s) = J6.cut d (postY A pw 2 y post s) := by
  unfold postY
  by_cases h : post = 0
  · simp [h]
  · rcases d with _ | _ | d <;> simp [J6.cut, h]

theorem preFix2_cut (A : Arith) (pw : ℝ → ℝ → ℝ) (d : Nat) (g : Group2) (x y : ℝ) (s : J6) :
    preFix2 A d g.prex (preExp A pw d x g.prex) (preExp A pw d y g.prey) (J6.cut d s) =
      J6.cut d (preFix2 A 2 g.prex (preExp A pw 2 x g.prex) (preExp A pw 2 y g.prey) s) := by
  unfold preFix2 preExp
  by_cases h : g.prex = 1
  · simp [h]
  · by_cases h' : g.prey = 1
    · rcases d with _ | _ | d <;> simp [J6.cut, h, h']
    · rcases d with _ | _ | d <;> simp [J6.cut, h, h']

theorem group2_cut (A : Arith) (pw : ℝ → ℝ → ℝ) (d : Nat) (x y : ℝ) (g : Group2) :
    group2 A pw d x y g = (group2 A pw 2 x y g).map (J6.cut d) := by
  unfold group2
  cases g.terms with
  | nil => rfl
  | cons p r =>
    simp only [Except.map]
    rw [← Mp.Props.zero_cut6 d, preExp_value A pw d x, preExp_value A pw d y, outer_cut, preFix2_cut, postX_cut, postY_cut,
      Mp.Props.zero_cut6 d]

theorem groups2_cut (A : Arith) (pw : ℝ → ℝ → ℝ) (d : Nat) (x y : ℝ) (gs : List Group2) (s : J6) :
    groups2 A pw d x y gs (J6.cut d s) = (groups2 A pw 2 x y gs s).map (J6.cut d) := by
  induction gs generalizing s with
  | nil => rfl
  | cons g gs ih =>
    rw [groups2, groups2, group2_cut]
    cases group2 A pw 2 x y g with
    | error e => rfl
    | ok q =>
      simp only [Except.map, Bind.bind, Except.bind] at ih ⊢
      rw [← ih]
      congr 1
      rcases d with _ | _ | d <;> simp [J6.cut, acc6]

/-- **C112.** Asking for fewer derivatives returns the very same rounded numbers, with the others 0. -/
theorem C112_order2 (A : Arith) (pw : ℝ → ℝ → ℝ) (d : Nat) (x y : ℝ) (gs : List Group2) :
    poly2 A pw x y gs d = (poly2 A pw x y gs 2).map (J6.cut d) := by
  unfold poly2
  split
  · exact group2_cut A pw d x y _
  · rw [← groups2_cut, Mp.Props.zero_cut6]

/-- **C112.** Without rounding, this is the evaluation of C47. -/
theorem C112_exact2 (x y : ℝ) (gs : List Group2) (d : Nat) :
    poly2 exact (fun x y => x ^ y) x y gs d = Mp.poly2 x y gs d := by
  have hf : ∀ X c s, fold1 exact d X (exact.lit c) s = Mp.fold1 d X c s := fun _ _ _ => rfl
  have hk : ∀ X s, skip1 exact d X s = Mp.fold1 d X 0 s := by
    intro X s
    simp [skip1, Mp.fold1, exact]
  have hf2 : ∀ X q s, fold2 exact d X q s = Mp.fold2 d X q s := fun _ _ _ => rfl
  have hk2 : ∀ X s, skip2 exact d X s = Mp.fold2 d X ⟨0, 0, 0⟩ s := by
    intro X s
    simp [skip2, Mp.fold2, exact]
  have hi : ∀ (ii n : ℕ) (Y : ℝ) (r : List Term2) (s : P3), innerY exact d Y ii n r s = Mp.inner d Y ii n r s := by
    intro ii n Y
    induction n with
    | zero => intro r s; simp [innerY, Mp.inner]
    | succ n ih =>
      intro r s
      match r with
      | [] => simp [innerY, Mp.inner, ih, hk]
      | (i, j, c) :: r =>
        by_cases h : i = ii ∧ j = n
        · simp only [innerY, Mp.inner, if_pos h, ih, hf]
        · simp only [innerY, Mp.inner, if_neg h, ih, hk]
  have hl : ∀ (n : ℕ) (X Y : ℝ) (r : List Term2) (s : J6), outer exact d X Y n r s = Mp.outer d X Y n r s := by
    intro n X Y
    induction n with
    | zero => intro r s; simp [outer, Mp.outer]
    | succ n ih =>
      intro r s
      match r with
      | [] => simp [outer, Mp.outer, ih, hk2]
      | (i, j, c) :: r =>
        by_cases h : i = n
        · simp only [outer, Mp.outer, if_pos h, ih, hf2, hi]
        · simp only [outer, Mp.outer, if_neg h, ih, hk2]
  have hg : ∀ g, group2 exact (fun x y => x ^ y) d x y g = Mp.group2 d x y g := by
    intro g
    unfold group2 Mp.group2
    cases g.terms with
    | nil => rfl
    | cons p r =>
      simp only [hl]
      rfl
  have hgs : ∀ s, groups2 exact (fun x y => x ^ y) d x y gs s = Mp.groups2 d x y gs s := by
    induction gs with
    | nil => intro s; rfl
    | cons g gs ih =>
      intro s
      rw [groups2, Mp.groups2, hg]
      cases Mp.group2 d x y g with
      | error e => rfl
      | ok q => exact ih _
  match gs, hgs with
  | [], h => exact h _
  | [g], _ => exact hg g
  | _ :: _ :: _, h => exact h _

end PyroMat.Float.Props
