import Mathlib.Analysis.Calculus.Deriv.MeanValue
import Mathlib.Analysis.SpecialFunctions.Pow.Deriv
import Verif.Shipped.MpBasic
import Verif.Mp.Spec
import Mathlib.Tactic.Linarith

/-!
# Sums of real powers: sign and monotonicity by integer arithmetic
-/

set_option linter.unusedSimpArgs false

namespace PyroMat.Shipped

open PyroMat.Gas PyroMat.Mp PyroMat.Mp.Spec

/-- A decimal in units of `10^-20`. -/
def sc20 (d : Dec) : Int := d.m * 10 ^ (20 - d.e)

theorem sc20_val {d : Dec} (h : d.e ≤ 20) : d.val = sc20 d / 10 ^ 20 := by
  unfold Dec.val sc20
  push_cast
  rw [div_eq_div_iff (by positivity) (by positivity), mul_assoc, ← pow_add, Nat.sub_add_cancel h]

/-- A group with at most 20 decimals and exponents that are not negative. -/
def okG (g : G1) : Bool :=
  g.pre.e ≤ 20 && g.post.e ≤ 20 && 0 ≤ g.pre.m && 0 ≤ g.post.m && g.terms.all (·.2.e ≤ 20)

/-- Exponents and coefficients of a polynomial, in units of `10^-20`. -/
def flat (gs : List G1) : List (Int × Int) :=
  gs.flatMap fun g => g.terms.map fun t => (sc20 g.pre * t.1 + sc20 g.post, sc20 t.2)

/-- The exponent of a term. -/
noncomputable def xp (t : Int × Int) : ℝ := t.1 / 10 ^ 20

/-- The coefficient of a term. -/
noncomputable def cf (t : Int × Int) : ℝ := t.2 / 10 ^ 20

/-- The sum of powers. -/
noncomputable def sumT (ts : List (Int × Int)) (x : ℝ) : ℝ := (ts.map fun t => cf t * x ^ xp t).sum

theorem poly1At_flat (gs : List G1) (h : gs.all okG = true) {x : ℝ} (hx : 0 ≤ x) :
    poly1At (gs.map G1.group) x = sumT (flat gs) x := by
  induction gs with
  | nil => simp [poly1At, sumT, flat]
  | cons g gs ih =>
    simp only [List.all_cons, Bool.and_eq_true] at h
    have hg := h.1
    simp only [okG, Bool.and_eq_true, decide_eq_true_eq, List.all_eq_true] at hg
    obtain ⟨⟨⟨⟨h1, h2⟩, h3⟩, h4⟩, h5⟩ := hg
    have ih := ih h.2
    simp only [poly1At, sumT, flat, List.map_cons, List.sum_cons, List.flatMap_cons, List.map_append,
      List.sum_append] at ih ⊢
    rw [ih]
    congr 1
    simp only [G1.group, List.map_map, ← List.sum_map_mul_left]
    congr 1
    refine List.map_congr_left fun t ht => ?_
    simp only [Function.comp, cf, xp]
    have e1 := sc20_val h1
    have e2 := sc20_val h2
    have e3 := sc20_val (h5 t ht)
    have p1 : 0 ≤ g.pre.val := div_nonneg (by exact_mod_cast h3) (by positivity)
    have p2 : 0 ≤ g.post.val := div_nonneg (by exact_mod_cast h4) (by positivity)
    have e4 : (((sc20 g.pre * (t.1 : Int) + sc20 g.post : Int) : ℝ)) / 10 ^ 20
        = g.post.val + g.pre.val * (t.1 : ℝ) := by
      rw [e1, e2]; push_cast; ring
    rw [e4, Real.rpow_add_of_nonneg hx p2 (by positivity), Real.rpow_mul hx, Real.rpow_natCast, e3]
    ring

/-! ## Sign -/

/-- `1000^40` times a bound on the power `k` of a number below `X/1000`. -/
def wt (X k : Nat) : Int := X ^ min k 40 * 1000 ^ (40 - min k 40)

theorem wt_ge {X k : Nat} (hX : X ≤ 1000) {x : ℝ} (hx : 0 < x) (h : x ≤ X / 1000) :
    x ^ k ≤ wt X k / 1000 ^ 40 := by
  have h1 : x ≤ 1 := h.trans (by rw [div_le_one (by norm_num)]; exact_mod_cast hX)
  have e : (wt X k : ℝ) / 1000 ^ 40 = ((X : ℝ) / 1000) ^ min k 40 := by
    unfold wt
    push_cast
    rw [div_pow, div_eq_div_iff (by positivity) (by positivity), mul_assoc, ← pow_add,
      Nat.sub_add_cancel (min_le_right k 40)]
  rw [e]
  calc x ^ k ≤ x ^ min k 40 := pow_le_pow_of_le_one hx.le h1 (min_le_left k 40)
    _ ≤ _ := pow_le_pow_left₀ hx.le h _

theorem rpow_le_wt {X : Nat} (hX : X ≤ 1000) {x : ℝ} (hx : 0 < x) (h : x ≤ X / 1000) {n : Int} (hn : 0 ≤ n) :
    x ^ ((n : ℝ) / 10 ^ 20) ≤ wt X (n / 10 ^ 20).toNat / 1000 ^ 40 := by
  have h1 : x ≤ 1 := h.trans (by rw [div_le_one (by norm_num)]; exact_mod_cast hX)
  refine le_trans ?_ (wt_ge hX hx h)
  refine le_trans ?_ (Real.rpow_natCast _ _).le
  refine Real.rpow_le_rpow_of_exponent_ge hx h1 ?_
  have hk : (0 : Int) ≤ n / 10 ^ 20 := Int.ediv_nonneg hn (by norm_num)
  have e1 : (((n / 10 ^ 20 : Int).toNat : ℕ) : ℝ) = ((n / 10 ^ 20 : Int) : ℝ) := by
    exact_mod_cast congrArg (fun z : Int => (z : ℝ)) (Int.toNat_of_nonneg hk)
  rw [e1, le_div_iff₀ (by positivity)]
  have : (n / 10 ^ 20) * 10 ^ 20 ≤ n := Int.ediv_mul_le n (by norm_num)
  exact_mod_cast this

/-- A lower bound on a term over the power with exponent `e0`. -/
def lowc (e0 : Int) (X : Nat) (t : Int × Int) : Int :=
  if 0 ≤ t.2 then (if t.1 = e0 then t.2 * 1000 ^ 40 else 0) else t.2 * wt X ((t.1 - e0) / 10 ^ 20).toNat

/-- The sum of powers is positive for all `x` in `(0, X/1000]`, because its term of lowest exponent
outweighs the negative ones. -/
def positive (ts : List (Int × Int)) (e0 : Int) (X : Nat) : Bool :=
  decide (X ≤ 1000) && (ts.all fun t => decide (e0 ≤ t.1)) && decide (0 < (ts.map (lowc e0 X)).sum)

theorem lowc_le {e0 : Int} {X : Nat} (hX : X ≤ 1000) {t : Int × Int} (ht : e0 ≤ t.1) {x : ℝ} (hx : 0 < x)
    (h : x ≤ X / 1000) :
    (lowc e0 X t : ℝ) / (10 ^ 20 * 1000 ^ 40) * x ^ ((e0 : ℝ) / 10 ^ 20) ≤ cf t * x ^ xp t := by
  have hp : 0 < x ^ ((e0 : ℝ) / 10 ^ 20) := Real.rpow_pos_of_pos hx _
  unfold lowc
  split_ifs with h1 h2
  · unfold cf xp
    rw [h2]
    refine le_of_eq ?_
    push_cast
    field_simp
    norm_num
  · have : (0 : ℝ) ≤ cf t := div_nonneg (by exact_mod_cast h1) (by positivity)
    simp only [Int.cast_zero, zero_div, zero_mul]
    exact mul_nonneg this (Real.rpow_nonneg hx.le _)
  · push Not at h1
    have hc : cf t < 0 := div_neg_of_neg_of_pos (by exact_mod_cast h1) (by positivity)
    have e : x ^ xp t = x ^ ((e0 : ℝ) / 10 ^ 20) * x ^ (((t.1 - e0 : Int) : ℝ) / 10 ^ 20) := by
      rw [← Real.rpow_add hx]
      unfold xp
      congr 1
      push_cast
      ring
    have hw := rpow_le_wt hX hx h (n := t.1 - e0) (by omega)
    rw [e]
    have e2 : ((t.2 * wt X ((t.1 - e0) / 10 ^ 20).toNat : Int) : ℝ) / (10 ^ 20 * 1000 ^ 40) * x ^ ((e0 : ℝ) / 10 ^ 20)
        = cf t * (x ^ ((e0 : ℝ) / 10 ^ 20) * (wt X ((t.1 - e0) / 10 ^ 20).toNat / 1000 ^ 40)) := by
      unfold cf
      push_cast
      field_simp
    rw [e2]
    exact mul_le_mul_of_nonpos_left (mul_le_mul_of_nonneg_left hw hp.le) hc.le

theorem sumT_pos {ts : List (Int × Int)} {e0 : Int} {X : Nat} (h : positive ts e0 X = true) {x : ℝ}
    (hx : 0 < x) (hX : x ≤ X / 1000) : 0 < sumT ts x := by
  simp only [positive, Bool.and_eq_true, decide_eq_true_eq, List.all_eq_true] at h
  obtain ⟨⟨h1, h2⟩, h3⟩ := h
  have hp : 0 < x ^ ((e0 : ℝ) / 10 ^ 20) := Real.rpow_pos_of_pos hx _
  have key : (((ts.map (lowc e0 X)).sum : Int) : ℝ) / (10 ^ 20 * 1000 ^ 40) * x ^ ((e0 : ℝ) / 10 ^ 20)
      ≤ sumT ts x := by
    clear h3
    induction ts with
    | nil => simp [sumT]
    | cons t ts ih =>
      have a := lowc_le h1 (h2 t (by simp)) hx hX
      have b := ih (fun s hs => h2 s (by simp [hs]))
      simp only [sumT, List.map_cons, List.sum_cons, Int.cast_add, add_div, add_mul] at b ⊢
      exact add_le_add a b
  refine lt_of_lt_of_le (mul_pos (div_pos (by exact_mod_cast h3) (by positivity)) hp) key

/-- The same from the exponent `e0` on, the terms before it not being negative. -/
def positiveFrom (ts : List (Int × Int)) (e0 : Int) (X : Nat) : Bool :=
  positive (ts.filter fun t => decide (e0 ≤ t.1)) e0 X && ts.all fun t => decide (e0 ≤ t.1 ∨ 0 ≤ t.2)

theorem sumT_pos_from {ts : List (Int × Int)} {e0 : Int} {X : Nat} (h : positiveFrom ts e0 X = true) {x : ℝ}
    (hx : 0 < x) (hX : x ≤ X / 1000) : 0 < sumT ts x := by
  simp only [positiveFrom, Bool.and_eq_true, decide_eq_true_eq, List.all_eq_true] at h
  refine lt_of_lt_of_le (sumT_pos h.1 hx hX) ?_
  have h2 := h.2
  clear h
  induction ts with
  | nil => simp [sumT]
  | cons t ts ih =>
    have ih := ih fun s hs => h2 s (by simp [hs])
    by_cases hc : e0 ≤ t.1
    · rw [List.filter_cons_of_pos (by simpa using hc)]
      simp only [sumT, List.map_cons, List.sum_cons] at ih ⊢
      linarith
    · rw [List.filter_cons_of_neg (by simpa using hc)]
      have : (0 : ℝ) ≤ cf t := div_nonneg (by exact_mod_cast (h2 t (by simp)).resolve_left hc) (by positivity)
      have := mul_nonneg this (Real.rpow_nonneg hx.le (xp t))
      simp only [sumT, List.map_cons, List.sum_cons] at ih ⊢
      linarith

/-- The terms with the opposite sign. -/
def negT (ts : List (Int × Int)) : List (Int × Int) := ts.map fun t => (t.1, -t.2)

theorem sumT_neg (ts : List (Int × Int)) (x : ℝ) : sumT (negT ts) x = - sumT ts x := by
  induction ts with
  | nil => simp [sumT, negT]
  | cons t ts ih =>
    simp only [sumT, negT, List.map_cons, List.sum_cons, cf, xp] at ih ⊢
    rw [ih]
    push_cast
    ring

theorem sumT_zero {ts : List (Int × Int)} (h : ts.all (fun t => decide (0 < t.1)) = true) : sumT ts 0 = 0 := by
  simp only [List.all_eq_true, decide_eq_true_eq] at h
  unfold sumT
  refine List.sum_eq_zero ?_
  intro y hy
  obtain ⟨t, ht, rfl⟩ := List.mem_map.mp hy
  have : xp t ≠ 0 := by
    unfold xp
    have := h t ht
    have : (0 : ℝ) < t.1 := by exact_mod_cast this
    positivity
  rw [Real.zero_rpow this, mul_zero]

/-! ## Monotonicity -/

/-- `(1-x)²` times the derivative of the sum of powers over `1-x`. -/
noncomputable def slopeT (ts : List (Int × Int)) (x : ℝ) : ℝ :=
  (ts.map fun t => cf t * (x ^ (xp t - 1) * (xp t - (xp t - 1) * x))).sum

theorem hasDerivAt_sumT {ts : List (Int × Int)} {x : ℝ} (hx : 0 < x) (h1 : x < 1) :
    HasDerivAt (fun x => sumT ts x / (1 - x)) (slopeT ts x / (1 - x) ^ 2) x := by
  have h2 : (1 : ℝ) - x ≠ 0 := by linarith
  induction ts with
  | nil => simpa [sumT, slopeT] using hasDerivAt_const x (0 : ℝ)
  | cons t ts ih =>
    have a : HasDerivAt (fun x : ℝ => cf t * x ^ xp t / (1 - x))
        (cf t * (x ^ (xp t - 1) * (xp t - (xp t - 1) * x)) / (1 - x) ^ 2) x := by
      have b := ((Real.hasDerivAt_rpow_const (p := xp t) (Or.inl hx.ne')).const_mul (cf t)).div
        ((hasDerivAt_id x).const_sub 1) (by simpa using h2)
      refine b.congr_deriv ?_
      have e : x ^ xp t = x ^ (xp t - 1) * x := by
        rw [Real.rpow_sub_one hx.ne']; field_simp
      simp only [id]
      rw [e]
      ring
    have b := a.add ih
    refine (b.congr_deriv ?_).congr_of_eventuallyEq (Filter.Eventually.of_forall fun y => ?_)
    · simp only [slopeT, List.map_cons, List.sum_cons, add_div]
    · simp only [sumT, List.map_cons, List.sum_cons, add_div, Pi.add_apply]

theorem continuousAt_sumT {ts : List (Int × Int)} (h : ts.all (fun t => decide (0 < t.1)) = true) (x : ℝ) :
    ContinuousAt (sumT ts) x := by
  simp only [List.all_eq_true, decide_eq_true_eq] at h
  induction ts with
  | nil => exact continuousAt_const
  | cons t ts ih =>
    have e : sumT (t :: ts) = fun x => cf t * x ^ xp t + sumT ts x := by
      funext y; simp [sumT]
    rw [e]
    refine ContinuousAt.add (continuousAt_const.mul ?_) (ih fun s hs => h s (by simp [hs]))
    refine Real.continuousAt_rpow_const _ _ (Or.inr ?_)
    have := h t (by simp)
    have : (0 : ℝ) < t.1 := by exact_mod_cast this
    unfold xp
    positivity

/-- If the slope is negative then the sum of powers over `1-x` falls. -/
theorem sumT_anti {ts : List (Int × Int)} (h : ts.all (fun t => decide (0 < t.1)) = true) {X : ℝ} (hX : X < 1)
    (hs : ∀ x, 0 < x → x < X → slopeT ts x < 0) :
    StrictAntiOn (fun x => sumT ts x / (1 - x)) (Set.Icc 0 X) := by
  refine strictAntiOn_of_deriv_neg (convex_Icc 0 X) ?_ ?_
  · intro x hx
    exact ((continuousAt_sumT h x).div (continuousAt_const.sub continuousAt_id) (by
      have := hx.2; intro hc; simp at hc; linarith)).continuousWithinAt
  · intro x hx
    rw [interior_Icc] at hx
    have h1 : x < 1 := hx.2.trans hX
    rw [(hasDerivAt_sumT hx.1 h1).deriv]
    exact div_neg_of_neg_of_pos (hs x hx.1 hx.2) (by have : 0 < 1 - x := by linarith
                                                     positivity)

/-- An upper bound on a term of the slope. -/
def upc (X : Nat) (t : Int × Int) : Int :=
  if t.2 ≤ 0 then (if t.1 = 10 ^ 20 then t.2 * 10 ^ 20 * 1000 ^ 40 else 0)
  else t.2 * t.1 * wt X ((t.1 - 10 ^ 20) / 10 ^ 20).toNat

/-- The slope is negative for all `x` in `(0, X/1000]`, because its constant term outweighs the
positive ones. -/
def falling (ts : List (Int × Int)) (X : Nat) : Bool :=
  decide (X ≤ 1000) && (ts.all fun t => decide (10 ^ 20 ≤ t.1)) && decide ((ts.map (upc X)).sum < 0)

theorem upc_ge {X : Nat} (hX : X ≤ 1000) {t : Int × Int} (ht : 10 ^ 20 ≤ t.1) {x : ℝ} (hx : 0 < x)
    (h : x ≤ X / 1000) :
    cf t * (x ^ (xp t - 1) * (xp t - (xp t - 1) * x)) ≤ (upc X t : ℝ) / (10 ^ 20 * 10 ^ 20 * 1000 ^ 40) := by
  have h1 : x ≤ 1 := h.trans (by rw [div_le_one (by norm_num)]; exact_mod_cast hX)
  have hq : 1 ≤ xp t := by
    unfold xp
    rw [le_div_iff₀ (by positivity), one_mul]
    exact_mod_cast ht
  have hp : 0 ≤ x ^ (xp t - 1) := Real.rpow_nonneg hx.le _
  have hb : 0 ≤ xp t - (xp t - 1) * x := by nlinarith
  unfold upc
  split_ifs with h2 h3
  · have e : xp t = 1 := by
      unfold xp; rw [h3]; push_cast; norm_num
    rw [e]
    unfold cf
    simp only [sub_self, Real.rpow_zero, zero_mul, sub_zero, mul_one]
    refine le_of_eq ?_
    push_cast
    field_simp
    norm_num
  · have : cf t ≤ 0 := div_nonpos_of_nonpos_of_nonneg (by exact_mod_cast h2) (by positivity)
    simp only [Int.cast_zero, zero_div]
    exact mul_nonpos_of_nonpos_of_nonneg this (mul_nonneg hp hb)
  · push Not at h2
    have hc : 0 < cf t := div_pos (by exact_mod_cast h2) (by positivity)
    have e : xp t - 1 = ((t.1 - 10 ^ 20 : Int) : ℝ) / 10 ^ 20 := by
      unfold xp; push_cast; norm_num; ring
    have hw := rpow_le_wt hX hx h (n := t.1 - 10 ^ 20) (by omega)
    rw [← e] at hw
    have e2 : ((t.2 * t.1 * wt X ((t.1 - 10 ^ 20) / 10 ^ 20).toNat : Int) : ℝ) / (10 ^ 20 * 10 ^ 20 * 1000 ^ 40)
        = cf t * (wt X ((t.1 - 10 ^ 20) / 10 ^ 20).toNat / 1000 ^ 40 * xp t) := by
      unfold cf xp
      push_cast
      field_simp
    rw [e2]
    refine mul_le_mul_of_nonneg_left ?_ hc.le
    refine mul_le_mul hw ?_ hb (hp.trans hw)
    nlinarith

theorem slopeT_neg {ts : List (Int × Int)} {X : Nat} (h : falling ts X = true) {x : ℝ} (hx : 0 < x)
    (hX : x ≤ X / 1000) : slopeT ts x < 0 := by
  simp only [falling, Bool.and_eq_true, decide_eq_true_eq, List.all_eq_true] at h
  obtain ⟨⟨h1, h2⟩, h3⟩ := h
  have key : slopeT ts x ≤ (((ts.map (upc X)).sum : Int) : ℝ) / (10 ^ 20 * 10 ^ 20 * 1000 ^ 40) := by
    clear h3
    induction ts with
    | nil => simp [slopeT]
    | cons t ts ih =>
      have a := upc_ge h1 (h2 t (by simp)) hx hX
      have b := ih (fun s hs => h2 s (by simp [hs]))
      simp only [slopeT, List.map_cons, List.sum_cons, Int.cast_add, add_div] at b ⊢
      exact add_le_add a b
  exact lt_of_le_of_lt key (div_neg_of_neg_of_pos (by exact_mod_cast h3) (by positivity))

end PyroMat.Shipped
