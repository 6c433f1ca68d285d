import Verif.Shipped.EntropyGrowth
import Verif.Shipped.PropsFall

/-!
# C103: entropies that fall where two pieces of a fit meet
-/

set_option linter.unusedSimpArgs false

namespace PyroMat.Shipped

open PyroMat PyroMat.Gas PyroMat.Gas.Spec PyroMat.Gas.Props

/-- At the temperature `u` the entropy falls by more than `d` millionths of a kJ/kmol/K from one row to the next. -/
def sfall (c : Cls) (d : Nat) (r r' : List Dec) (u : Nat) : Bool :=
  match c, logAt c u with
  | _, none => false
  | .ig, some L => decide (Int.ofNat (d * (6 * 10 ^ 64 * u ^ 2) + (dif r r' 0).natAbs * (6 * 10 ^ 22 * u ^ 2))
      < polyZ (homog 6 [-3 * 10 ^ 12 * dif r r' 4, 0, 6 * (10 ^ 12 * dif r r' 6 + L * dif r r' 0),
        6 * 10 ^ 12 * dif r r' 1, 3 * 10 ^ 12 * dif r r' 2, 2 * 10 ^ 12 * dif r r' 3]) (Int.ofNat u))
  | .ig2, some L => decide (Int.ofNat (d * (12 * 10 ^ 72) + 9 * (dif r r' 0).natAbs * (12 * 10 ^ 30))
      < polyZ (homog 3 [12 * (10 ^ 12 * dif r r' 6 + L * dif r r' 0), 12 * 10 ^ 12 * dif r r' 1,
        6 * 10 ^ 12 * dif r r' 2, 4 * 10 ^ 12 * dif r r' 3, 3 * 10 ^ 12 * dif r r' 4]) (Int.ofNat u) * 831446261815324)

/-- The same at some limit between two pieces. -/
def sfalls (c : Cls) (d : Nat) : List Dec → List (List Dec) → Bool
  | _ :: t1 :: ts, r :: r' :: rs => sfall c d r r' (mK t1) || sfalls c d (t1 :: ts) (r' :: rs)
  | _, _ => false

theorem lt_of_ratio {A B X e D d l : ℝ} (hD : 0 < D) (hX : |X| ≤ e) (hs : l < B) (h : (A - X) * D = B)
    (hl : (d + e) * D = l) : d < A := by
  rw [← h, ← hl] at hs
  have := lt_of_mul_lt_mul_right hs hD.le
  linarith [(abs_le.mp hX).1]

theorem sfall_spec (c : Cls) (d : Nat) {r r' : List Dec} (h : okRow r = true) (h' : okRow r' = true) {t : Dec}
    (ht : okT t = true) (hs : sfall c d r r' (mK t) = true) :
    (d : ℝ) / 10 ^ 6 < sOf c (coef r) t.val - sOf c (coef r') t.val := by
  obtain ⟨v, p⟩ := mK_val ht
  have k := dif_val h h'
  have v' : ((Int.ofNat (mK t) : ℤ) : ℝ) = t.val * 1000 := by rw [← v]; simp
  have ab : (((dif r r' 0).natAbs : ℕ) : ℝ) = |((cof r 0).val - (cof r' 0).val) * 10 ^ 40| := by
    rw [Nat.cast_natAbs, Int.cast_abs, k]
  rw [div_lt_iff₀ (by positivity)]
  cases hL : logAt c (mK t) with
  | none => simp [sfall, hL] at hs
  | some L =>
    have hl := logAt_spec c _ L hL
    rw [v, mul_div_cancel_right₀ _ (by norm_num : (1000 : ℝ) ≠ 0)] at hl
    cases c with
    | ig =>
      simp only [sfall, hL, decide_eq_true_eq] at hs
      have hs : ((_ : ℤ) : ℝ) < ((_ : ℤ) : ℝ) := Int.cast_lt.mpr hs
      rw [polyZ_cast, polyR_homog] at hs
      simp only [List.map_cons, List.map_nil, polyR, List.length_cons, List.length_nil, Int.cast_mul, Int.cast_add, k] at hs
      rw [v', Int.ofNat_eq_natCast, Int.cast_natCast, Nat.cast_add] at hs
      simp only [Nat.cast_mul, Nat.cast_pow, ab, v] at hs
      push_cast at hs
      simp only [arg] at hl
      obtain ⟨x, hx0, hx⟩ : ∃ x, 0 < x ∧ t.val = x * 1000 := ⟨t.val / 1000, by positivity, by ring⟩
      rw [hx] at hl hs ⊢
      have e : x * 1000 * 1000 / 10 ^ 6 = x := by ring
      have e' : x * 1000 / 1000 = x := by ring
      rw [e'] at hl
      rw [e] at hs
      simp only [sOf, Sho.s, coef, e, e']
      set l := Real.log x
      have lp := log_part (a := (cof r 0).val - (cof r' 0).val) (n := 1) (d := 1) hl one_pos (by norm_num)
      rw [one_mul, one_mul] at lp
      refine lt_of_ratio (D := 6 * 10 ^ 64 * (x * 1000 * 1000) ^ 2) (by positivity) lp hs ?_ ?_
      · field_simp
        ring
      · field_simp
    | ig2 =>
      simp only [sfall, hL, decide_eq_true_eq] at hs
      have hs : ((_ : ℤ) : ℝ) < ((_ : ℤ) : ℝ) := Int.cast_lt.mpr hs
      rw [Int.cast_mul, polyZ_cast, polyR_homog] at hs
      simp only [List.map_cons, List.map_nil, polyR, List.length_cons, List.length_nil, Int.cast_mul, Int.cast_add, k] at hs
      rw [v', Int.ofNat_eq_natCast, Int.cast_natCast, Nat.cast_add] at hs
      simp only [Nat.cast_mul, Nat.cast_pow, ab, v] at hs
      push_cast at hs
      simp only [arg] at hl
      generalize t.val = x at *
      have e : x * 1000 / 10 ^ 3 = x := by ring
      rw [e] at hs
      simp only [sOf, nasa_s_eq, coef, Ru_val]
      set l := Real.log x
      have lp := log_part (a := (cof r 0).val - (cof r' 0).val) (n := 8.31446261815324) (d := 9) hl (by norm_num) (by norm_num)
      refine lt_of_ratio (D := 12 * 10 ^ 72) (by positivity) lp hs ?_ ?_
      · ring
      · field_simp

theorem sfalls_spec (c : Cls) (a b d : Nat) (ts : List Dec) (rs : List (List Dec))
    (hw : walk c a b ts rs = true) (h : sfalls c d ts rs = true) :
    ∃ (i : Nat) (t0 t1 t2 : Dec) (r r' : List Dec), ts[i]? = some t0 ∧ ts[i + 1]? = some t1 ∧
      ts[i + 2]? = some t2 ∧ rs[i]? = some r ∧ rs[i + 1]? = some r' ∧
      (d : ℝ) / 10 ^ 6 < sOf c (coef r) t1.val - sOf c (coef r') t1.val := by
  induction rs generalizing ts with
  | nil => cases ts <;> simp [sfalls] at h
  | cons r rs ih =>
    match ts, rs, hw, h with
    | [], _, _, h => simp [sfalls] at h
    | [_], _, _, h => simp [sfalls] at h
    | t0 :: t1 :: ts, [], _, h => simp [sfalls] at h
    | t0 :: t1 :: ts, r' :: rs, hw, h =>
      have hok := walk_ok c a b _ _ hw
      have hp := walk_piece c a b _ _ hw
      have hw' : walk c a b (t1 :: ts) (r' :: rs) = true := by
        simp only [walk, Bool.and_eq_true] at hw
        exact hw.2
      simp only [sfalls, Bool.or_eq_true] at h
      rcases h with h | h
      · cases ts with
        | nil => simp [walk] at hw'
        | cons t2 ts =>
          refine ⟨0, t0, t1, t2, r, r', by simp, by simp, by simp, by simp, by simp, ?_⟩
          have o1 := (hp 0 t0 t1 r (by simp) (by simp) (by simp)).1
          have o2 := (hp 1 t1 t2 r' (by simp) (by simp) (by simp)).1
          exact sfall_spec c d o1 o2 (hok t1 (by simp)) h
      · obtain ⟨i, s0, s1, s2, q, q', e1, e2, e3, e4, e5, e6⟩ := ih (t1 :: ts) hw' h
        exact ⟨i + 1, s0, s1, s2, q, q', by simpa using e1, by simpa using e2, by simpa using e3,
          by simpa using e4, by simpa using e5, e6⟩

/-- Then there is, as close below the limit as one likes, a temperature with a higher entropy. -/
theorem sfall_below {f : File} {b : Nat × Nat} (hb : check f b = true) (d : Nat)
    (h : sfalls f.cls d f.Tlim f.C = true) (ε : ℝ) (hε : 0 < ε) :
    ∃ x y sx sy cx cy : ℝ, x < y ∧ y < x + ε ∧ f.gas.s x = some (sx, cx) ∧
      f.gas.s y = some (sy, cy) ∧ sy + (d : ℝ) / 10 ^ 6 < sx := by
  have hw := check_walk hb
  have hwf := wellFormed hb
  have hR : 0 < Ru := Shipped.Ru_pos
  obtain ⟨i, t0, t1, t2, r, r', e1, e2, e3, e4, e5, e6⟩ := sfalls_spec _ _ _ _ _ _ hw h
  obtain ⟨-, l1, g1⟩ := walk_piece _ _ _ _ _ hw i t0 t1 r e1 e2 e4
  obtain ⟨-, l2, -⟩ := walk_piece _ _ _ _ _ hw (i + 1) t1 t2 r' e2 e3 e5
  have p0 := (mK_val (walk_ok _ _ _ _ _ hw t0 (List.mem_of_getElem? e1))).2
  set M := (b.2 : ℝ) / 100 * Ru with hM
  set D := sOf f.cls (coef r) t1.val - sOf f.cls (coef r') t1.val - (d : ℝ) / 10 ^ 6 with hD
  have hD0 : 0 < D := by linarith
  have hM0 : 0 ≤ M := by positivity
  have hM1 : 0 ≤ M / t0.val := by positivity
  obtain ⟨w, w0, w1, w2, w3⟩ : ∃ w, 0 < w ∧ w < ε ∧ w ≤ t1.val - t0.val ∧ M / t0.val * w < D := by
    refine ⟨min (ε / 2) (min (t1.val - t0.val) (D / (M / t0.val + 1) / 2)), ?_, ?_, ?_, ?_⟩
    · refine lt_min (by linarith) (lt_min (by linarith) (by positivity))
    · exact lt_of_le_of_lt (min_le_left _ _) (by linarith)
    · exact (min_le_right _ _).trans (min_le_left _ _)
    · have hw' : min (ε / 2) (min (t1.val - t0.val) (D / (M / t0.val + 1) / 2)) ≤ D / (M / t0.val + 1) / 2 :=
        (min_le_right _ _).trans (min_le_right _ _)
      refine lt_of_le_of_lt (mul_le_mul_of_nonneg_left hw' hM1) ?_
      rw [div_div, ← mul_div_assoc, div_lt_iff₀ (by positivity)]
      nlinarith
  have hlen := walk_length _ _ _ _ _ hw
  have li : ∀ k (t : Dec), f.Tlim[k]? = some t → lim f.data.Tlim k = t.val := by
    intro k t ht
    simp [lim, File.data, ht]
  have k2 : i + 2 < f.Tlim.length := by
    by_contra hc
    rw [List.getElem?_eq_none (by omega)] at e3
    cases e3
  have len : f.data.Tlim.length = f.Tlim.length := by simp [File.data]
  have c1 : crange f.data.Tlim (t1.val - w) i := by
    unfold crange
    rw [if_neg (by omega), li i t0 e1, li (i + 1) t1 e2]
    constructor <;> linarith
  have c2 : crange f.data.Tlim t1.val (i + 1) := by
    unfold crange
    rw [li (i + 1) t1 e2, li (i + 2) t2 e3]
    split
    · exact ⟨le_rfl, l2.le⟩
    · exact ⟨le_rfl, l2⟩
  have q1 : f.data.C[i]? = some (coef r) := by simp [File.data, e4]
  have q2 : f.data.C[i + 1]? = some (coef r') := by simp [File.data, e5]
  have y0 : 0 < t1.val - w := by linarith
  have v1 : f.gas.s (t1.val - w) = some (sOf f.cls (coef r) (t1.val - w), cpOf f.cls (coef r) (t1.val - w) / (t1.val - w)) := by
    have := fun g => piecewise_of (α := ℝ × ℝ) f.data hwf g (t1.val - w) i (by omega) c1 _ q1
    cases hc : f.cls <;> simp only [File.gas, hc, ig, ig2, cpOf, sOf]
    · rw [this]; simp [sho_sT _ y0.ne']
    · rw [this]; simp [nasa_sT_eq _ y0.ne']
  have y1 : 0 < t1.val := by linarith
  have v2 : f.gas.s t1.val = some (sOf f.cls (coef r') t1.val, cpOf f.cls (coef r') t1.val / t1.val) := by
    have := fun g => piecewise_of (α := ℝ × ℝ) f.data hwf g t1.val (i + 1) (by omega) c2 _ q2
    cases hc : f.cls <;> simp only [File.gas, hc, ig, ig2, cpOf, sOf]
    · rw [this]; simp [sho_sT _ y1.ne']
    · rw [this]; simp [nasa_sT_eq _ y1.ne']
  refine ⟨t1.val - w, t1.val, _, _, _, _, by linarith, by linarith, v1, v2, ?_⟩
  have := (piece_growth_s f.cls (coef r) t0.val t1.val _ M p0 g1 (t1.val - w) t1.val (by linarith)
    (by linarith) le_rfl).2
  have hl : Real.log t1.val - Real.log (t1.val - w) ≤ w / t0.val := by
    rw [← Real.log_div y1.ne' y0.ne']
    refine (Real.log_le_sub_one_of_pos (div_pos y1 y0)).trans ?_
    rw [div_sub_one y0.ne', show t1.val - (t1.val - w) = w by ring]
    exact div_le_div_of_nonneg_left w0.le p0 (by linarith)
  have hl2 : M * (Real.log t1.val - Real.log (t1.val - w)) ≤ M / t0.val * w := by
    refine (mul_le_mul_of_nonneg_left hl hM0).trans (le_of_eq ?_)
    ring
  linarith

namespace Props

/-- **C103 disagreement.**  The entropy of a gas at fixed pressure should rise with temperature.  For 437 of the 982
shipped gases it falls at a limit between two pieces of the fit: as near to the limit as one likes
there are temperatures `x < y` with `s(x) > s(y)`.  For rubidium `ig.Rb` it falls by more than
0.07 kJ/kmol/K. -/
theorem C103_fall_defect :
    (∃ l : List File, l.Sublist shipped ∧ l.length = 437 ∧ ∀ f ∈ l, ∀ ε > 0,
      ∃ x y sx sy cx cy : ℝ, x < y ∧ y < x + ε ∧ f.gas.s x = some (sx, cx) ∧
        f.gas.s y = some (sy, cy) ∧ sy < sx) ∧
    ∃ f ∈ shipped, f.id = "ig.Rb" ∧ ∀ ε > 0, ∃ x y sx sy cx cy : ℝ, x < y ∧ y < x + ε ∧
      f.gas.s x = some (sx, cx) ∧ f.gas.s y = some (sy, cy) ∧ sy + 0.07 < sx := by
  constructor
  · refine ⟨shipped.filter fun f => sfalls f.cls 0 f.Tlim f.C, List.filter_sublist, by decide +kernel, ?_⟩
    intro f hf ε hε
    obtain ⟨hf, hh⟩ := List.mem_filter.mp hf
    obtain ⟨b, hb⟩ := shipped_checked f hf
    simpa using sfall_below hb 0 hh ε hε
  · have h : (shipped.any fun f => f.id == "ig.Rb" && sfalls f.cls 70000 f.Tlim f.C) = true := by
      decide +kernel
    obtain ⟨f, hf, he⟩ := List.any_eq_true.mp h
    simp only [Bool.and_eq_true, beq_iff_eq] at he
    obtain ⟨b, hb⟩ := shipped_checked f hf
    refine ⟨f, hf, he.1, fun ε hε => ?_⟩
    obtain ⟨x, y, sx, sy, cx, cy, h1, h2, h3, h4, h5⟩ := sfall_below hb 70000 he.2 ε hε
    refine ⟨x, y, sx, sy, cx, cy, h1, h2, h3, h4, ?_⟩
    norm_num at h5 ⊢
    exact h5

end Props

end PyroMat.Shipped
