import Verif.Shipped.Regular

/-!
# C95: enthalpies that fall where two pieces of a fit meet
-/

set_option linter.unusedSimpArgs false

namespace PyroMat.Shipped

open PyroMat PyroMat.Gas PyroMat.Gas.Spec PyroMat.Gas.Props

/-- The polynomial of `jump`, with its sign. -/
def fall (c : Cls) (r r' : List Dec) (u : Nat) : Int :=
  match c with
  | .ig => polyZ (homog 6 [-12 * dif r r' 4, 12 * dif r r' 5, 12 * dif r r' 0, 6 * dif r r' 1,
      4 * dif r r' 2, 3 * dif r r' 3]) (Int.ofNat u) * 10 ^ 9
  | .ig2 => polyZ (homog 3 [60 * dif r r' 5, 60 * dif r r' 0, 30 * dif r r' 1, 20 * dif r r' 2,
      15 * dif r r' 3, 12 * dif r r' 4]) (Int.ofNat u) * 831446261815324

/-- What it is to be divided by. -/
def over (c : Cls) (u : Nat) : Nat :=
  match c with
  | .ig => 12 * 10 ^ 70 * u
  | .ig2 => 6 * 10 ^ 70

/-- At some limit between two pieces the enthalpy falls by more than `d` kJ/kmol. -/
def falls (c : Cls) (d : Nat) : List Dec → List (List Dec) → Bool
  | _ :: t1 :: ts, r :: r' :: rs =>
    decide (Int.ofNat (d * over c (mK t1)) < fall c r r' (mK t1)) || falls c d (t1 :: ts) (r' :: rs)
  | _, _ => false

theorem fall_eq (c : Cls) {r r' : List Dec} (h : okRow r = true) (h' : okRow r' = true) {t : Dec}
    (ht : okT t = true) : 0 < over c (mK t) ∧ ((fall c r r' (mK t) : ℤ) : ℝ)
      = (hOf c (coef r) t.val - hOf c (coef r') t.val) * (over c (mK t) : ℕ) := by
  obtain ⟨v, p⟩ := mK_val ht
  have k := dif_val h h'
  have v' : ((Int.ofNat (mK t) : ℤ) : ℝ) = t.val * 1000 := by rw [← v]; simp
  have hu : 0 < mK t := by
    have : (0 : ℝ) < (mK t : ℕ) := by rw [v]; positivity
    exact_mod_cast this
  cases c with
  | ig =>
    refine ⟨by unfold over; positivity, ?_⟩
    unfold fall over
    push_cast
    rw [polyZ_cast, polyR_homog]
    simp only [List.map_cons, List.map_nil, polyR, List.length_cons, List.length_nil, Int.cast_mul, k]
    push_cast
    simp only [v, v']
    obtain ⟨x, hx0, hx⟩ : ∃ x, 0 < x ∧ t.val = x * 1000 := ⟨t.val / 1000, by positivity, by ring⟩
    rw [hx]
    have e : x * 1000 * 1000 / 10 ^ 6 = x := by ring
    have e' : x * 1000 / 1000 = x := by ring
    simp only [hOf, Sho.h, coef, e, e']
    field_simp
    ring
  | ig2 =>
    refine ⟨by unfold over; positivity, ?_⟩
    unfold fall over
    push_cast
    rw [polyZ_cast, polyR_homog]
    simp only [List.map_cons, List.map_nil, polyR, List.length_cons, List.length_nil, Int.cast_mul, k]
    push_cast
    simp only [v, v']
    generalize t.val = x
    have e : x * 1000 / 10 ^ 3 = x := by ring
    simp only [hOf, nasa_h_eq, coef, e, Ru_val]
    ring

theorem falls_spec (c : Cls) (a b d : Nat) (ts : List Dec) (rs : List (List Dec))
    (hw : walk c a b ts rs = true) (h : falls c d ts rs = true) :
    ∃ (i : Nat) (t0 t1 t2 : Dec) (r r' : List Dec), ts[i]? = some t0 ∧ ts[i + 1]? = some t1 ∧
      ts[i + 2]? = some t2 ∧ rs[i]? = some r ∧ rs[i + 1]? = some r' ∧
      (d : ℝ) < hOf c (coef r) t1.val - hOf c (coef r') t1.val := by
  induction rs generalizing ts with
  | nil => match ts, h with
    | _, h => simp [falls] at h
  | cons r rs ih =>
    match ts, rs, h, hw, ih with
    | [], _, h, _, _ => simp [falls] at h
    | [_], _, h, _, _ => simp [falls] at h
    | _ :: _ :: _, [], h, _, _ => simp [falls] at h
    | t0 :: t1 :: ts, r' :: rs, h, hw, ih =>
      have hok := walk_ok _ _ _ _ _ hw
      have hp := walk_piece _ _ _ _ _ hw
      have hw' : walk c a b (t1 :: ts) (r' :: rs) = true := by
        simp only [walk, Bool.and_eq_true] at hw
        exact hw.2
      simp only [falls, Bool.or_eq_true, decide_eq_true_eq] at h
      rcases h with h | h
      · cases ts with
        | nil => simp [walk] at hw'
        | cons t2 ts =>
          refine ⟨0, t0, t1, t2, r, r', by simp, by simp, by simp, by simp, by simp, ?_⟩
          have o1 := (hp 0 t0 t1 r (by simp) (by simp) (by simp)).1
          have o2 := (hp 1 t1 t2 r' (by simp) (by simp) (by simp)).1
          obtain ⟨h0, he⟩ := fall_eq c o1 o2 (hok t1 (by simp))
          have h : ((Int.ofNat (d * over c (mK t1)) : ℤ) : ℝ) < ((fall c r r' (mK t1) : ℤ) : ℝ) := by
            exact_mod_cast h
          rw [he] at h
          simp only [Int.ofNat_eq_natCast] at h
          push_cast at h
          exact lt_of_mul_lt_mul_right h (Nat.cast_nonneg _)
      · obtain ⟨i, s0, s1, s2, q, q', e1, e2, e3, e4, e5, e6⟩ := ih (t1 :: ts) hw' h
        exact ⟨i + 1, s0, s1, s2, q, q', by simpa using e1, by simpa using e2, by simpa using e3,
          by simpa using e4, by simpa using e5, e6⟩

/-- Then there is, as close below the limit as one likes, a temperature with a higher enthalpy. -/
theorem fall_below {f : File} {b : Nat × Nat} (hb : check f b = true) (d : Nat)
    (h : falls f.cls d f.Tlim f.C = true) (ε : ℝ) (hε : 0 < ε) :
    ∃ x y hx hy cx cy : ℝ, x < y ∧ y < x + ε ∧ f.gas.h x = some (hx, cx) ∧
      f.gas.h y = some (hy, cy) ∧ hy + d < hx := by
  have hw := check_walk hb
  have hwf := wellFormed hb
  have hR : 0 < Ru := Shipped.Ru_pos
  obtain ⟨i, t0, t1, t2, r, r', e1, e2, e3, e4, e5, e6⟩ := falls_spec _ _ _ _ _ _ hw h
  obtain ⟨-, l1, g1⟩ := walk_piece _ _ _ _ _ hw i t0 t1 r e1 e2 e4
  obtain ⟨-, l2, -⟩ := walk_piece _ _ _ _ _ hw (i + 1) t1 t2 r' e2 e3 e5
  have p0 := (mK_val (walk_ok _ _ _ _ _ hw t0 (List.mem_of_getElem? e1))).2
  set M := (b.2 : ℝ) / 100 * Ru with hM
  set D := hOf f.cls (coef r) t1.val - hOf f.cls (coef r') t1.val - d with hD
  have hD0 : 0 < D := by linarith
  have hM0 : 0 ≤ M := by positivity
  obtain ⟨w, w0, w1, w2, w3⟩ : ∃ w, 0 < w ∧ w < ε ∧ w ≤ t1.val - t0.val ∧ M * w < D := by
    refine ⟨min (ε / 2) (min (t1.val - t0.val) (D / (M + 1) / 2)), ?_, ?_, ?_, ?_⟩
    · refine lt_min (by linarith) (lt_min (by linarith) (by positivity))
    · exact lt_of_le_of_lt (min_le_left _ _) (by linarith)
    · exact (min_le_right _ _).trans (min_le_left _ _)
    · have hw' : min (ε / 2) (min (t1.val - t0.val) (D / (M + 1) / 2)) ≤ D / (M + 1) / 2 :=
        (min_le_right _ _).trans (min_le_right _ _)
      refine lt_of_le_of_lt (mul_le_mul_of_nonneg_left hw' hM0) ?_
      rw [div_div, ← mul_div_assoc, div_lt_iff₀ (by positivity)]
      nlinarith
  have hlen := walk_length _ _ _ _ _ hw
  have li : ∀ k (t : Dec), f.Tlim[k]? = some t → lim f.data.Tlim k = t.val := by
    intro k t ht
    simp [lim, File.data, ht]
  have k2 : i + 2 < f.Tlim.length := by
    by_contra hc
    rw [List.getElem?_eq_none (by omega)] at e3
    cases e3
  have len : f.data.Tlim.length = f.Tlim.length := by simp [File.data]
  have c1 : crange f.data.Tlim (t1.val - w) i := by
    unfold crange
    rw [if_neg (by omega), li i t0 e1, li (i + 1) t1 e2]
    constructor <;> linarith
  have c2 : crange f.data.Tlim t1.val (i + 1) := by
    unfold crange
    rw [li (i + 1) t1 e2, li (i + 2) t2 e3]
    split
    · exact ⟨le_rfl, l2.le⟩
    · exact ⟨le_rfl, l2⟩
  have q1 : f.data.C[i]? = some (coef r) := by simp [File.data, e4]
  have q2 : f.data.C[i + 1]? = some (coef r') := by simp [File.data, e5]
  have v1 : f.gas.h (t1.val - w) = some (hOf f.cls (coef r) (t1.val - w), cpOf f.cls (coef r) (t1.val - w)) := by
    have := fun g => piecewise_of (α := ℝ × ℝ) f.data hwf g (t1.val - w) i (by omega) c1 _ q1
    cases hc : f.cls <;> simp only [File.gas, hc, ig, ig2, cpOf, hOf]
    · exact this _
    · rw [this]; simp [nasa_hT_eq]
  have v2 : f.gas.h t1.val = some (hOf f.cls (coef r') t1.val, cpOf f.cls (coef r') t1.val) := by
    have := fun g => piecewise_of (α := ℝ × ℝ) f.data hwf g t1.val (i + 1) (by omega) c2 _ q2
    cases hc : f.cls <;> simp only [File.gas, hc, ig, ig2, cpOf, hOf]
    · exact this _
    · rw [this]; simp [nasa_hT_eq]
  refine ⟨t1.val - w, t1.val, _, _, _, _, by linarith, by linarith, v1, v2, ?_⟩
  have := (piece_growth f.cls (coef r) t0.val t1.val _ M p0 g1 (t1.val - w) t1.val (by linarith)
    (by linarith) le_rfl).2
  have e : t1.val - (t1.val - w) = w := by ring
  rw [e] at this
  linarith

namespace Props

/-- **C95 disagreement.**  The enthalpy of a gas should rise with temperature.  For 447 of the 982
shipped gases it falls at a limit between two pieces of the fit: as near to the limit as one likes
there are temperatures `x < y` with `h(x) > h(y)`.  For rubidium `ig.Rb` it falls by more than
283 kJ/kmol, so that for enthalpies in that band two temperatures about 13 K apart are equally
right. -/
theorem C95_fall_defect :
    (∃ l : List File, l.Sublist shipped ∧ l.length = 447 ∧ ∀ f ∈ l, ∀ ε > 0,
      ∃ x y hx hy cx cy : ℝ, x < y ∧ y < x + ε ∧ f.gas.h x = some (hx, cx) ∧
        f.gas.h y = some (hy, cy) ∧ hy < hx) ∧
    ∃ f ∈ shipped, f.id = "ig.Rb" ∧ ∀ ε > 0, ∃ x y hx hy cx cy : ℝ, x < y ∧ y < x + ε ∧
      f.gas.h x = some (hx, cx) ∧ f.gas.h y = some (hy, cy) ∧ hy + 283 < hx := by
  constructor
  · refine ⟨shipped.filter fun f => falls f.cls 0 f.Tlim f.C, List.filter_sublist, by decide +kernel, ?_⟩
    intro f hf ε hε
    obtain ⟨hf, hh⟩ := List.mem_filter.mp hf
    obtain ⟨b, hb⟩ := shipped_checked f hf
    simpa using fall_below hb 0 hh ε hε
  · have h : (shipped.any fun f => f.id == "ig.Rb" && falls f.cls 283 f.Tlim f.C) = true := by
      decide +kernel
    obtain ⟨f, hf, he⟩ := List.any_eq_true.mp h
    simp only [Bool.and_eq_true, beq_iff_eq] at he
    obtain ⟨b, hb⟩ := shipped_checked f hf
    exact ⟨f, hf, he.1, fun ε hε => by simpa using fall_below hb 283 he.2 ε hε⟩

end Props

end PyroMat.Shipped
