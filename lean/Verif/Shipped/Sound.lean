import Mathlib.Tactic.Linarith
import Mathlib.Tactic.FieldSimp
import Mathlib.Tactic.NormNum
import Mathlib.Tactic.Positivity
import Verif.Gas.PropsInner
import Verif.Shipped.Check

/-!
# What the checker accepts holds at every real temperature
-/

set_option linter.unusedSimpArgs false

namespace PyroMat.Shipped

open PyroMat PyroMat.Gas PyroMat.Gas.Props

theorem force_eq (n : Nat) (k : Nat → Bool) : force n k = k n := by cases n <;> rfl

theorem forceList_eq (l : List Nat) (k : List Nat → Bool) : forceList l k = k l := by
  induction l generalizing k with
  | nil => rfl
  | cons a as ih => simp only [forceList, force_eq, ih]

/-- The polynomial with coefficients `bs`. -/
def polyR : List ℝ → ℝ → ℝ
  | [], _ => 0
  | a :: as, x => a + x * polyR as x

theorem polyN_cast (l : List Nat) (u : Nat) :
    ((polyN l u : ℕ) : ℝ) = polyR (l.map (fun a : ℕ => (a : ℝ))) u := by
  induction l with
  | nil => simp [polyN, polyR]
  | cons a as ih =>
    simp only [polyN, polyR, List.map_cons, ← ih]
    simp [Nat.add_eq, Nat.mul_eq]

theorem polyR_nonneg (l : List Nat) (x : ℝ) (hx : 0 ≤ x) :
    0 ≤ polyR (l.map (fun a : ℕ => (a : ℝ))) x := by
  induction l with
  | nil => simp [polyR]
  | cons a as ih => simp only [List.map_cons, polyR]; positivity

theorem polyR_mono (l : List Nat) (x y : ℝ) (hx : 0 ≤ x) (hxy : x ≤ y) :
    polyR (l.map (fun a : ℕ => (a : ℝ))) x ≤ polyR (l.map (fun a : ℕ => (a : ℝ))) y := by
  induction l with
  | nil => simp [polyR]
  | cons a as ih =>
    simp only [List.map_cons, polyR]
    have := mul_le_mul hxy ih (polyR_nonneg as x hx) (hx.trans hxy)
    linarith

theorem fits_spec (P N : List Nat) (l h : Nat) (hf : Nat.ble (polyN N h) (polyN P l) = true) (x : ℝ)
    (h1 : (l : ℝ) ≤ x) (h2 : x ≤ h) :
    polyR (N.map (fun a : ℕ => (a : ℝ))) x ≤ polyR (P.map (fun a : ℕ => (a : ℝ))) x := by
  have hf := Nat.le_of_ble_eq_true hf
  have hf : ((polyN N h : ℕ) : ℝ) ≤ (polyN P l : ℕ) := by exact_mod_cast hf
  rw [polyN_cast, polyN_cast] at hf
  have l0 : (0 : ℝ) ≤ l := Nat.cast_nonneg l
  exact ((polyR_mono N x h (l0.trans h1) h2).trans hf).trans (polyR_mono P l x l0 h1)

theorem cover_spec (k : Nat) (P N : List Nat) (l h : Nat) (hc : cover k P N l h = true) (x : ℝ)
    (h1 : (l : ℝ) ≤ x) (h2 : x ≤ h) :
    polyR (N.map (fun a : ℕ => (a : ℝ))) x ≤ polyR (P.map (fun a : ℕ => (a : ℝ))) x := by
  induction k generalizing l h with
  | zero => exact fits_spec P N l h hc x h1 h2
  | succ k ih =>
    simp only [cover, Bool.or_eq_true, force_eq, Bool.and_eq_true] at hc
    rcases hc with hc | ⟨ha, hb⟩
    · exact fits_spec P N l h hc x h1 h2
    · rcases le_total x ((Nat.div (Nat.add l h) 2 : ℕ) : ℝ) with hm | hm
      · exact ih _ _ ha h1 hm
      · exact ih _ _ hb hm h2

theorem polyR_split (bs : List Int) (x : ℝ) :
    polyR (bs.map (fun b : ℤ => (b : ℝ))) x
      = polyR ((bs.map Int.toNat).map (fun a : ℕ => (a : ℝ))) x
        - polyR ((bs.map fun b => (Int.neg b).toNat).map (fun a : ℕ => (a : ℝ))) x := by
  induction bs with
  | nil => simp [polyR]
  | cons b bs ih =>
    simp only [List.map_cons, polyR, ih]
    have : (b : ℝ) = ((b.toNat : ℕ) : ℝ) - (((Int.neg b).toNat : ℕ) : ℝ) := by
      have h : b = (b.toNat : ℤ) - ((Int.neg b).toNat : ℤ) := by
        have : Int.neg b = -b := rfl
        rw [this]; omega
      exact_mod_cast congrArg (fun z : ℤ => (z : ℝ)) h
    rw [this]; ring

theorem homog_length (s : Nat) (bs : List Int) : (homog s bs).length = bs.length := by
  induction bs with
  | nil => rfl
  | cons b bs ih => simp [homog, ih]

theorem polyR_homog (s : Nat) (bs : List Int) (x : ℝ) :
    polyR ((homog s bs).map (fun b : ℤ => (b : ℝ))) x
      = 10 ^ (s * (bs.length - 1)) * polyR (bs.map (fun b : ℤ => (b : ℝ))) (x / 10 ^ s) := by
  induction bs with
  | nil => simp [homog, polyR]
  | cons b bs ih =>
    simp only [homog, List.map_cons, polyR, ih]
    cases bs with
    | nil => simp [polyR]
    | cons c cs =>
      have h10 : (10 : ℝ) ^ s ≠ 0 := by positivity
      simp only [List.length_cons, Nat.add_sub_cancel, List.map_cons]
      push_cast
      rw [show s * (cs.length + 1) = s * cs.length + s by ring, pow_add]
      simp only [Int.ofNat_eq_natCast]
      push_cast
      field_simp
      ring

theorem nonneg_spec (s : Nat) (bs : List Int) (l h : Nat) (hn : nonneg s bs l h = true) (x : ℝ)
    (h1 : (l : ℝ) ≤ x) (h2 : x ≤ h) :
    0 ≤ polyR (bs.map (fun b : ℤ => (b : ℝ))) (x / 10 ^ s) := by
  simp only [nonneg, forceList_eq] at hn
  have := cover_spec 14 _ _ l h hn x h1 h2
  have h2 := polyR_split (homog s bs) x
  rw [polyR_homog] at h2
  have : 0 ≤ 10 ^ (s * (bs.length - 1)) * polyR (bs.map (fun b : ℤ => (b : ℝ))) (x / 10 ^ s) := by
    rw [h2]; linarith
  exact (mul_nonneg_iff_of_pos_left (by positivity)).mp this

theorem polyZ_cast (l : List Int) (u : Int) :
    ((polyZ l u : ℤ) : ℝ) = polyR (l.map (fun a : ℤ => (a : ℝ))) u := by
  induction l with
  | nil => simp [polyZ, polyR]
  | cons a as ih => simp only [polyZ, polyR, List.map_cons, ← ih]; push_cast; ring

/-! ## One row -/

theorem Ru_val : Ru = 8.31446261815324 := by
  unfold Ru Units.const_Ru Units.const_k Units.const_Na
  norm_num

theorem Ru_pos : 0 < Ru := by rw [Ru_val]; norm_num

theorem cof_ok {r : List Dec} (h : okRow r = true) (k : Nat) : (cof r k).e ≤ 40 := by
  simp only [okRow, Bool.and_eq_true, List.all_eq_true] at h
  unfold cof
  rw [List.getD_eq_getElem?_getD]
  cases hk : r[k]? with
  | none => simp
  | some d => exact Nat.le_of_ble_eq_true (h.2 d (List.mem_of_getElem? hk))

theorem sc_val {d : Dec} (h : d.e ≤ 40) : ((sc d : ℤ) : ℝ) = d.val * 10 ^ 40 := by
  have h10 : (10 : ℝ) ^ d.e ≠ 0 := by positivity
  have hp : (10 : ℝ) ^ 40 = 10 ^ d.e * 10 ^ (40 - d.e) := by rw [← pow_add]; congr 1; omega
  simp only [sc, Dec.val, Int.ofNat_eq_natCast]
  push_cast
  rw [hp]
  field_simp

/-- The heat capacity of a class. -/
noncomputable def cpOf : Cls → Coef → ℝ → ℝ
  | .ig => Sho.cp
  | .ig2 => Nasa.cp

/-- The enthalpy of a class. -/
noncomputable def hOf : Cls → Coef → ℝ → ℝ
  | .ig => Sho.h
  | .ig2 => Nasa.h

/-- The positive factor between `low` and the excess of the heat capacity. -/
noncomputable def weight : Cls → ℝ → ℝ
  | .ig, T => (T / 1000) ^ 2 * 10 ^ 40
  | .ig2, _ => 10 ^ 40 / Ru

theorem weight_pos (c : Cls) {T : ℝ} (hT : 0 < T) : 0 < weight c T := by
  have := Ru_pos
  cases c <;> simp only [weight] <;> positivity

theorem low_eq (c : Cls) {r : List Dec} (hr : okRow r = true) (a : Nat) (T : ℝ) (hT : 0 < T) :
    polyR ((low c r (Int.ofNat a)).map (fun b : ℤ => (b : ℝ))) (T * 1000 / 10 ^ expo c)
      = (cpOf c (coef r) T - (a : ℝ) / 100 * Ru) * weight c T := by
  have k := fun i => sc_val (cof_ok hr i)
  cases c with
  | ig =>
    simp only [low, List.map_cons, List.map_nil, polyR, expo, Int.cast_sub, Int.cast_mul, k, ru,
      Int.ofNat_eq_natCast]
    push_cast
    simp only [cpOf, Sho.cp, coef, weight]
    rw [Ru_val]
    obtain ⟨t, ht0, rfl⟩ : ∃ t, 0 < t ∧ T = t * 1000 := ⟨T / 1000, by positivity, by ring⟩
    have e : t * 1000 * 1000 / 10 ^ 6 = t := by ring
    have e' : t * 1000 / 1000 = t := by ring
    rw [e, e']
    have : (cof r 4).val / (t * t) * t ^ 2 = (cof r 4).val := by field_simp
    linear_combination (-10 ^ 40) * this
  | ig2 =>
    simp only [low, List.map_cons, List.map_nil, polyR, expo, Int.cast_sub, Int.cast_mul, k,
      Int.ofNat_eq_natCast]
    push_cast
    simp only [cpOf, nasa_cp_eq, coef, weight]
    have e : T * 1000 / 10 ^ 3 = T := by ring
    have hR := Ru_pos
    rw [e]
    field_simp
    ring

theorem low_spec (c : Cls) {r : List Dec} (hr : okRow r = true) (a : Nat) (T : ℝ) (hT : 0 < T)
    (h : 0 ≤ polyR ((low c r (Int.ofNat a)).map (fun b : ℤ => (b : ℝ))) (T * 1000 / 10 ^ expo c)) :
    (a : ℝ) / 100 * Ru ≤ cpOf c (coef r) T := by
  rw [low_eq c hr a T hT] at h
  have := (mul_nonneg_iff_of_pos_right (weight_pos c hT)).mp h
  linarith

theorem up_neg (l : List Int) (x : ℝ) :
    polyR ((l.map fun x => Int.neg x).map (fun b : ℤ => (b : ℝ))) x
      = - polyR (l.map (fun b : ℤ => (b : ℝ))) x := by
  induction l with
  | nil => simp [polyR]
  | cons b bs ih =>
    simp only [List.map_cons, polyR, ih]
    have : ((Int.neg b : ℤ) : ℝ) = -(b : ℝ) := by
      have : Int.neg b = -b := rfl
      rw [this]; push_cast; ring
    rw [this]; ring

theorem up_spec (c : Cls) {r : List Dec} (hr : okRow r = true) (a : Nat) (T : ℝ) (hT : 0 < T)
    (h : 0 ≤ polyR ((up c r (Int.ofNat a)).map (fun b : ℤ => (b : ℝ))) (T * 1000 / 10 ^ expo c)) :
    cpOf c (coef r) T ≤ (a : ℝ) / 100 * Ru := by
  unfold up at h
  rw [up_neg, low_eq c hr a T hT, ← neg_mul] at h
  have := (mul_nonneg_iff_of_pos_right (weight_pos c hT)).mp h
  linarith

/-! ## The pieces of a file -/

theorem mK_val {d : Dec} (h : okT d = true) : ((mK d : ℕ) : ℝ) = d.val * 1000 ∧ 0 < d.val := by
  simp only [okT, Bool.and_eq_true] at h
  have h1 := Nat.le_of_ble_eq_true h.1
  have h2 := Nat.le_of_ble_eq_true h.2
  have h10 : (10 : ℝ) ^ d.e ≠ 0 := by positivity
  have hp : (1000 : ℝ) = 10 ^ d.e * 10 ^ (3 - d.e) := by
    rw [← pow_add, show d.e + (3 - d.e) = 3 by omega]; norm_num
  have hm : ((d.m.toNat : ℕ) : ℝ) = (d.m : ℝ) := by
    have : ((d.m.toNat : ℕ) : ℤ) = d.m := by omega
    exact_mod_cast congrArg (fun z : ℤ => (z : ℝ)) this
  have hm0 : (0 : ℝ) < d.m := by
    have : 0 < d.m := by omega
    exact_mod_cast this
  constructor
  · simp only [mK, Dec.val]
    push_cast
    rw [hp, hm]
    field_simp
  · unfold Dec.val; positivity

theorem walk_length (c : Cls) (a b : Nat) (ts : List Dec) (rs : List (List Dec))
    (h : walk c a b ts rs = true) : ts.length = rs.length + 1 := by
  induction rs generalizing ts with
  | nil =>
    match ts, h with
    | [t], _ => rfl
    | [], h => simp [walk] at h
    | _ :: _ :: _, h => simp [walk] at h
  | cons r rs ih =>
    match ts, h with
    | t0 :: t1 :: ts, h =>
      simp only [walk, Bool.and_eq_true] at h
      simpa using ih _ h.2
    | [t], h => simp [walk] at h
    | [], h => simp [walk] at h

theorem walk_ok (c : Cls) (a b : Nat) (ts : List Dec) (rs : List (List Dec))
    (h : walk c a b ts rs = true) : ∀ t ∈ ts, okT t = true := by
  induction rs generalizing ts with
  | nil =>
    match ts, h with
    | [t], h => simpa [walk] using h
    | [], h => simp [walk] at h
    | _ :: _ :: _, h => simp [walk] at h
  | cons r rs ih =>
    match ts, h with
    | t0 :: t1 :: ts, h =>
      simp only [walk, Bool.and_eq_true] at h
      intro t ht
      rcases List.mem_cons.mp ht with rfl | ht
      · exact h.1.1.1.1
      · exact ih _ h.2 t ht
    | [t], h => simp [walk] at h
    | [], h => simp [walk] at h

theorem walk_piece (c : Cls) (a b : Nat) (ts : List Dec) (rs : List (List Dec))
    (h : walk c a b ts rs = true) (i : Nat) (t0 t1 : Dec) (r : List Dec) (h0 : ts[i]? = some t0)
    (h1 : ts[i + 1]? = some t1) (hr : rs[i]? = some r) :
    okRow r = true ∧ t0.val < t1.val ∧ ∀ T : ℝ, t0.val ≤ T → T ≤ t1.val →
      (a : ℝ) / 100 * Ru ≤ cpOf c (coef r) T ∧ cpOf c (coef r) T ≤ (b : ℝ) / 100 * Ru := by
  have hok := walk_ok c a b ts rs h
  induction rs generalizing ts i with
  | nil => simp at hr
  | cons r' rs ih =>
    match ts, h, h0, h1, hok with
    | [t], h, _, _, _ => simp [walk] at h
    | [], h, _, _, _ => simp [walk] at h
    | s0 :: s1 :: ts, h, h0, h1, hok =>
      simp only [walk, Bool.and_eq_true, force_eq] at h
      obtain ⟨⟨⟨⟨k1, k2⟩, k3⟩, k4, k5⟩, k6⟩ := h
      cases i with
      | succ i =>
        exact ih (s1 :: ts) k6 i (by simpa using h0) (by simpa using h1) (by simpa using hr)
          (fun t ht => hok t (List.mem_cons_of_mem _ ht))
      | zero =>
        simp only [List.getElem?_cons_zero, List.getElem?_cons_succ, zero_add, Option.some.injEq] at h0 h1 hr
        subst h0 h1 hr
        obtain ⟨v0, p0⟩ := mK_val (hok s0 (by simp))
        obtain ⟨v1, p1⟩ := mK_val (hok s1 (by simp))
        refine ⟨k2, ?_, fun T g1 g2 => ?_⟩
        · have : mK s0 < mK s1 := by simpa [Nat.blt] using k3
          have : ((mK s0 : ℕ) : ℝ) < (mK s1 : ℕ) := by exact_mod_cast this
          rw [v0, v1] at this
          linarith
        · have e1 : ((mK s0 : ℕ) : ℝ) ≤ T * 1000 := by rw [v0]; linarith
          have e2 : T * 1000 ≤ ((mK s1 : ℕ) : ℝ) := by rw [v1]; linarith
          exact ⟨low_spec c k2 a T (p0.trans_le g1) (nonneg_spec _ _ _ _ k4 _ e1 e2),
            up_spec c k2 b T (p0.trans_le g1) (nonneg_spec _ _ _ _ k5 _ e1 e2)⟩

/-! ## Jumps -/

theorem le_div_succ (x D : Nat) (hD : 0 < D) : (x : ℝ) / D ≤ ((x / D + 1 : ℕ) : ℝ) := by
  rw [div_le_iff₀ (by exact_mod_cast hD)]
  have : x < (x / D + 1) * D := by
    rw [mul_comm]; exact Nat.lt_mul_div_succ x hD
  exact_mod_cast this.le

theorem dif_val {r r' : List Dec} (h : okRow r = true) (h' : okRow r' = true) (k : Nat) :
    ((dif r r' k : ℤ) : ℝ) = ((cof r k).val - (cof r' k).val) * 10 ^ 40 := by
  unfold dif
  push_cast
  rw [sc_val (cof_ok h k), sc_val (cof_ok h' k)]
  ring

theorem abs_ratio {A B m D : ℝ} (hm : 0 < m) (hD : 0 < D) (h : A * D = B * m) :
    |A| = |B| * m / D := by
  rw [eq_div_iff hD.ne', ← abs_of_pos hD, ← abs_mul, h, abs_mul, abs_of_pos hm]

theorem jump_spec (c : Cls) {r r' : List Dec} (h : okRow r = true) (h' : okRow r' = true) {t : Dec}
    (ht : okT t = true) :
    |hOf c (coef r) t.val - hOf c (coef r') t.val| ≤ ((jump c r r' (mK t) : ℕ) : ℝ) := by
  obtain ⟨v, p⟩ := mK_val ht
  have k := dif_val h h'
  have v' : ((Int.ofNat (mK t) : ℤ) : ℝ) = t.val * 1000 := by rw [← v]; simp
  have hu : 0 < mK t := by
    have : (0 : ℝ) < (mK t : ℕ) := by rw [v]; positivity
    exact_mod_cast this
  cases c with
  | ig =>
    unfold jump
    refine le_trans (le_of_eq ?_) (le_div_succ _ _ (by positivity))
    push_cast
    rw [Nat.cast_natAbs]
    push_cast
    rw [polyZ_cast, polyR_homog]
    simp only [List.map_cons, List.map_nil, polyR, List.length_cons, List.length_nil, Int.cast_mul, k]
    push_cast
    simp only [v, v']
    obtain ⟨x, hx0, hx⟩ : ∃ x, 0 < x ∧ t.val = x * 1000 := ⟨t.val / 1000, by positivity, by ring⟩
    rw [hx]
    have e : x * 1000 * 1000 / 10 ^ 6 = x := by ring
    have e' : x * 1000 / 1000 = x := by ring
    simp only [hOf, Sho.h, coef, e, e']
    refine abs_ratio (by positivity) (by positivity) ?_
    field_simp
    ring
  | ig2 =>
    unfold jump
    refine le_trans (le_of_eq ?_) (le_div_succ _ _ (by positivity))
    push_cast
    rw [Nat.cast_natAbs]
    push_cast
    rw [polyZ_cast, polyR_homog]
    simp only [List.map_cons, List.map_nil, polyR, List.length_cons, List.length_nil, Int.cast_mul, k]
    push_cast
    simp only [v, v']
    generalize t.val = x
    have e : x * 1000 / 10 ^ 3 = x := by ring
    simp only [hOf, nasa_h_eq, coef, e, Ru_val]
    refine abs_ratio (by positivity) (by positivity) ?_
    ring

end PyroMat.Shipped
