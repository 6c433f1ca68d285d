import Verif.Shipped.Regular
import Verif.Shipped.Slopes

/-!
# What the checks of steepness say at every real temperature
-/

set_option linter.unusedSimpArgs false

namespace PyroMat.Shipped

open PyroMat PyroMat.Gas PyroMat.Gas.Props PyroMat.Gas.Spec

/-! ## Steepness -/

/-- The derivative of the heat capacity. -/
noncomputable def dcpOf : Cls → Coef → ℝ → ℝ
  | .ig, C, T => (C.c1 + 2 * C.c2 * (T / 1000) + 3 * C.c3 * (T / 1000) ^ 2 - 2 * C.c4 / (T / 1000) ^ 3) / 1000
  | .ig2, C, T => Ru * (C.c1 + 2 * C.c2 * T + 3 * C.c3 * T ^ 2 + 4 * C.c4 * T ^ 3)

theorem cp_deriv (c : Cls) (C : Coef) {T : ℝ} (hT : 0 < T) : HasDerivAt (cpOf c C) (dcpOf c C T) T := by
  cases c with
  | ig =>
    have ht : HasDerivAt (fun T : ℝ => T / 1000) (1 / 1000) T := (hasDerivAt_id' T).div_const 1000
    have hne : T / 1000 ≠ 0 := by positivity
    have h2 := (ht.mul_const C.c3).const_add C.c2
    have h1 := (ht.mul h2).const_add C.c1
    have h0 := ((ht.mul h1).const_add C.c0).add
      ((hasDerivAt_const T C.c4).div (ht.mul ht) (by exact mul_ne_zero hne hne))
    refine h0.congr_deriv ?_
    simp only [dcpOf, Pi.mul_apply]
    field_simp
    ring
  | ig2 =>
    have hfun : cpOf .ig2 C = fun T => Ru * (C.c0 + C.c1 * T + C.c2 * T ^ 2 + C.c3 * T ^ 3 + C.c4 * T ^ 4) :=
      funext (nasa_cp_eq C)
    rw [hfun]
    have hi := hasDerivAt_id' T
    refine (((((hi.const_mul C.c1).const_add C.c0).add ((hi.pow 2).const_mul C.c2)).add
      ((hi.pow 3).const_mul C.c3)).add ((hi.pow 4).const_mul C.c4)).const_mul Ru |>.congr_deriv ?_
    simp only [dcpOf]
    push_cast
    ring

/-- The positive factor between `mild` and the margin. -/
noncomputable def weight3 : Cls → ℝ → ℝ
  | .ig, T => (T / 1000) ^ 3 * (15000 * 10 ^ 40)
  | .ig2, _ => 15000 * 10 ^ 40 / Ru

theorem weight3_pos (c : Cls) {T : ℝ} (hT : 0 < T) : 0 < weight3 c T := by
  have := Ru_pos
  cases c <;> simp only [weight3] <;> positivity

theorem mild_eq (c : Cls) {r : List Dec} (hr : okRow r = true) (a : Nat) (s : Int) (T : ℝ) (hT : 0 < T) :
    polyR ((mild c r (Int.ofNat a) s).map (fun b : ℤ => (b : ℝ))) (T * 1000 / 10 ^ expo c)
      = ((a : ℝ) / 100 * Ru / 150 + s * dcpOf c (coef r) T) * weight3 c T := by
  have k := fun i => sc_val (cof_ok hr i)
  cases c with
  | ig =>
    simp only [mild, List.map_cons, List.map_nil, polyR, expo, Int.cast_add, Int.cast_mul, Int.cast_neg, k, ru,
      Int.ofNat_eq_natCast]
    push_cast
    simp only [dcpOf, coef, weight3]
    rw [Ru_val]
    obtain ⟨t, ht0, rfl⟩ : ∃ t, 0 < t ∧ T = t * 1000 := ⟨T / 1000, by positivity, by ring⟩
    have e : t * 1000 * 1000 / 10 ^ 6 = t := by ring
    have e' : t * 1000 / 1000 = t := by ring
    rw [e, e']
    have : (cof r 4).val / t ^ 3 * t ^ 3 = (cof r 4).val := by field_simp
    field_simp
    ring
  | ig2 =>
    simp only [mild, List.map_cons, List.map_nil, polyR, expo, Int.cast_add, Int.cast_mul, k,
      Int.ofNat_eq_natCast]
    push_cast
    simp only [dcpOf, coef, weight3]
    have e : T * 1000 / 10 ^ 3 = T := by ring
    have hR := Ru_pos
    rw [e]
    field_simp
    ring

theorem flats_piece (c : Cls) (a : Nat) (ts : List Dec) (rs : List (List Dec)) (hf : flats c a ts rs = true)
    (hok : ∀ t ∈ ts, okT t = true) (hr : ∀ r ∈ rs, okRow r = true) (i : Nat) (t0 t1 : Dec) (r : List Dec)
    (h0 : ts[i]? = some t0) (h1 : ts[i + 1]? = some t1) (h2 : rs[i]? = some r) (T : ℝ) (g1 : t0.val ≤ T)
    (g2 : T ≤ t1.val) : |dcpOf c (coef r) T| ≤ (a : ℝ) / 100 * Ru / 150 := by
  induction rs generalizing ts i with
  | nil => simp at h2
  | cons r' rs ih =>
    match ts, hf, h0, h1, hok with
    | [t], _, _, h1, _ => simp at h1
    | [], _, h0, _, _ => simp at h0
    | s0 :: s1 :: ts, hf, h0, h1, hok =>
      simp only [flats, Bool.and_eq_true, force_eq] at hf
      obtain ⟨⟨k1, k2⟩, k3⟩ := hf
      cases i with
      | succ i =>
        exact ih (s1 :: ts) k3 (fun t ht => hok t (List.mem_cons_of_mem _ ht))
          (fun r h => hr r (List.mem_cons_of_mem _ h)) i (by simpa using h0) (by simpa using h1) (by simpa using h2)
      | zero =>
        simp only [List.getElem?_cons_zero, List.getElem?_cons_succ, zero_add, Option.some.injEq] at h0 h1 h2
        subst h0 h1 h2
        obtain ⟨v0, p0⟩ := mK_val (hok s0 (by simp))
        obtain ⟨v1, p1⟩ := mK_val (hok s1 (by simp))
        have e1 : ((mK s0 : ℕ) : ℝ) ≤ T * 1000 := by rw [v0]; linarith
        have e2 : T * 1000 ≤ ((mK s1 : ℕ) : ℝ) := by rw [v1]; linarith
        have hT : 0 < T := p0.trans_le g1
        have hro := hr r' (by simp)
        have A := nonneg_spec _ _ _ _ k1 _ e1 e2
        have B := nonneg_spec _ _ _ _ k2 _ e1 e2
        rw [mild_eq c hro a _ T hT] at A B
        have A := (mul_nonneg_iff_of_pos_right (weight3_pos c hT)).mp A
        have B := (mul_nonneg_iff_of_pos_right (weight3_pos c hT)).mp B
        push_cast at A B
        rw [abs_le]
        constructor <;> linarith

/-! ## Growth between bounds on the heat capacity that are not whole hundredths -/

theorem piece_growth_open (c : Cls) (C : Coef) (lo hi m M : ℝ) (h0 : 0 < lo)
    (hb : ∀ T, lo < T → T < hi → m ≤ cpOf c C T ∧ cpOf c C T ≤ M) (x y : ℝ) (h1 : lo ≤ x)
    (h2 : x ≤ y) (h3 : y ≤ hi) :
    m * (y - x) ≤ hOf c C y - hOf c C x ∧ hOf c C y - hOf c C x ≤ M * (y - x) := by
  have hd : ∀ T ∈ Set.Icc lo hi, HasDerivAt (hOf c C) (cpOf c C T) T :=
    fun T hT => h_deriv c C (h0.trans_le hT.1)
  have hc : ContinuousOn (hOf c C) (Set.Icc lo hi) :=
    fun T hT => (hd T hT).continuousAt.continuousWithinAt
  have hi' : ∀ T ∈ interior (Set.Icc lo hi), T ∈ Set.Icc lo hi := fun T hT => interior_subset hT
  have hf : DifferentiableOn ℝ (hOf c C) (interior (Set.Icc lo hi)) :=
    fun T hT => (hd T (hi' T hT)).differentiableAt.differentiableWithinAt
  constructor
  · refine (convex_Icc lo hi).mul_sub_le_image_sub_of_le_deriv hc hf (fun T hT => ?_) x
      ⟨h1, h2.trans h3⟩ y ⟨h1.trans h2, h3⟩ h2
    rw [(hd T (hi' T hT)).deriv]
    rw [interior_Icc] at hT
    exact (hb T hT.1 hT.2).1
  · refine (convex_Icc lo hi).image_sub_le_mul_sub_of_deriv_le hc hf (fun T hT => ?_) x
      ⟨h1, h2.trans h3⟩ y ⟨h1.trans h2, h3⟩ h2
    rw [(hd T (hi' T hT)).deriv]
    rw [interior_Icc] at hT
    exact (hb T hT.1 hT.2).2

/-- Growth of the enthalpy from a temperature in one piece to a higher one in the same or a later
piece. -/
theorem chain_open (c : Cls) (a b : Nat) (ts : List Dec) (rs : List (List Dec))
    (h : walk c a b ts rs = true) (m M : ℝ)
    (hb : ∀ (i : Nat) (t0 t1 : Dec) (r : List Dec), ts[i]? = some t0 → ts[i + 1]? = some t1 → rs[i]? = some r →
      ∀ T, t0.val < T → T < t1.val → m ≤ cpOf c (coef r) T ∧ cpOf c (coef r) T ≤ M) (i j : Nat) (hij : i ≤ j) (s0 s1 u0 u1 : Dec) (r q : List Dec)
    (e1 : ts[i]? = some s0) (e2 : ts[i + 1]? = some s1) (e3 : rs[i]? = some r)
    (e4 : ts[j]? = some u0) (e5 : ts[j + 1]? = some u1) (e6 : rs[j]? = some q) (x y : ℝ)
    (h1 : s0.val ≤ x) (h2 : x ≤ s1.val) (h3 : u0.val ≤ y) (h4 : y ≤ u1.val) (hxy : x ≤ y) :
    m * (y - x) - (jumps c ts rs : ℕ) ≤ hOf c (coef q) y - hOf c (coef r) x ∧
      hOf c (coef q) y - hOf c (coef r) x ≤ M * (y - x) + (jumps c ts rs : ℕ) := by
  induction rs generalizing ts i j s0 s1 r x with
  | nil => simp at e3
  | cons r0 rs ih =>
    have hok := walk_ok c a b ts (r0 :: rs) h
    have hp := walk_piece c a b ts (r0 :: rs) h
    match ts, h, e1, e2, e4, e5, hok, hp, hb with
    | [t], h, _, _, _, _, _, _, _ => simp [walk] at h
    | [], h, _, _, _, _, _, _, _ => simp [walk] at h
    | t0 :: t1 :: ts, h, e1, e2, e4, e5, hok, hp, hb =>
      have hw : walk c a b (t1 :: ts) rs = true := by
        simp only [walk, Bool.and_eq_true] at h
        exact h.2
      have hbt : ∀ (i : Nat) (s0 s1 : Dec) (r : List Dec), (t1 :: ts)[i]? = some s0 → (t1 :: ts)[i + 1]? = some s1 →
          rs[i]? = some r → ∀ T, s0.val < T → T < s1.val → m ≤ cpOf c (coef r) T ∧ cpOf c (coef r) T ≤ M :=
        fun i s0 s1 r a1 a2 a3 => hb (i + 1) s0 s1 r (by simpa using a1) (by simpa using a2) (by simpa using a3)
      have tail : jumps c (t1 :: ts) rs ≤ jumps c (t0 :: t1 :: ts) (r0 :: rs) := by
        cases rs with
        | nil => simp [jumps]
        | cons r1 rs => simp only [jumps]; omega
      have tail' : ((jumps c (t1 :: ts) rs : ℕ) : ℝ) ≤ (jumps c (t0 :: t1 :: ts) (r0 :: rs) : ℕ) := by
        exact_mod_cast tail
      cases i with
      | succ i =>
        obtain ⟨j, rfl⟩ : ∃ k, j = k + 1 := ⟨j - 1, by omega⟩
        have := ih (t1 :: ts) hw hbt i j (by omega) s0 s1 r (by simpa using e1) (by simpa using e2)
          (by simpa using e3) (by simpa using e4) (by simpa using e5) (by simpa using e6) x h1 h2 hxy
        constructor <;> linarith [this.1, this.2]
      | zero =>
        have g1 : t0 = s0 := by simpa using e1
        have g2 : t1 = s1 := by simpa using e2
        have g3 : r0 = r := by simpa using e3
        subst g1 g2 g3
        obtain ⟨o1, o2, o3⟩ := hp 0 t0 t1 r0 (by simp) (by simp) (by simp)
        have p0 := (mK_val (hok t0 (by simp))).2
        have J0 : (0 : ℝ) ≤ (jumps c (t0 :: t1 :: ts) (r0 :: rs) : ℕ) := Nat.cast_nonneg _
        have pg := fun z (hz : x ≤ z) (hz' : z ≤ t1.val) =>
          piece_growth_open c (coef r0) t0.val t1.val _ _ p0 (hb 0 t0 t1 r0 (by simp) (by simp) (by simp)) x z h1 hz hz'
        cases j with
        | zero =>
          have g4 : t1 = u1 := by simpa using e5
          have g6 : r0 = q := by simpa using e6
          subst g4 g6
          have := pg y hxy h4
          constructor <;> linarith [this.1, this.2]
        | succ j =>
          cases rs with
          | nil => simp at e6
          | cons r1 rs =>
            cases ts with
            | nil => simp [walk] at hw
            | cons t2 ts =>
              have hp' := walk_piece c a b (t1 :: t2 :: ts) (r1 :: rs) hw
              obtain ⟨o4, o5, -⟩ := hp' 0 t1 t2 r1 (by simp) (by simp) (by simp)
              have hy : t1.val ≤ y := by
                have hu := walk_ok c a b _ _ hw
                have mono : ∀ (k : Nat) (d : Dec), (t1 :: t2 :: ts)[k]? = some d → t1.val ≤ d.val := by
                  intro k
                  induction k with
                  | zero => intro d hd; simp at hd; rw [hd]
                  | succ k ihk =>
                    intro d hd
                    have hlen := walk_length c a b _ _ hw
                    have hk : k + 1 < (t1 :: t2 :: ts).length := by
                      by_contra hc
                      rw [List.getElem?_eq_none (by omega)] at hd
                      cases hd
                    have hkr : k < (r1 :: rs).length := by omega
                    have m1 := hp' k _ d _ (List.getElem?_eq_getElem (by omega)) hd
                      (List.getElem?_eq_getElem hkr)
                    exact (ihk _ (List.getElem?_eq_getElem (by omega))).trans m1.2.1.le
                exact (mono j u0 (by simpa using e4)).trans h3
              have A := pg t1.val h2 le_rfl
              have B := jump_spec c o1 o4 (hok t1 (by simp))
              have D := ih (t1 :: t2 :: ts) hw hbt 0 j (by omega) t1 t2 r1 (by simp) (by simp) (by simp)
                (by simpa using e4) (by simpa using e5) (by simpa using e6) t1.val le_rfl o5.le hy
              have J1 : ((jumps c (t0 :: t1 :: t2 :: ts) (r0 :: r1 :: rs) : ℕ) : ℝ)
                  = (jump c r0 r1 (mK t1) : ℕ) + (jumps c (t1 :: t2 :: ts) (r1 :: rs) : ℕ) := by
                simp only [jumps]; push_cast; rfl
              rw [abs_le] at B
              constructor <;> nlinarith [A.1, A.2, B.1, B.2, D.1, D.2]

end PyroMat.Shipped
