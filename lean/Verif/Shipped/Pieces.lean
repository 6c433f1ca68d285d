import Mathlib.Analysis.Calculus.Deriv.MeanValue
import Verif.Shipped.Sound

/-!
# A checked file as a gas: usable data, bounds on the heat capacity, growth of the enthalpy
-/

set_option linter.unusedSimpArgs false

namespace PyroMat.Shipped

open PyroMat PyroMat.Gas PyroMat.Gas.Props PyroMat.Gas.Spec

theorem h_deriv (c : Cls) (C : Coef) {T : ℝ} (hT : 0 < T) : HasDerivAt (hOf c C) (cpOf c C T) T := by
  cases c with
  | ig => exact sho_h_deriv C hT.ne'
  | ig2 => exact nasa_h_deriv C T

theorem piece_growth (c : Cls) (C : Coef) (lo hi m M : ℝ) (h0 : 0 < lo)
    (hb : ∀ T, lo ≤ T → T ≤ hi → m ≤ cpOf c C T ∧ cpOf c C T ≤ M) (x y : ℝ) (h1 : lo ≤ x)
    (h2 : x ≤ y) (h3 : y ≤ hi) :
    m * (y - x) ≤ hOf c C y - hOf c C x ∧ hOf c C y - hOf c C x ≤ M * (y - x) := by
  have hd : ∀ T ∈ Set.Icc lo hi, HasDerivAt (hOf c C) (cpOf c C T) T :=
    fun T hT => h_deriv c C (h0.trans_le hT.1)
  have hc : ContinuousOn (hOf c C) (Set.Icc lo hi) :=
    fun T hT => (hd T hT).continuousAt.continuousWithinAt
  have hi' : ∀ T ∈ interior (Set.Icc lo hi), T ∈ Set.Icc lo hi := fun T hT => interior_subset hT
  have hf : DifferentiableOn ℝ (hOf c C) (interior (Set.Icc lo hi)) :=
    fun T hT => (hd T (hi' T hT)).differentiableAt.differentiableWithinAt
  constructor
  · refine (convex_Icc lo hi).mul_sub_le_image_sub_of_le_deriv hc hf (fun T hT => ?_) x
      ⟨h1, h2.trans h3⟩ y ⟨h1.trans h2, h3⟩ h2
    rw [(hd T (hi' T hT)).deriv]
    exact (hb T (hi' T hT).1 (hi' T hT).2).1
  · refine (convex_Icc lo hi).image_sub_le_mul_sub_of_deriv_le hc hf (fun T hT => ?_) x
      ⟨h1, h2.trans h3⟩ y ⟨h1.trans h2, h3⟩ h2
    rw [(hd T (hi' T hT)).deriv]
    exact (hb T (hi' T hT).1 (hi' T hT).2).2

/-- Growth of the enthalpy from a temperature in one piece to a higher one in the same or a later
piece. -/
theorem chain (c : Cls) (a b : Nat) (ts : List Dec) (rs : List (List Dec))
    (h : walk c a b ts rs = true) (i j : Nat) (hij : i ≤ j) (s0 s1 u0 u1 : Dec) (r q : List Dec)
    (e1 : ts[i]? = some s0) (e2 : ts[i + 1]? = some s1) (e3 : rs[i]? = some r)
    (e4 : ts[j]? = some u0) (e5 : ts[j + 1]? = some u1) (e6 : rs[j]? = some q) (x y : ℝ)
    (h1 : s0.val ≤ x) (h2 : x ≤ s1.val) (h3 : u0.val ≤ y) (h4 : y ≤ u1.val) (hxy : x ≤ y) :
    (a : ℝ) / 100 * Ru * (y - x) - (jumps c ts rs : ℕ) ≤ hOf c (coef q) y - hOf c (coef r) x ∧
      hOf c (coef q) y - hOf c (coef r) x ≤ (b : ℝ) / 100 * Ru * (y - x) + (jumps c ts rs : ℕ) := by
  induction rs generalizing ts i j s0 s1 r x with
  | nil => simp at e3
  | cons r0 rs ih =>
    have hok := walk_ok c a b ts (r0 :: rs) h
    have hp := walk_piece c a b ts (r0 :: rs) h
    match ts, h, e1, e2, e4, e5, hok, hp with
    | [t], h, _, _, _, _, _, _ => simp [walk] at h
    | [], h, _, _, _, _, _, _ => simp [walk] at h
    | t0 :: t1 :: ts, h, e1, e2, e4, e5, hok, hp =>
      have hw : walk c a b (t1 :: ts) rs = true := by
        simp only [walk, Bool.and_eq_true] at h
        exact h.2
      have tail : jumps c (t1 :: ts) rs ≤ jumps c (t0 :: t1 :: ts) (r0 :: rs) := by
        cases rs with
        | nil => simp [jumps]
        | cons r1 rs => simp only [jumps]; omega
      have tail' : ((jumps c (t1 :: ts) rs : ℕ) : ℝ) ≤ (jumps c (t0 :: t1 :: ts) (r0 :: rs) : ℕ) := by
        exact_mod_cast tail
      cases i with
      | succ i =>
        obtain ⟨j, rfl⟩ : ∃ k, j = k + 1 := ⟨j - 1, by omega⟩
        have := ih (t1 :: ts) hw i j (by omega) s0 s1 r (by simpa using e1) (by simpa using e2)
          (by simpa using e3) (by simpa using e4) (by simpa using e5) (by simpa using e6) x h1 h2 hxy
        constructor <;> linarith [this.1, this.2]
      | zero =>
        have g1 : t0 = s0 := by simpa using e1
        have g2 : t1 = s1 := by simpa using e2
        have g3 : r0 = r := by simpa using e3
        subst g1 g2 g3
        obtain ⟨o1, o2, o3⟩ := hp 0 t0 t1 r0 (by simp) (by simp) (by simp)
        have p0 := (mK_val (hok t0 (by simp))).2
        have J0 : (0 : ℝ) ≤ (jumps c (t0 :: t1 :: ts) (r0 :: rs) : ℕ) := Nat.cast_nonneg _
        have pg := fun z (hz : x ≤ z) (hz' : z ≤ t1.val) =>
          piece_growth c (coef r0) t0.val t1.val _ _ p0 o3 x z h1 hz hz'
        cases j with
        | zero =>
          have g4 : t1 = u1 := by simpa using e5
          have g6 : r0 = q := by simpa using e6
          subst g4 g6
          have := pg y hxy h4
          constructor <;> linarith [this.1, this.2]
        | succ j =>
          cases rs with
          | nil => simp at e6
          | cons r1 rs =>
            cases ts with
            | nil => simp [walk] at hw
            | cons t2 ts =>
              have hp' := walk_piece c a b (t1 :: t2 :: ts) (r1 :: rs) hw
              obtain ⟨o4, o5, -⟩ := hp' 0 t1 t2 r1 (by simp) (by simp) (by simp)
              have hy : t1.val ≤ y := by
                have hu := walk_ok c a b _ _ hw
                have mono : ∀ (k : Nat) (d : Dec), (t1 :: t2 :: ts)[k]? = some d → t1.val ≤ d.val := by
                  intro k
                  induction k with
                  | zero => intro d hd; simp at hd; rw [hd]
                  | succ k ihk =>
                    intro d hd
                    have hlen := walk_length c a b _ _ hw
                    have hk : k + 1 < (t1 :: t2 :: ts).length := by
                      by_contra hc
                      rw [List.getElem?_eq_none (by omega)] at hd
                      cases hd
                    have hkr : k < (r1 :: rs).length := by omega
                    have m1 := hp' k _ d _ (List.getElem?_eq_getElem (by omega)) hd
                      (List.getElem?_eq_getElem hkr)
                    exact (ihk _ (List.getElem?_eq_getElem (by omega))).trans m1.2.1.le
                exact (mono j u0 (by simpa using e4)).trans h3
              have A := pg t1.val h2 le_rfl
              have B := jump_spec c o1 o4 (hok t1 (by simp))
              have D := ih (t1 :: t2 :: ts) hw 0 j (by omega) t1 t2 r1 (by simp) (by simp) (by simp)
                (by simpa using e4) (by simpa using e5) (by simpa using e6) t1.val le_rfl o5.le hy
              have J1 : ((jumps c (t0 :: t1 :: t2 :: ts) (r0 :: r1 :: rs) : ℕ) : ℝ)
                  = (jump c r0 r1 (mK t1) : ℕ) + (jumps c (t1 :: t2 :: ts) (r1 :: rs) : ℕ) := by
                simp only [jumps]; push_cast; rfl
              rw [abs_le] at B
              constructor <;> nlinarith [A.1, A.2, B.1, B.2, D.1, D.2]

/-! ## The file -/

variable {f : File} {b : Nat × Nat}

theorem check_walk (h : check f b = true) : walk f.cls b.1 b.2 f.Tlim f.C = true := by
  simp only [check, Bool.and_eq_true] at h
  exact h.2

theorem wellFormed (h : check f b = true) : WellFormed f.data := by
  have hw := check_walk h
  have hok := walk_ok _ _ _ _ _ hw
  have hlen := walk_length _ _ _ _ _ hw
  simp only [check, Bool.and_eq_true] at h
  obtain ⟨⟨⟨⟨⟨⟨⟨-, -⟩, -⟩, k4⟩, k5⟩, k6⟩, -⟩, -⟩ := h
  have val_pos : ∀ d : Dec, Nat.ble 1 d.m.toNat = true → 0 < d.val := by
    intro d hd
    have := Nat.le_of_ble_eq_true hd
    have hm : 0 < d.m := by omega
    have hm : (0 : ℝ) < d.m := by exact_mod_cast hm
    unfold Dec.val; positivity
  refine ⟨?_, ?_, ?_, ?_, ?_, ?_⟩
  · rw [show f.data.Tlim = f.Tlim.map Dec.val from rfl, ← List.isChain_iff_pairwise,
      List.isChain_iff_getElem]
    intro i hi
    simp only [List.length_map] at hi
    simp only [List.getElem_map]
    exact (walk_piece _ _ _ _ _ hw i _ _ _ (List.getElem?_eq_getElem (by omega))
      (List.getElem?_eq_getElem hi) (List.getElem?_eq_getElem (by omega))).2.1
  · simpa [File.data] using hlen
  · intro hc
    simp only [File.data, List.map_eq_nil_iff] at hc
    simp [hc] at k4
  · intro T hT
    simp only [File.data, List.mem_map] at hT
    obtain ⟨d, hd, rfl⟩ := hT
    exact (mK_val (hok d hd)).2
  · exact val_pos _ k5
  · simp only [File.data]
    cases hp : f.pref with
    | none => norm_num
    | some d => rw [hp] at k6; exact val_pos d k6

/-- Each temperature within the limits lies in a piece, whose row gives the values. -/
theorem piece_of (h : check f b = true) (T : ℝ) (h1 : f.gas.Tlo ≤ T) (h2 : T ≤ f.gas.Thi) :
    ∃ (i : Nat) (t0 t1 : Dec) (r : List Dec), f.Tlim[i]? = some t0 ∧ f.Tlim[i + 1]? = some t1 ∧
      f.C[i]? = some r ∧ t0.val ≤ T ∧ T ≤ t1.val ∧ 0 < T ∧
      f.gas.cp T = some (cpOf f.cls (coef r) T) ∧
      f.gas.h T = some (hOf f.cls (coef r) T, cpOf f.cls (coef r) T) := by
  have hwf := wellFormed h
  have h1' : f.data.Tlim.headD 0 ≤ T := by
    cases hc : f.cls <;> simpa [File.gas, hc, ig, ig2] using h1
  have h2' : T ≤ f.data.Tlim.getLastD 0 := by
    cases hc : f.cls <;> simpa [File.gas, hc, ig, ig2] using h2
  obtain ⟨i, lo, hi, c, e1, e2, e3, e4, e5, pw⟩ := (C33_evaluation f.data hwf T).1 h1' h2'
  simp only [File.data, List.getElem?_map, Option.map_eq_some_iff] at e1 e2 e5
  obtain ⟨t0, e1, rfl⟩ := e1
  obtain ⟨t1, e2, rfl⟩ := e2
  obtain ⟨r, e5, rfl⟩ := e5
  have p0 := (mK_val (walk_ok _ _ _ _ _ (check_walk h) t0 (List.mem_of_getElem? e1))).2
  refine ⟨i, t0, t1, r, e1, e2, e5, e3, e4, p0.trans_le e3, ?_, ?_⟩
  · cases hc : f.cls <;> simp only [File.gas, hc, ig, ig2, cpOf] <;> exact pw _ _
  · cases hc : f.cls <;> simp only [File.gas, hc, ig, ig2, cpOf, hOf]
    · exact pw _ _
    · rw [pw]; simp [nasa_hT_eq]

/-- Bounds on the heat capacity. -/
theorem cp_bounds (h : check f b = true) (T : ℝ) (h1 : f.gas.Tlo ≤ T) (h2 : T ≤ f.gas.Thi) :
    ∃ cp, f.gas.cp T = some cp ∧ (b.1 : ℝ) / 100 * Ru ≤ cp ∧ cp ≤ (b.2 : ℝ) / 100 * Ru := by
  obtain ⟨i, t0, t1, r, e1, e2, e3, k1, k2, -, k3, -⟩ := piece_of h T h1 h2
  have := (walk_piece _ _ _ _ _ (check_walk h) i t0 t1 r e1 e2 e3).2.2 T k1 k2
  exact ⟨_, k3, this.1, this.2⟩

/-- Growth of the enthalpy. -/
theorem h_growth (h : check f b = true) (x y : ℝ) (h1 : f.gas.Tlo ≤ x) (hxy : x ≤ y)
    (h2 : y ≤ f.gas.Thi) :
    ∃ hx hy cx cy, f.gas.h x = some (hx, cx) ∧ f.gas.h y = some (hy, cy) ∧
      (b.1 : ℝ) / 100 * Ru * (y - x) - (jumps f.cls f.Tlim f.C : ℕ) ≤ hy - hx ∧
      hy - hx ≤ (b.2 : ℝ) / 100 * Ru * (y - x) + (jumps f.cls f.Tlim f.C : ℕ) := by
  obtain ⟨i, s0, s1, r, a1, a2, a3, a4, a5, -, -, a6⟩ := piece_of h x h1 (hxy.trans h2)
  obtain ⟨j, u0, u1, q, c1, c2, c3, c4, c5, -, -, c6⟩ := piece_of h y (h1.trans hxy) h2
  refine ⟨_, _, _, _, a6, c6, ?_⟩
  have hw := check_walk h
  rcases Nat.lt_or_ge j i with hji | hij
  · -- then `x` and `y` are the same breakpoint
    have hlen := walk_length _ _ _ _ _ hw
    have mono : ∀ (k : Nat) (d e : Dec) (m : Nat), f.Tlim[k]? = some d → f.Tlim[k + m]? = some e → d.val ≤ e.val := by
      intro k d e m
      induction m generalizing e with
      | zero => intro hd he; rw [Nat.add_zero, hd] at he; cases he; exact le_rfl
      | succ m ih =>
        intro hd he
        have hk : k + (m + 1) < f.Tlim.length := by
          by_contra hc
          rw [List.getElem?_eq_none (by omega)] at he
          cases he
        have m1 := walk_piece _ _ _ _ _ hw (k + m) _ e _ (List.getElem?_eq_getElem (by omega))
          (by rw [← he]; rfl) (List.getElem?_eq_getElem (by omega))
        exact (ih _ hd (List.getElem?_eq_getElem (by omega))).trans m1.2.1.le
    have hle : u1.val ≤ s0.val := mono (j + 1) u1 s0 (i - (j + 1)) c2 (by rw [← a1]; congr 1; omega)
    have hxy' : x = y := by linarith
    subst hxy'
    have := c6.symm.trans a6
    simp only [Option.some.injEq, Prod.mk.injEq] at this
    rw [this.1]
    have J0 : (0 : ℝ) ≤ (jumps f.cls f.Tlim f.C : ℕ) := Nat.cast_nonneg _
    constructor <;> simp [J0]
  · exact chain _ _ _ _ _ hw i j hij s0 s1 u0 u1 r q a1 a2 a3 c1 c2 c3 x y a4 a5 c4 c5 hxy

end PyroMat.Shipped
