import Verif.Gas.PropsNewton
import Verif.Shipped.SlopesSound

/-!
# Newton steps on the enthalpy and the internal energy of a checked file
-/

set_option linter.unusedSimpArgs false

namespace PyroMat.Shipped

open PyroMat PyroMat.Gas PyroMat.Gas.Props PyroMat.Gas.Spec

variable {f : File} {b : Nat × Nat}

theorem limits_mono (h : check f b = true) (k m : Nat) (d e : Dec) (hd : f.Tlim[k]? = some d)
    (he : f.Tlim[k + m]? = some e) : d.val ≤ e.val := by
  have hw := check_walk h
  have hlen := walk_length _ _ _ _ _ hw
  induction m generalizing e with
  | zero => rw [Nat.add_zero, hd] at he; cases he; exact le_rfl
  | succ m ih =>
    have hk : k + (m + 1) < f.Tlim.length := by
      by_contra hc
      rw [List.getElem?_eq_none (by omega)] at he
      cases he
    have m1 := walk_piece _ _ _ _ _ hw (k + m) _ e _ (List.getElem?_eq_getElem (by omega))
      (by rw [← he]; rfl) (List.getElem?_eq_getElem (by omega))
    exact (ih _ (List.getElem?_eq_getElem (by omega))).trans m1.2.1.le

theorem limit_range (h : check f b = true) (k : Nat) (d : Dec) (hd : f.Tlim[k]? = some d) :
    f.gas.Tlo ≤ d.val ∧ d.val ≤ f.gas.Thi := by
  have hk := (List.getElem?_eq_some_iff.mp hd).1
  rw [gas_Tlo, gas_Thi]
  simp only [File.data]
  constructor
  · have h0 : f.Tlim[0]? = some (f.Tlim[0]'(by omega)) := List.getElem?_eq_getElem (by omega)
    have := limits_mono h 0 k _ d h0 (by simpa using hd)
    rw [List.headD_eq_head?_getD, List.head?_map, List.head?_eq_getElem?, h0]
    simpa using this
  · have h0 : f.Tlim[k + (f.Tlim.length - 1 - k)]? = some (f.Tlim[f.Tlim.length - 1]'(by omega)) := by
      rw [show k + (f.Tlim.length - 1 - k) = f.Tlim.length - 1 by omega]
      exact List.getElem?_eq_getElem (by omega)
    have := limits_mono h k _ d _ hd h0
    rw [List.getLastD_eq_getLast?, List.getLast?_map, List.getLast?_eq_getElem?,
      List.getElem?_eq_getElem (by omega)]
    simpa using this

/-- Strictly inside a piece its row gives the values. -/
theorem inside (h : check f b = true) (i : Nat) (t0 t1 : Dec) (r : List Dec) (e1 : f.Tlim[i]? = some t0)
    (e2 : f.Tlim[i + 1]? = some t1) (e3 : f.C[i]? = some r) (T : ℝ) (g1 : t0.val < T) (g2 : T < t1.val) :
    f.gas.cp T = some (cpOf f.cls (coef r) T) ∧
      f.gas.h T = some (hOf f.cls (coef r) T, cpOf f.cls (coef r) T) := by
  have l1 := (limit_range h i t0 e1).1
  have l2 := (limit_range h (i + 1) t1 e2).2
  obtain ⟨j, u0, u1, q, c1, c2, c3, c4, c5, -, c6, c7⟩ := piece_of h T (by linarith) (by linarith)
  have hij : i = j := by
    rcases Nat.lt_trichotomy i j with hl | hl | hl
    · have := limits_mono h (i + 1) (j - (i + 1)) t1 u0 e2 (by rw [← c1]; congr 1; omega)
      linarith
    · exact hl
    · have := limits_mono h (j + 1) (i - (j + 1)) u1 t0 c2 (by rw [← e1]; congr 1; omega)
      linarith
  subst hij
  rw [e3] at c3
  cases c3
  exact ⟨c6, c7⟩

/-- Growth of the enthalpy between bounds on the heat capacity. -/
theorem h_growth_open (h : check f b = true) (m M : ℝ)
    (hcp : ∀ T c, f.gas.Tlo ≤ T → T ≤ f.gas.Thi → f.gas.cp T = some c → m ≤ c ∧ c ≤ M) (x y : ℝ)
    (h1 : f.gas.Tlo ≤ x) (hxy : x ≤ y) (h2 : y ≤ f.gas.Thi) :
    ∃ hx hy cx cy, f.gas.h x = some (hx, cx) ∧ f.gas.h y = some (hy, cy) ∧
      m * (y - x) - (jumps f.cls f.Tlim f.C : ℕ) ≤ hy - hx ∧
      hy - hx ≤ M * (y - x) + (jumps f.cls f.Tlim f.C : ℕ) := by
  obtain ⟨i, s0, s1, r, a1, a2, a3, a4, a5, -, -, a6⟩ := piece_of h x h1 (hxy.trans h2)
  obtain ⟨j, u0, u1, q, c1, c2, c3, c4, c5, -, -, c6⟩ := piece_of h y (h1.trans hxy) h2
  refine ⟨_, _, _, _, a6, c6, ?_⟩
  have hw := check_walk h
  rcases Nat.lt_or_ge j i with hji | hij
  · have hle : u1.val ≤ s0.val := limits_mono h (j + 1) (i - (j + 1)) u1 s0 c2 (by rw [← a1]; congr 1; omega)
    have hxy' : x = y := by linarith
    subst hxy'
    have := c6.symm.trans a6
    simp only [Option.some.injEq, Prod.mk.injEq] at this
    rw [this.1]
    have J0 : (0 : ℝ) ≤ (jumps f.cls f.Tlim f.C : ℕ) := Nat.cast_nonneg _
    constructor <;> simp [J0]
  · refine chain_open _ _ _ _ _ hw m M ?_ i j hij s0 s1 u0 u1 r q a1 a2 a3 c1 c2 c3 x y a4 a5 c4 c5 hxy
    intro i t0 t1 r e1 e2 e3 T g1 g2
    have l1 := (limit_range h i t0 e1).1
    have l2 := (limit_range h (i + 1) t1 e2).2
    exact hcp T _ (by linarith) (by linarith) (inside h i t0 t1 r e1 e2 e3 T g1 g2).1

theorem checkF_flats (h : checkF f b = true) : flats f.cls b.1 f.Tlim f.C = true ∧ b.2 ≤ 12000 ∧
    mK (f.Tlim.getLastD ⟨0, 0⟩) ≤ mK (f.Tlim.headD ⟨0, 0⟩) + 5800000 := by
  simp only [checkF, Bool.and_eq_true] at h
  exact ⟨h.2, Nat.le_of_ble_eq_true h.1.2, Nat.le_of_ble_eq_true h.1.1⟩

theorem width (h : check f b = true) (hF : checkF f b = true) : f.gas.Thi - f.gas.Tlo ≤ 5800 := by
  have hw := (checkF_flats hF).2.2
  have hok := walk_ok _ _ _ _ _ (check_walk h)
  have hlen := walk_length _ _ _ _ _ (check_walk h)
  rw [gas_Tlo, gas_Thi]
  simp only [File.data]
  have h0 : f.Tlim[0]? = some (f.Tlim[0]'(by omega)) := List.getElem?_eq_getElem (by omega)
  have h1 : f.Tlim[f.Tlim.length - 1]? = some (f.Tlim[f.Tlim.length - 1]'(by omega)) :=
    List.getElem?_eq_getElem (by omega)
  rw [List.headD_eq_head?_getD, List.head?_eq_getElem?, h0, List.getLastD_eq_getLast?, List.getLast?_eq_getElem?, h1] at hw
  rw [List.headD_eq_head?_getD, List.head?_map, List.head?_eq_getElem?, h0, List.getLastD_eq_getLast?,
    List.getLast?_map, List.getLast?_eq_getElem?, h1]
  simp only [Option.map_some, Option.getD_some] at hw ⊢
  have v0 := (mK_val (hok _ (List.mem_of_getElem? h0))).1
  have v1 := (mK_val (hok _ (List.mem_of_getElem? h1))).1
  have hw : ((mK (f.Tlim[f.Tlim.length - 1]'(by omega)) : ℕ) : ℝ) ≤ (mK (f.Tlim[0]'(by omega)) : ℕ) + 5800000 := by
    exact_mod_cast hw
  rw [v0, v1] at hw
  linarith

/-- Within a piece: the error of a linear extrapolation of the enthalpy. -/
theorem linear_error (h : check f b = true) (hF : checkF f b = true) (i : Nat) (t0 t1 : Dec) (r : List Dec)
    (e1 : f.Tlim[i]? = some t0) (e2 : f.Tlim[i + 1]? = some t1) (e3 : f.C[i]? = some r) (x y : ℝ)
    (g1 : t0.val ≤ x) (g2 : x ≤ t1.val) (g3 : t0.val ≤ y) (g4 : y ≤ t1.val) :
    |hOf f.cls (coef r) y - hOf f.cls (coef r) x - cpOf f.cls (coef r) x * (y - x)|
      ≤ (b.1 : ℝ) / 100 * Ru / 150 * |y - x| ^ 2 := by
  have hw := check_walk h
  have hok := walk_ok _ _ _ _ _ hw
  have hlen := walk_length _ _ _ _ _ hw
  have hrows : ∀ r ∈ f.C, okRow r = true := by
    intro r hr
    obtain ⟨k, hk, hk'⟩ := List.getElem_of_mem hr
    exact (walk_piece _ _ _ _ _ hw k _ _ r (List.getElem?_eq_getElem (by omega))
      (List.getElem?_eq_getElem (by omega)) (by rw [List.getElem?_eq_getElem hk, hk'])).1
  have p0 := (mK_val (hok t0 (List.mem_of_getElem? e1))).2
  set L := (b.1 : ℝ) / 100 * Ru / 150 with hL
  have hs : ∀ T ∈ Set.Icc t0.val t1.val, ‖dcpOf f.cls (coef r) T‖ ≤ L := fun T hT =>
    flats_piece _ _ _ _ (checkF_flats hF).1 hok hrows i t0 t1 r e1 e2 e3 T hT.1 hT.2
  have cpl : ∀ u ∈ Set.Icc t0.val t1.val, ∀ v ∈ Set.Icc t0.val t1.val,
      ‖cpOf f.cls (coef r) v - cpOf f.cls (coef r) u‖ ≤ L * ‖v - u‖ := fun u hu v hv =>
    (convex_Icc t0.val t1.val).norm_image_sub_le_of_norm_hasDerivWithin_le
      (fun T hT => (cp_deriv f.cls (coef r) (p0.trans_le hT.1)).hasDerivWithinAt) hs hu hv
  have hsub : Set.uIcc x y ⊆ Set.Icc t0.val t1.val := Set.uIcc_subset_Icc ⟨g1, g2⟩ ⟨g3, g4⟩
  have hd : ∀ T ∈ Set.uIcc x y, HasDerivWithinAt
      (fun T => hOf f.cls (coef r) T - cpOf f.cls (coef r) x * T)
      (cpOf f.cls (coef r) T - cpOf f.cls (coef r) x) (Set.uIcc x y) T := by
    intro T hT
    have := (h_deriv f.cls (coef r) (p0.trans_le (hsub hT).1)).sub
      ((hasDerivAt_id' T).const_mul (cpOf f.cls (coef r) x))
    rw [mul_one] at this
    exact this.hasDerivWithinAt
  have hbound : ∀ T ∈ Set.uIcc x y, ‖cpOf f.cls (coef r) T - cpOf f.cls (coef r) x‖ ≤ L * |y - x| := by
    intro T hT
    refine (cpl x ⟨g1, g2⟩ T (hsub hT)).trans ?_
    have hR := Ru_pos
    refine mul_le_mul_of_nonneg_left ?_ (by rw [hL]; positivity)
    rw [Real.norm_eq_abs]
    exact Set.abs_sub_left_of_mem_uIcc hT
  have := (convex_uIcc x y).norm_image_sub_le_of_norm_hasDerivWithin_le hd hbound Set.left_mem_uIcc Set.right_mem_uIcc
  rw [Real.norm_eq_abs, Real.norm_eq_abs] at this
  calc _ = |hOf f.cls (coef r) y - cpOf f.cls (coef r) x * y - (hOf f.cls (coef r) x - cpOf f.cls (coef r) x * x)| := by
        congr 1; ring
    _ ≤ _ := this
    _ = _ := by ring

/-- The enthalpy less `l T`, with its derivative. -/
noncomputable def lowered (G : Gas) (l : ℝ) (T : ℝ) : Option (ℝ × ℝ) :=
  (G.h T).map fun r => (r.1 - l * T, r.2 - l)

theorem lowered_h (G : Gas) : lowered G 0 = G.h := by
  funext T
  unfold lowered
  cases G.h T <;> simp

theorem lowered_e (G : Gas) : lowered G Ru = G.e := rfl

/-- Newton steps towards the value at a temperature at least 50 K away from all limits, for a slope that changes by
at most a factor of 5/3. -/
theorem draws (h : check f b = true) (hF : checkF f b = true) (hid : f.id ≠ "ig.Rb") (l μ : ℝ) (hl0 : 0 ≤ l)
    (hl1 : l ≤ Ru) (hμ : 1.33 * Ru ≤ μ)
    (hcp : ∀ T c, f.gas.Tlo ≤ T → T ≤ f.gas.Thi → f.gas.cp T = some c → μ ≤ c - l)
    (hmod : ∀ T T' c c', f.gas.Tlo ≤ T → T ≤ f.gas.Thi → f.gas.Tlo ≤ T' → T' ≤ f.gas.Thi → f.gas.cp T = some c →
      f.gas.cp T' = some c' → 3 * (c - l) ≤ 5 * (c' - l))
    (r hr cr : ℝ) (hr1 : f.gas.Tlo ≤ r) (hr2 : r ≤ f.gas.Thi) (hfar : ∀ t ∈ f.Tlim, 50 ≤ |r - t.val|)
    (hhr : f.gas.h r = some (hr, cr)) :
    Draws (lowered f.gas l) f.gas.Tlo f.gas.Thi r (hr - l * r) 0.725 0.0117 50 (0.545 * μ) 2000 := by
  have hR := Ru_pos
  have hRv := Ru_val
  obtain ⟨i, t0, t1, row, e1, e2, e3, e4, e5, -, -, e7⟩ := piece_of h r hr1 hr2
  have hhr' := hhr
  rw [e7] at hhr'
  simp only [Option.some.injEq, Prod.mk.injEq] at hhr'
  obtain ⟨q1, q2⟩ := hhr'
  have m0 : t0.val + 50 ≤ r := by
    have := hfar t0 (List.mem_of_getElem? e1)
    rw [abs_of_nonneg (by linarith)] at this
    linarith
  have m1 : r + 50 ≤ t1.val := by
    have := hfar t1 (List.mem_of_getElem? e2)
    rw [abs_of_nonpos (by linarith)] at this
    linarith
  have l0 := limit_range h i t0 e1
  have l1 := limit_range h (i + 1) t1 e2
  have hJ : ((jumps f.cls f.Tlim f.C : ℕ) : ℝ) ≤ 30 := by
    have := (check_nums h).2.2.2
    rw [if_neg hid] at this
    exact_mod_cast this
  have hJ0 : (0 : ℝ) ≤ (jumps f.cls f.Tlim f.C : ℕ) := Nat.cast_nonneg _
  refine ⟨by linarith, by linarith, ?_⟩
  intro x hx1 hx2
  obtain ⟨j, u0, u1, q, c1, c2, c3, c4, c5, -, c6, c7⟩ := piece_of h x hx1 hx2
  set d := cpOf f.cls (coef q) x - l with hd
  have hdμ : μ ≤ d := hcp x _ hx1 hx2 c6
  have hd0 : 0 < d := by nlinarith
  have hd1 : 11.05 ≤ d := by
    refine le_trans ?_ (hμ.trans hdμ)
    rw [hRv]; norm_num
  have hrange : ∀ T c, f.gas.Tlo ≤ T → T ≤ f.gas.Thi → f.gas.cp T = some c → 3 / 5 * d + l ≤ c ∧ c ≤ 5 / 3 * d + l := by
    intro T c g1 g2 g3
    have A := hmod T x c _ g1 g2 hx1 hx2 g3 c6
    have B := hmod x T _ c hx1 hx2 g1 g2 c6 g3
    constructor <;> linarith
  set hx := hOf f.cls (coef q) x with hhx
  -- growth with jumps
  have grow : |hx - l * x - (hr - l * r) - d * (x - r)| ≤ 2 / 3 * d * |x - r| + (jumps f.cls f.Tlim f.C : ℕ) ∧
      3 / 5 * d * |x - r| - (jumps f.cls f.Tlim f.C : ℕ) ≤ |hr - l * r - (hx - l * x)| := by
    rcases le_total x r with hxr | hxr
    · obtain ⟨a, a', b, b', k1, k2, k3, k4⟩ := h_growth_open h _ _ hrange x r hx1 hxr hr2
      rw [c7] at k1
      rw [hhr] at k2
      simp only [Option.some.injEq, Prod.mk.injEq] at k1 k2
      rw [← k1.1, ← k2.1] at k3 k4
      have hn : 0 ≤ d * (r - x) := mul_nonneg hd0.le (by linarith)
      rw [abs_of_nonpos (by linarith : x - r ≤ 0)]
      refine ⟨?_, le_trans ?_ (le_abs_self _)⟩
      · rw [abs_le]
        constructor <;> linarith
      · linarith
    · obtain ⟨a, a', b, b', k1, k2, k3, k4⟩ := h_growth_open h _ _ hrange r x hr1 hxr hx2
      rw [c7] at k2
      rw [hhr] at k1
      simp only [Option.some.injEq, Prod.mk.injEq] at k1 k2
      rw [← k1.1, ← k2.1] at k3 k4
      have hn : 0 ≤ d * (x - r) := mul_nonneg hd0.le (by linarith)
      rw [abs_of_nonneg (by linarith : 0 ≤ x - r)]
      refine ⟨?_, le_trans ?_ (neg_le_abs _)⟩
      · rw [abs_le]
        constructor <;> linarith
      · linarith
  -- growth without jumps, near the solution
  have near : |x - r| < 50 →
      |hx - l * x - (hr - l * r) - d * (x - r)| ≤ 0.0117 * d * |x - r| ^ 2 ∧
      |hx - l * x - (hr - l * r) - d * (x - r)| ≤ 2 / 3 * d * |x - r| ∧
      3 / 5 * d * |x - r| ≤ |hr - l * r - (hx - l * x)| ∧
      |hr - l * r - (hx - l * x)| ≤ 5 / 3 * d * |x - r| := by
    intro hlt
    have hlt' := hlt
    rw [abs_lt] at hlt'
    have hin := inside h i t0 t1 row e1 e2 e3 x (by linarith) (by linarith)
    have hxx := hin.2
    rw [c7] at hxx
    simp only [Option.some.injEq, Prod.mk.injEq] at hxx
    have le := linear_error h hF i t0 t1 row e1 e2 e3 x r (by linarith) (by linarith) e4 e5
    rw [q1, ← hxx.1, ← hxx.2] at le
    have p0 := (mK_val (walk_ok _ _ _ _ _ (check_walk h) t0 (List.mem_of_getElem? e1))).2
    have hpg := fun (u v : ℝ) => piece_growth_open f.cls (coef row) t0.val t1.val _ _ p0
      (fun T g1 g2 => hrange T _ (by linarith) (by linarith) (inside h i t0 t1 row e1 e2 e3 T g1 g2).1) u v
    refine ⟨?_, ?_, ?_, ?_⟩
    · have hb1 : (b.1 : ℝ) / 100 * Ru ≤ cpOf f.cls (coef q) x := by
        obtain ⟨cp, k1, k2, -⟩ := cp_bounds h x hx1 hx2
        rw [c6] at k1
        cases k1
        exact k2
      have e : hx - l * x - (hr - l * r) - d * (x - r) = -(hr - hx - cpOf f.cls (coef q) x * (r - x)) := by
        rw [hd]; ring
      rw [e, abs_neg]
      refine le.trans ?_
      rw [abs_sub_comm r x]
      refine mul_le_mul_of_nonneg_right ?_ (by positivity)
      have : cpOf f.cls (coef q) x = d + l := by rw [hd]; ring
      rw [this] at hb1
      have : Ru ≤ d / 1.33 := by
        rw [le_div_iff₀ (by norm_num)]
        linarith
      norm_num at this ⊢
      linarith
    all_goals
      rcases le_total x r with hxr | hxr
      · obtain ⟨k3, k4⟩ := hpg x r (by linarith) hxr e5
        rw [q1, ← hxx.1] at k3 k4
        have hn : 0 ≤ d * (r - x) := mul_nonneg hd0.le (by linarith)
        rw [abs_of_nonpos (by linarith : x - r ≤ 0)]
        first
          | (rw [abs_le]; constructor <;> linarith)
          | (refine le_trans ?_ (le_abs_self _); linarith)
      · obtain ⟨k3, k4⟩ := hpg r x e4 hxr (by linarith)
        rw [q1, ← hxx.1] at k3 k4
        have hn : 0 ≤ d * (x - r) := mul_nonneg hd0.le (by linarith)
        rw [abs_of_nonneg (by linarith : 0 ≤ x - r)]
        first
          | (rw [abs_le]; constructor <;> linarith)
          | (refine le_trans ?_ (neg_le_abs _); linarith)
  have stepeq : x + (hr - l * r - (hx - l * x)) / d - r = -(hx - l * x - (hr - l * r) - d * (x - r)) / d := by
    field_simp
    ring
  have upper : ∀ z, |hx - l * x - (hr - l * r) - d * (x - r)| ≤ d * z →
      |x + (hr - l * r - (hx - l * x)) / d - r| ≤ z := by
    intro z hz
    rw [stepeq, abs_div, abs_neg, abs_of_pos hd0, div_le_iff₀ hd0]
    linarith
  have both : |hx - l * x - (hr - l * r) - d * (x - r)| ≤ 0.725 * d * |x - r| ∧
      0.545 * d * |x - r| ≤ |hr - l * r - (hx - l * x)| := by
    have hn : 0 ≤ d * |x - r| := mul_nonneg hd0.le (abs_nonneg _)
    by_cases hlt : |x - r| < 50
    · obtain ⟨-, n1, n2, -⟩ := near hlt
      constructor <;> norm_num at n1 n2 ⊢ <;> linarith
    · push Not at hlt
      have : 11.05 * 50 ≤ d * |x - r| := mul_le_mul hd1 hlt (by norm_num) hd0.le
      obtain ⟨n1, n2⟩ := grow
      constructor <;> norm_num at n1 n2 this ⊢ <;> linarith
  refine ⟨hx - l * x, d, ?_, hd0.ne', upper _ (by linarith [both.1]), ?_, ?_⟩
  · simp only [lowered, c7, Option.map_some, hd, hhx]
  · refine le_trans ?_ both.2
    gcongr
  · intro hlt
    obtain ⟨n0, -, -, n3⟩ := near hlt
    refine ⟨upper _ (by linarith), n3.trans ?_⟩
    refine mul_le_mul_of_nonneg_right ?_ (abs_nonneg _)
    obtain ⟨cp, k1, -, k2⟩ := cp_bounds h x hx1 hx2
    rw [c6] at k1
    cases k1
    have hb2 : (b.2 : ℝ) ≤ 12000 := by exact_mod_cast (checkF_flats hF).2.1
    have : (b.2 : ℝ) / 100 * Ru ≤ 120 * Ru := mul_le_mul_of_nonneg_right (by linarith) hR.le
    have : d ≤ 120 * Ru := by rw [hd]; linarith
    rw [hRv] at this
    norm_num at this
    linarith

end PyroMat.Shipped
