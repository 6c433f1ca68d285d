import Mathlib.Analysis.SpecialFunctions.Log.Deriv
import Verif.If97.PropsPoly

/-!
# Steam: regions and thermodynamics (C60, C66), lemmas
-/

set_option linter.unusedSimpArgs false

namespace PyroMat.If97.Props

open PyroMat PyroMat.Mp PyroMat.Mp.Spec PyroMat.Gas PyroMat.If97 PyroMat.If97.Spec Filter Topology

/-! ## Regions -/

theorem ltN_iff (W : Water) (T p : ℝ) : ltN p (ps W T) = true ↔ Vapour W T p := by
  unfold Vapour
  cases h : ps W T with
  | none => simp [ltN]
  | some P => simp [ltN]

theorem b23_eq (W : Water) (T : ℝ) : b23 W T = border W T := by
  unfold b23 border; ring

/-- **C60.** The region test assigns the region of the report. -/
theorem C60_regions (W : Water) (T p : ℝ) (r : Nat) : region W T p = some r ↔ InRegion W r T p := by
  unfold region
  rw [b23_eq]
  by_cases hp : p < 0 ∨ p > 1000
  · rw [if_pos hp]
    refine ⟨fun h => (by cases h), fun h => ?_⟩
    match r with
    | 1 => obtain ⟨_, h1, h2, _⟩ := h; rcases hp with hp | hp <;> linarith
    | 2 => obtain ⟨h1, h2, _⟩ := h; rcases hp with hp | hp <;> linarith
    | 3 => obtain ⟨_, _, h1, h2, _⟩ := h; rcases hp with hp | hp <;> linarith
    | 5 => obtain ⟨_, _, h1, h2⟩ := h; rcases hp with hp | hp <;> linarith
    | 0 => cases h
    | 4 => cases h
    | n + 6 => cases h
  rw [if_neg hp]
  push Not at hp
  obtain ⟨hp0, hp1⟩ := hp
  by_cases h1 : T > 2273.15
  · rw [if_pos h1]
    refine ⟨fun h => (by cases h), fun h => ?_⟩
    match r with
    | 1 => obtain ⟨h, _⟩ := h; linarith
    | 2 => obtain ⟨_, _, ⟨h, _⟩ | ⟨_, h, _⟩ | ⟨_, h⟩⟩ := h <;> linarith
    | 3 => obtain ⟨_, h, _⟩ := h; linarith
    | 5 => obtain ⟨_, h, _⟩ := h; linarith
    | 0 => cases h
    | 4 => cases h
    | n + 6 => cases h
  rw [if_neg h1]
  by_cases h2 : T > 1073.15
  · rw [if_pos h2]
    constructor
    · intro h
      by_cases h5 : p > 500
      · rw [if_pos h5] at h; cases h
      · rw [if_neg h5] at h; cases h
        exact ⟨h2, by linarith, hp0, by linarith⟩
    · intro h
      match r with
      | 1 => obtain ⟨h, _⟩ := h; linarith
      | 2 => obtain ⟨_, _, ⟨h, _⟩ | ⟨_, h, _⟩ | ⟨_, h⟩⟩ := h <;> linarith
      | 3 => obtain ⟨_, h, _⟩ := h; linarith
      | 5 => obtain ⟨_, _, _, h⟩ := h; rw [if_neg (by linarith)]
      | 0 => cases h
      | 4 => cases h
      | n + 6 => cases h
  rw [if_neg h2]
  by_cases h3 : T > 863.15
  · rw [if_pos h3]
    constructor
    · intro h; cases h
      exact ⟨hp0, hp1, Or.inr (Or.inr ⟨h3, by linarith⟩)⟩
    · intro h
      match r with
      | 1 => obtain ⟨h, _⟩ := h; linarith
      | 2 => rfl
      | 3 => obtain ⟨_, h, _⟩ := h; linarith
      | 5 => obtain ⟨h, _⟩ := h; linarith
      | 0 => cases h
      | 4 => cases h
      | n + 6 => cases h
  rw [if_neg h3]
  by_cases h4 : T > 623.15
  · rw [if_pos h4]
    constructor
    · intro h
      by_cases h5 : p < border W T
      · rw [if_pos h5] at h; cases h
        exact ⟨hp0, hp1, Or.inr (Or.inl ⟨h4, by linarith, h5⟩)⟩
      · rw [if_neg h5] at h; cases h
        exact ⟨h4, by linarith, hp0, hp1, by linarith⟩
    · intro h
      match r with
      | 1 => obtain ⟨h, _⟩ := h; linarith
      | 2 =>
        obtain ⟨_, _, ⟨h, _⟩ | ⟨_, _, h⟩ | ⟨h, _⟩⟩ := h
        · linarith
        · rw [if_pos h]
        · linarith
      | 3 => obtain ⟨_, _, _, _, h⟩ := h; rw [if_neg (by linarith)]
      | 5 => obtain ⟨h, _⟩ := h; linarith
      | 0 => cases h
      | 4 => cases h
      | n + 6 => cases h
  rw [if_neg h4]
  constructor
  · intro h
    by_cases h5 : ltN p (ps W T) = true
    · rw [if_pos h5] at h; cases h
      exact ⟨hp0, hp1, Or.inl ⟨by linarith, (ltN_iff W T p).mp h5⟩⟩
    · rw [if_neg h5] at h; cases h
      exact ⟨by linarith, hp0, hp1, fun hv => h5 ((ltN_iff W T p).mpr hv)⟩
  · intro h
    match r with
    | 1 => rw [if_neg (fun h5 => h.2.2.2 ((ltN_iff W T p).mp h5))]
    | 2 =>
      obtain ⟨_, _, ⟨_, h⟩ | ⟨h, _⟩ | ⟨h, _⟩⟩ := h
      · rw [if_pos ((ltN_iff W T p).mpr h)]
      · linarith
      · linarith
    | 3 => obtain ⟨h, _⟩ := h; linarith
    | 5 => obtain ⟨h, _⟩ := h; linarith
    | 0 => cases h
    | 4 => cases h
    | n + 6 => cases h

theorem region_valid (W : Water) (T p : ℝ) : (∃ r, region W T p = some r) ↔ Valid T p := by
  constructor
  · rintro ⟨r, h⟩
    rw [C60_regions] at h
    match r with
    | 1 => obtain ⟨h1, h2, h3, _⟩ := h; exact ⟨h2, Or.inl ⟨by linarith, h3⟩⟩
    | 2 =>
      obtain ⟨h1, h2, h⟩ := h
      refine ⟨h1, Or.inl ⟨?_, h2⟩⟩
      rcases h with ⟨h, _⟩ | ⟨_, h, _⟩ | ⟨_, h⟩ <;> linarith
    | 3 => obtain ⟨_, h1, h2, h3, _⟩ := h; exact ⟨h2, Or.inl ⟨by linarith, h3⟩⟩
    | 5 => obtain ⟨_, h1, h2, h3⟩ := h; exact ⟨h2, Or.inr ⟨h1, h3⟩⟩
    | 0 => cases h
    | 4 => cases h
    | n + 6 => cases h
  · rintro ⟨h0, h⟩
    have hp : p ≤ 1000 := by rcases h with ⟨_, h⟩ | ⟨_, h⟩ <;> linarith
    have hT : T ≤ 2273.15 := by rcases h with ⟨h, _⟩ | ⟨h, _⟩ <;> linarith
    by_cases h1 : 1073.15 < T
    · refine ⟨5, (C60_regions W T p 5).mpr ⟨h1, hT, h0, ?_⟩⟩
      rcases h with ⟨h, _⟩ | ⟨_, h⟩
      · linarith
      · exact h
    push Not at h1
    by_cases h2 : 863.15 < T
    · exact ⟨2, (C60_regions W T p 2).mpr ⟨h0, hp, Or.inr (Or.inr ⟨h2, h1⟩)⟩⟩
    push Not at h2
    by_cases h3 : 623.15 < T
    · by_cases hb : p < border W T
      · exact ⟨2, (C60_regions W T p 2).mpr ⟨h0, hp, Or.inr (Or.inl ⟨h3, h2, hb⟩)⟩⟩
      · exact ⟨3, (C60_regions W T p 3).mpr ⟨h3, h2, h0, hp, not_lt.mp hb⟩⟩
    push Not at h3
    by_cases hv : Vapour W T p
    · exact ⟨2, (C60_regions W T p 2).mpr ⟨h0, hp, Or.inl ⟨h3, hv⟩⟩⟩
    · exact ⟨1, (C60_regions W T p 1).mpr ⟨h3, h0, hp, hv⟩⟩

/-! ## One element -/

theorem bisect_ok {W : Water} (h : WellFormed W.r3) (t pp : ℝ) (k : Nat) (na nb : ℝ) (l : ℝ × J6) :
    ∃ r, bisect W t pp k na nb l = .ok r := by
  induction k generalizing na nb l with
  | zero => exact ⟨_, rfl⟩
  | succ k ih =>
    obtain ⟨j, hj⟩ := (C59_exact W.r3 (0.5 * (na + nb)) t 2).mpr h
    simp only [bisect, pfromd, hj]
    dsimp only [Bind.bind, Except.bind]
    split_ifs
    · exact ih _ _ _
    · exact ih _ _ _

theorem g1_ok {W : Water} (h : GoodData W) (T p : ℝ) (o : Nat) : ∃ g, g1 W T p o = .ok g := by
  obtain ⟨j, hj⟩ := (C59_exact W.r1 (7.1 - p / 165.3) (1386 / T - 1.222) o).mpr h.r1
  exact ⟨_, by unfold g1; rw [hj]; rfl⟩

theorem g2_ok {W : Water} (h : GoodData W) (T p : ℝ) (o : Nat) : ∃ g, g2 W T p o = .ok g := by
  obtain ⟨j, hj⟩ := (C59_exact W.r2o (p / 10) (540 / T) o).mpr h.r2o
  obtain ⟨k, hk⟩ := (C59_exact W.r2r (p / 10) (540 / T - 0.5) o).mpr h.r2r
  exact ⟨_, by unfold g2; rw [hj, hk]; rfl⟩

theorem g5_ok {W : Water} (h : GoodData W) (T p : ℝ) (o : Nat) : ∃ g, g5 W T p o = .ok g := by
  obtain ⟨j, hj⟩ := (C59_exact W.r5o (p / 10) (1000 / T) o).mpr h.r5o
  obtain ⟨k, hk⟩ := (C59_exact W.r5r (p / 10) (1000 / T) o).mpr h.r5r
  exact ⟨_, by unfold g5; rw [hj, hk]; rfl⟩

theorem f3_ok {W : Water} (h : GoodData W) (T p : ℝ) : ∃ g, f3 W T p = .ok g := by
  obtain ⟨r, hr⟩ := bisect_ok h.r3 (W.Tc / T) (p * 1e2 / (W.dc * W.R * T)) 14 0.10 2.4
    (0, ⟨0, 0, 0, 0, 0, 0⟩)
  exact ⟨_, by unfold f3; rw [hr]; rfl⟩

theorem single_valid {W : Water} (h : GoodData W) (q : Q) {T p : ℝ} (hv : Valid T p) :
    ∃ v, single W q T p = .ok v := by
  obtain ⟨r, hr⟩ := (region_valid W T p).mpr hv
  have hr' := (C60_regions W T p r).mp hr
  unfold single
  rw [hr]
  match r with
  | 1 => obtain ⟨g, hg⟩ := g1_ok h T p q.order; exact ⟨_, by simp only [hg]; rfl⟩
  | 2 => obtain ⟨g, hg⟩ := g2_ok h T p q.order; exact ⟨_, by simp only [hg]; rfl⟩
  | 3 => obtain ⟨g, hg⟩ := f3_ok h T p; exact ⟨_, by simp only [hg]; rfl⟩
  | 5 => obtain ⟨g, hg⟩ := g5_ok h T p q.order; exact ⟨_, by simp only [hg]; rfl⟩
  | 0 => cases hr'
  | 4 => cases hr'
  | n + 6 => cases hr'

theorem single_invalid {W : Water} (q : Q) {T p : ℝ} (hv : ¬ Valid T p) :
    single W q T p = .error .param := by
  unfold single
  cases hr : region W T p with
  | none => rfl
  | some r => exact absurd ((region_valid W T p).mp ⟨r, hr⟩) hv

/-! ## Derivatives of the Gibbs energy -/

/-- Exchange the two variables. -/
def swapJ (a : J6) : J6 := ⟨a.p, a.py, a.px, a.pyy, a.pxy, a.pxx⟩

theorem jet_swap {F : ℝ → ℝ → J6} {x y : ℝ} (h : Jet2 F x y) :
    Jet2 (fun s t => swapJ (F t s)) y x :=
  ⟨h.dy, h.dx, h.dyy, h.dyx, h.dxy, h.dxx⟩

/-- The derivatives of `R T gamma(p/p0, T0/T)`. -/
noncomputable def fullJet (R T0 p0 : ℝ) (g : ℝ → ℝ → J6) (T p : ℝ) : J6 :=
  let j := g (p / p0) (T0 / T)
  ⟨R * T * j.p, R * (j.p - T0 / T * j.py), R * T * j.px / p0, R * (T0 / T) ^ 2 / T * j.pyy,
    R * (j.px - T0 / T * j.pxy) / p0, R * T * j.pxx / p0 ^ 2⟩

theorem inv_jet (T0 : ℝ) {T : ℝ} (hT : T ≠ 0) :
    Jet1 (fun s => ⟨T0 / s, -T0 / s ^ 2, 2 * T0 / s ^ 3⟩) T := by
  have h1 : HasDerivAt (fun s : ℝ => T0 / s) (-T0 / T ^ 2) T := by
    refine ((hasDerivAt_inv hT).const_mul T0).congr_deriv ?_ |>.congr_of_eventuallyEq
      (Eventually.of_forall fun s => ?_)
    · field_simp
    · simp [div_eq_mul_inv]
  refine ⟨h1, ?_⟩
  have h2 : HasDerivAt (fun s : ℝ => s ^ 2) (2 * T) T := by simpa using hasDerivAt_pow 2 T
  refine ((hasDerivAt_const T (-T0)).div h2 (pow_ne_zero 2 hT)).congr_deriv ?_
  field_simp
  ring

theorem fullJet_jet (R T0 p0 : ℝ) {g : ℝ → ℝ → J6} {T p : ℝ} (hT : T ≠ 0) (hp0 : p0 ≠ 0)
    (h : Jet2 g (p / p0) (T0 / T)) : Jet2 (fullJet R T0 p0 g) T p := by
  have hX : Jet1 (fun s => ⟨s / p0, 1 / p0, 0⟩) p :=
    ⟨(hasDerivAt_id p).div_const p0, hasDerivAt_const p _⟩
  have hA := jet_swap (Jet2.comp (F := g) (X := fun s => ⟨s / p0, 1 / p0, 0⟩)
    (Y := fun s => ⟨T0 / s, -T0 / s ^ 2, 2 * T0 / s ^ 3⟩) h hX (inv_jet T0 hT))
  have hL : Jet1 (fun s => (⟨R * s, R, 0⟩ : P3)) T :=
    ⟨by simpa using (hasDerivAt_id T).const_mul R, hasDerivAt_const T R⟩
  have hM := Jet2.mul (Jet2.liftX hL p) hA
  have key : ∀ s t : ℝ, s ≠ 0 → fullJet R T0 p0 g s t =
      ((P3.mk (R * s) R 0).liftX).mul (swapJ
        ⟨(g (t / p0) (T0 / s)).p, (g (t / p0) (T0 / s)).px * (1 / p0),
          (g (t / p0) (T0 / s)).py * (-T0 / s ^ 2),
          (g (t / p0) (T0 / s)).pxx * (1 / p0) * (1 / p0) + (g (t / p0) (T0 / s)).px * 0,
          (g (t / p0) (T0 / s)).pxy * (1 / p0) * (-T0 / s ^ 2),
          (g (t / p0) (T0 / s)).pyy * (-T0 / s ^ 2) * (-T0 / s ^ 2) +
            (g (t / p0) (T0 / s)).py * (2 * T0 / s ^ 3)⟩) := by
    intro s t hs
    simp only [fullJet, J6.mul, P3.liftX, swapJ, J6.mk.injEq]
    generalize g (t / p0) (T0 / s) = j
    refine ⟨?_, ?_, ?_, ?_, ?_, ?_⟩ <;> first | trivial | ring1 | (field_simp; done) | (field_simp; ring1)
  refine hM.congr ?_ ?_
  · have : ∀ᶠ s in 𝓝 T, s ≠ 0 := isOpen_ne.mem_nhds hT
    exact this.mono fun s hs => key s p hs
  · exact Eventually.of_forall fun t => key T t hT

/-- The dimensionless functions and the values the code computes from them give the property by the
Gibbs energy. -/
theorem gibbs_value (q : Q) {R T0 p0 T p : ℝ} (hR : R ≠ 0) (hT : T ≠ 0) (hp : p ≠ 0) (hp0 : p0 ≠ 0)
    (g : ℝ → ℝ → J6) :
    q.gibbs R T p ⟨p / p0, T0 / T, (g (p / p0) (T0 / T)).cut q.order⟩ =
      fromGibbs q T p (fullJet R T0 p0 g T p) := by
  cases q <;> simp only [Q.gibbs, fromGibbs, fullJet, Q.order, J6.cut] <;>
    generalize g (p / p0) (T0 / T) = j
  · norm_num
    field_simp
    ring
  · norm_num
    field_simp
    ring
  · norm_num
    field_simp
  · norm_num
    field_simp
    ring
  · norm_num
    field_simp
  · norm_num
    by_cases hj : j.pxx = 0
    · simp [hj]
      field_simp
    · field_simp
      ring

theorem shift_jet {F : ℝ → ℝ → J6} {a b s : ℝ} {x y : ℝ} (h : Jet2 F (a + s * x) (y - b)) :
    Jet2 (fun u v => ⟨(F (a + s * u) (v - b)).p, s * (F (a + s * u) (v - b)).px,
      (F (a + s * u) (v - b)).py, s * s * (F (a + s * u) (v - b)).pxx,
      s * (F (a + s * u) (v - b)).pxy, (F (a + s * u) (v - b)).pyy⟩) x y := by
  have hX : Jet1 (fun u => (⟨a + s * u, s, 0⟩ : P3)) x :=
    ⟨by simpa using ((hasDerivAt_id x).const_mul s).const_add a, hasDerivAt_const x s⟩
  have hY : Jet1 (fun v => (⟨v - b, 1, 0⟩ : P3)) y :=
    ⟨by simpa using (hasDerivAt_id y).sub_const b, hasDerivAt_const y 1⟩
  have := Jet2.comp (F := F) (X := fun u => ⟨a + s * u, s, 0⟩) (Y := fun v => ⟨v - b, 1, 0⟩) h hX hY
  refine this.congr' ?_
  intro u v
  simp only [J6.mk.injEq]
  refine ⟨?_, ?_, ?_, ?_, ?_, ?_⟩ <;> first | trivial | ring1

theorem is_full {R : ℝ} {f : ℝ → ℝ → ℝ} {g : ℝ → ℝ → J6} {T0 p0 : ℝ} (hp0 : p0 ≠ 0)
    {V : Set (ℝ × ℝ)} (hV : IsOpen V) (hj : ∀ x y, (x, y) ∈ V → Jet2 g x y)
    (hv : ∀ T p : ℝ, T ≠ 0 → (p / p0, T0 / T) ∈ V → R * T * (g (p / p0) (T0 / T)).p = f T p)
    {T p : ℝ} (hT : T ≠ 0) (h : (p / p0, T0 / T) ∈ V) :
    Is2 f T p (fullJet R T0 p0 g T p) := by
  have hc : ContinuousOn (fun a : ℝ × ℝ => (a.2 / p0, T0 / a.1)) {a | a.1 ≠ 0} := by
    refine ContinuousOn.prodMk (by fun_prop) ?_
    exact ContinuousOn.div continuousOn_const continuousOn_fst (fun a ha => ha)
  have ho : IsOpen {a : ℝ × ℝ | a.1 ≠ 0} := isOpen_ne.preimage continuous_fst
  have hU := hc.isOpen_inter_preimage ho hV
  refine Jet2.is (F := fullJet R T0 p0 g) (V := f) hU ?_ ?_ (x := T) (y := p) ⟨hT, h⟩
  · rintro x y ⟨hx, hxy⟩
    exact fullJet_jet R T0 p0 hx hp0 (hj _ _ hxy)
  · rintro x y ⟨hx, hxy⟩
    exact hv x y hx hxy

theorem is_gibbs {W : Water} {r : Nat} {g : ℝ → ℝ → J6} {T0 p0 : ℝ} (hp0 : p0 ≠ 0) {V : Set (ℝ × ℝ)}
    (hV : IsOpen V) (hj : ∀ x y, (x, y) ∈ V → Jet2 g x y)
    (hv : ∀ T p : ℝ, T ≠ 0 → (p / p0, T0 / T) ∈ V → (g (p / p0) (T0 / T)).p = gamma W r T p)
    {T p : ℝ} (hT : T ≠ 0) (h : (p / p0, T0 / T) ∈ V) :
    Is2 (gibbs W r) T p (fullJet W.R T0 p0 g T p) :=
  is_full hp0 hV hj (fun T p hT h => by rw [hv T p hT h]; rfl) hT h

theorem log_jet {x : ℝ} (hx : x ≠ 0) : Jet1 (fun s => ⟨Real.log s, 1 / s, -(1 / s) / s⟩) x := by
  refine ⟨?_, ?_⟩
  · simpa [one_div] using Real.hasDerivAt_log hx
  · have := (hasDerivAt_inv hx)
    refine (this.congr_of_eventuallyEq (Eventually.of_forall fun s => ?_)).congr_deriv ?_
    · simp [one_div]
    · field_simp

theorem derives1 {W : Water} (hd : WellFormed W.r1) (q : Q) {T p : ℝ} (hR : W.R ≠ 0) (hT : T ≠ 0)
    (hp : p ≠ 0) (hr : RegularAt W 1 T p) :
    ∃ g, g1 W T p q.order = .ok g ∧ Derives W 1 q T p (q.gibbs W.R T p g) ∧
      g.pi = p / 165.3 ∧ g.t = 1386 / T := by
  obtain ⟨F, h1, h2, h3, h4⟩ := peval_does W.r1 hd
  let γ : ℝ → ℝ → J6 := fun u v => ⟨(F 2 (7.1 + -1 * u) (v - 1.222)).p,
    -1 * (F 2 (7.1 + -1 * u) (v - 1.222)).px, (F 2 (7.1 + -1 * u) (v - 1.222)).py,
    -1 * -1 * (F 2 (7.1 + -1 * u) (v - 1.222)).pxx, -1 * (F 2 (7.1 + -1 * u) (v - 1.222)).pxy,
    (F 2 (7.1 + -1 * u) (v - 1.222)).pyy⟩
  have hV : IsOpen {a : ℝ × ℝ | Regular W.r1 (7.1 + -1 * a.1) (a.2 - 1.222)} :=
    (reg_open W.r1).preimage (f := fun a : ℝ × ℝ => (7.1 + -1 * a.1, a.2 - 1.222)) (by fun_prop)
  have e : ∀ u : ℝ, (7.1 : ℝ) + -1 * u = 7.1 - u := fun u => by ring
  have hin : (p / 165.3, 1386 / T) ∈ {a : ℝ × ℝ | Regular W.r1 (7.1 + -1 * a.1) (a.2 - 1.222)} := by
    show Regular W.r1 (7.1 + -1 * (p / 165.3)) (1386 / T - 1.222)
    rw [e]; exact hr
  refine ⟨⟨p / 165.3, 1386 / T, (γ (p / 165.3) (1386 / T)).cut q.order⟩, ?_, ⟨_, ?_,
    gibbs_value q hR hT hp (by norm_num) γ⟩, rfl, rfl⟩
  · unfold g1
    rw [h1]
    show Except.ok _ = _
    congr 2
    rw [h4]
    simp only [J6.cut, γ, e]
    cases q <;> simp [Q.order]
  · refine is_gibbs (by norm_num) hV (fun x y hxy => shift_jet (h2 _ _ hxy)) ?_ hT hin
    intro T p _ h
    show (F 2 (7.1 + -1 * (p / 165.3)) (1386 / T - 1.222)).p = _
    rw [h3 2 _ _ h, e]
    rfl

/-- Regions 2 and 5: the ideal and residual parts and the logarithm. -/
theorem derives_sum {W : Water} {r : Nat} {o s : List Term} {T0 b : ℝ} (ho : WellFormed o)
    (hs : WellFormed s)
    (hg : ∀ T p, gamma W r T p = Real.log (p / 10) + polyAt o (p / 10) (T0 / T) +
      polyAt s (p / 10) (T0 / T - b))
    (q : Q) {T p : ℝ} (hR : W.R ≠ 0) (hT : T ≠ 0) (hp : p ≠ 0)
    (hr : Regular o (p / 10) (T0 / T)) (hr' : Regular s (p / 10) (T0 / T - b)) :
    ∃ j k, peval (p / 10) (T0 / T) o q.order = .ok j ∧
      peval (p / 10) (T0 / T - b) s q.order = .ok k ∧
      Derives W r q T p (q.gibbs W.R T p ⟨p / 10, T0 / T, addLog q.order (p / 10) j k⟩) := by
  obtain ⟨F, h1, h2, h3, h4⟩ := peval_does o ho
  obtain ⟨G, k1, k2, k3, k4⟩ := peval_does s hs
  let S : ℝ → ℝ → J6 := fun u v => ⟨(G 2 (0 + 1 * u) (v - b)).p, 1 * (G 2 (0 + 1 * u) (v - b)).px,
    (G 2 (0 + 1 * u) (v - b)).py, 1 * 1 * (G 2 (0 + 1 * u) (v - b)).pxx,
    1 * (G 2 (0 + 1 * u) (v - b)).pxy, (G 2 (0 + 1 * u) (v - b)).pyy⟩
  let γ : ℝ → ℝ → J6 := fun u v => (F 2 u v).add ((S u v).add
    ((P3.mk (Real.log u) (1 / u) (-(1 / u) / u)).liftX))
  let V : Set (ℝ × ℝ) := {a | Regular o a.1 a.2} ∩ ({a | Regular s (0 + 1 * a.1) (a.2 - b)} ∩
    {a | a.1 ≠ 0})
  have hV : IsOpen V := (reg_open o).inter (((reg_open s).preimage
    (f := fun a : ℝ × ℝ => (0 + 1 * a.1, a.2 - b)) (by fun_prop)).inter
      (isOpen_ne.preimage continuous_fst))
  have e : ∀ u : ℝ, (0 : ℝ) + 1 * u = u := fun u => by ring
  have hin : (p / 10, T0 / T) ∈ V := by
    refine ⟨hr, ?_, div_ne_zero hp (by norm_num)⟩
    show Regular s (0 + 1 * (p / 10)) (T0 / T - b)
    rw [e]; exact hr'
  refine ⟨_, _, h1 _ _ _, k1 _ _ _, ?_⟩
  have hval : addLog q.order (p / 10) (F q.order (p / 10) (T0 / T)) (G q.order (p / 10) (T0 / T - b)) =
      (γ (p / 10) (T0 / T)).cut q.order := by
    rw [h4, k4]
    simp only [J6.cut, γ, S, e, addLog, J6.add, P3.liftX]
    cases q <;> simp [Q.order]
  rw [hval]
  refine ⟨_, ?_, gibbs_value q hR hT hp (by norm_num) γ⟩
  refine is_gibbs (by norm_num) hV ?_ ?_ hT hin
  · rintro x y ⟨hx1, hx2, hx3⟩
    exact (h2 x y hx1).add ((shift_jet (k2 _ _ hx2)).add (Jet2.liftX (log_jet hx3) y))
  · rintro T p _ ⟨hx1, hx2, -⟩
    show (F 2 (p / 10) (T0 / T)).p + ((G 2 (0 + 1 * (p / 10)) (T0 / T - b)).p + Real.log (p / 10)) = _
    rw [h3 2 _ _ hx1, k3 2 _ _ hx2, e, hg]
    ring

theorem derives2 {W : Water} (hd : GoodData W) (q : Q) {T p : ℝ} (hR : W.R ≠ 0) (hT : T ≠ 0)
    (hp : p ≠ 0) (hr : RegularAt W 2 T p) :
    ∃ g, g2 W T p q.order = .ok g ∧ Derives W 2 q T p (q.gibbs W.R T p g) ∧
      g.pi = p / 10 ∧ g.t = 540 / T := by
  obtain ⟨j, k, h1, h2, h3⟩ := derives_sum (r := 2) (T0 := 540) (b := 0.5) hd.r2o hd.r2r
    (fun _ _ => rfl) q hR hT hp hr.1 hr.2
  exact ⟨⟨p / 10, 540 / T, addLog q.order (p / 10) j k⟩, by unfold g2; rw [h1, h2]; rfl, h3, rfl, rfl⟩

theorem derives5 {W : Water} (hd : GoodData W) (q : Q) {T p : ℝ} (hR : W.R ≠ 0) (hT : T ≠ 0)
    (hp : p ≠ 0) (hr : RegularAt W 5 T p) :
    ∃ g, g5 W T p q.order = .ok g ∧ Derives W 5 q T p (q.gibbs W.R T p g) := by
  obtain ⟨j, k, h1, h2, h3⟩ := derives_sum (r := 5) (T0 := 1000) (b := 0) hd.r5o hd.r5r
    (fun T p => by simp [gamma]) q hR hT hp hr.1 (by simpa using hr.2)
  rw [sub_zero] at h2
  exact ⟨⟨p / 10, 1000 / T, addLog q.order (p / 10) j k⟩, by unfold g5; rw [h1, h2]; rfl, h3⟩

/-- Regions 1, 2 and 5. -/
theorem single_derives {W : Water} (hd : GoodData W) (q : Q) {r : Nat} (hr3 : r ≠ 3) {T p : ℝ}
    (hR : W.R ≠ 0) (hT : T ≠ 0) (hp : p ≠ 0) (hr : RegularAt W r T p) (hin : InRegion W r T p) :
    ∃ v, single W q T p = .ok v ∧ Derives W r q T p v := by
  have h := (C60_regions W T p r).mpr hin
  unfold single
  rw [h]
  match r with
  | 1 =>
    obtain ⟨g, h1, h2, -⟩ := derives1 hd.r1 q hR hT hp hr
    exact ⟨_, by simp only [h1]; rfl, h2⟩
  | 2 =>
    obtain ⟨g, h1, h2, -⟩ := derives2 hd q hR hT hp hr
    exact ⟨_, by simp only [h1]; rfl, h2⟩
  | 5 =>
    obtain ⟨g, h1, h2⟩ := derives5 hd q hR hT hp hr
    exact ⟨_, by simp only [h1]; rfl, h2⟩
  | 3 => exact absurd rfl hr3
  | 0 => cases hin
  | 4 => cases hin
  | n + 6 => cases hin

end PyroMat.If97.Props
