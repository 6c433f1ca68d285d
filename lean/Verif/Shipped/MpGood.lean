import Verif.Mp.PropsThermo
import Verif.Shipped.MpDome

/-!
# The shipped multi-phase substances meet what the theorems on calls assume
-/

set_option linter.unusedSimpArgs false

namespace PyroMat.Shipped

open PyroMat.Gas PyroMat.Mp PyroMat.Mp.Spec PyroMat.Mp.Props PyroMat.Shipped.Data

theorem val_eq {a b : Dec} (h1 : a.m = b.m) (h2 : a.e = b.e) : a.val = b.val := by
  unfold Dec.val; rw [h1, h2]

theorem sorted_group {g : G1} (h : sorted1 g = true) : Sorted1 g.group := by
  simp only [sorted1, Bool.and_eq_true, Bool.not_eq_true', List.isEmpty_eq_false_iff, decide_eq_true_eq] at h
  refine ⟨by simpa [G1.group] using h.1, ?_⟩
  have h2 := h.2
  rw [List.pairwise_map] at h2
  simp only [G1.group, List.pairwise_map]
  exact h2

/-- What `okSat` says. -/
structure SatOk (f : MpFile) (s : SatFile) : Prop where
  fn : s.fn ≤ 3
  ok : s.coef.all okG = true
  sorted : ∀ q ∈ s.coef.map G1.group, Sorted1 q
  Tscale : s.Tscale.val = f.Tc.val
  scale : 0 < s.scale.val
  scale20 : s.scale.val = sc20 s.scale / 10 ^ 20

theorem satOk {f : MpFile} {s : SatFile} (h : okSat f s = true) : SatOk f s := by
  simp only [okSat, Bool.and_eq_true, decide_eq_true_eq] at h
  obtain ⟨⟨⟨⟨⟨⟨⟨h1, h2⟩, h3⟩, h4⟩, h5⟩, h6⟩, h7⟩, h8⟩ := h
  refine ⟨h1, h2, ?_, val_eq h4 h5, div_pos (by exact_mod_cast h6) (by positivity), sc20_val h7⟩
  intro q hq
  obtain ⟨g, hg, rfl⟩ := List.mem_map.mp hq
  exact sorted_group (List.all_eq_true.mp h3 g hg)

theorem satVal_eq {f : MpFile} {s : SatFile} (h : SatOk f s) (T : ℝ) :
    (satVal s T).1 = s.scale.val * satAt s.fn (s.coef.map G1.group) (T / f.Tc.val) := by
  obtain ⟨j, hj, hv⟩ := C56_saturation_value s.group h.fn h.sorted T 1
  unfold satVal
  rw [hj, ← h.Tscale]
  exact hv

theorem satVal_deriv {f : MpFile} {s : SatFile} (h : SatOk f s) (T : ℝ) (h0 : 0 < T) (h1 : T < f.Tc.val) :
    HasDerivAt (fun T => (satVal s T).1) (satVal s T).2 T := by
  obtain ⟨j, hj, hv⟩ := C56_saturation s.group h.fn h.sorted T h0 (by
    show T < s.Tscale.val
    rw [h.Tscale]; exact h1)
  have e : (satVal s T).2 = j.px := by
    unfold satVal
    unfold satprop at hj ⊢
    rw [C56_order 1]
    cases hs : satfit (T / s.group.Tscale) s.group.fn s.group.coef 2 with
    | error e => rw [hs] at hj; cases hj
    | ok q =>
      rw [hs] at hj
      have := Except.ok.inj hj
      simp only [Except.map, P3.cut]
      rw [← this]
      simp
  rw [e]
  refine hv.d1.congr_of_eventuallyEq (Filter.Eventually.of_forall fun u => ?_)
  show (satVal s u).1 = _
  rw [satVal_eq h, ← h.Tscale]
  rfl

section

variable {f : MpFile} (hf : f ∈ shippedMp)

include hf

/-- What `basics` says. -/
structure Facts (f : MpFile) : Prop where
  ps : SatOk f f.ps
  dsl : SatOk f f.dsl
  dsv : SatOk f f.dsv
  Tt : 0 < f.Tt.val
  Tc : f.Tt.val < f.Tc.val
  Tlo : 0 < f.Tlim.1.val
  Tlim : f.Tlim.1.val ≤ f.Tlim.2.val
  mw : 0 < f.mw.val
  psfn : f.ps.fn = 3
  dsvfn : f.dsv.fn = 2 ∨ f.dsv.fn = 3
  ps0 : (flat f.ps.coef).all (fun t => decide (0 < t.1)) = true
  dsv0 : (flat f.dsv.coef).all (fun t => decide (0 < t.1)) = true
  dslfn : (f.dsl.fn = 2 ∧ (flat f.dsl.coef).all (fun t => decide (0 < t.1)) = true ∧ f.dsv.scale.val ≤ f.dsl.scale.val) ∨
    (f.dsl.fn = 1 ∧ f.dsv.scale.val ≤ f.dsl.scale.val * (const f.dsl.coef / 10 ^ 20))
  t20 : f.Tt.val = sc20 f.Tt / 10 ^ 20 ∧ f.Tc.val = sc20 f.Tc / 10 ^ 20 ∧ f.Tlim.1.val = sc20 f.Tlim.1 / 10 ^ 20

theorem facts : Facts f := by
  have h := (curves f hf).basics
  simp only [basics, Bool.and_eq_true, Bool.or_eq_true, decide_eq_true_eq] at h
  obtain ⟨⟨⟨⟨⟨⟨⟨⟨⟨⟨⟨⟨⟨⟨⟨⟨h1, h2⟩, h3⟩, h4⟩, h5⟩, h6⟩, h7⟩, h8⟩, h9⟩, h10⟩, h11⟩, h12⟩, h13⟩, h14⟩, h15⟩, h16⟩, h17⟩ := h
  have p : (0 : ℝ) < 10 ^ 20 := by positivity
  refine ⟨satOk h1, satOk h2, satOk h3, ?_, ?_, ?_, ?_, ?_, h13, h14, h15, h16, ?_, sc20_val h4, sc20_val h5, sc20_val h6⟩
  · rw [sc20_val h4]; exact div_pos (by exact_mod_cast h8) p
  · rw [sc20_val h4, sc20_val h5]; exact div_lt_div_of_pos_right (by exact_mod_cast h9) p
  · rw [sc20_val h6]; exact div_pos (by exact_mod_cast h10) p
  · rw [sc20_val h6, sc20_val h7]; exact div_le_div_of_nonneg_right (by exact_mod_cast h11) p.le
  · exact div_pos (by exact_mod_cast h12) (by positivity)
  · have e1 := (satOk h2).scale20
    have e2 := (satOk h3).scale20
    rcases h17 with ⟨⟨a, b⟩, c⟩ | ⟨a, c⟩
    · left
      refine ⟨a, b, ?_⟩
      rw [e1, e2]
      exact div_le_div_of_nonneg_right (by exact_mod_cast c) p.le
    · right
      refine ⟨a, ?_⟩
      rw [e1, e2, div_mul_div_comm, div_le_div_iff₀ p (by positivity)]
      have c : (sc20 f.dsv.scale : ℝ) * 10 ^ 20 ≤ sc20 f.dsl.scale * const f.dsl.coef := by exact_mod_cast c
      nlinarith

theorem Tmin_pos : 0 < f.Tmin := by
  have h := facts hf
  unfold MpFile.Tmin
  have := h.Tt
  have := h.Tlo
  positivity

theorem reach_ge {T : ℝ} (hT : f.Tmin ≤ T) : 1 - T / f.Tc.val ≤ reach f / 1000 := by
  have h := facts hf
  have hc : 0 < f.Tc.val := h.Tt.trans h.Tc
  have h2 := (Tmin_pos hf).trans_le hT
  have hTc : (0 : ℝ) < sc20 f.Tc := by
    have := h.t20.2.1 ▸ hc
    exact (div_pos_iff_of_pos_right (by positivity)).mp this
  have hTcZ : (0 : Int) < sc20 f.Tc := by exact_mod_cast hTc
  set m : Int := min (99 * sc20 f.Tt) (100 * sc20 f.Tlim.1) with hm
  have e : f.Tmin = (m : ℝ) / (100 * 10 ^ 20) := by
    unfold MpFile.Tmin
    rw [h.t20.1, h.t20.2.2, hm]
    push_cast
    rw [← min_div_div_right (by positivity)]
    congr 1
    · ring
    · ring
  set k : Int := 1000 * m / (100 * sc20 f.Tc) with hk
  have hkm : k * (100 * sc20 f.Tc) ≤ 1000 * m := Int.ediv_mul_le _ (by omega)
  have hr : reach f = 1000 - k.toNat := rfl
  have hr2 : (1000 : ℝ) - k ≤ reach f ∨ k < 0 := by
    by_cases hk0 : 0 ≤ k
    · left
      rw [hr]
      have : (1000 : Int) - k ≤ ((1000 - k.toNat : ℕ) : Int) := by omega
      exact_mod_cast this
    · right; omega
  have hk0 : ¬ k < 0 := by
    intro hc
    have : (0 : ℝ) < m := by
      have := Tmin_pos hf
      rw [e] at this
      exact (div_pos_iff_of_pos_right (by positivity)).mp this
    have : (0 : Int) ≤ 1000 * m := by
      have : (0 : Int) < m := by exact_mod_cast this
      omega
    have := Int.ediv_nonneg this (show (0 : Int) ≤ 100 * sc20 f.Tc by omega)
    omega
  have hr3 := hr2.resolve_right hk0
  have hkm' : (k : ℝ) * (100 * sc20 f.Tc) ≤ 1000 * m := by exact_mod_cast hkm
  have : (k : ℝ) / 1000 ≤ T / f.Tc.val := by
    rw [div_le_div_iff₀ (by norm_num) hc, h.t20.2.1]
    rw [e, div_le_iff₀ (by positivity)] at hT
    rw [mul_div_assoc', div_le_iff₀ (by positivity)]
    nlinarith
  linarith

theorem dsv_eq (T : ℝ) (hT : T ≤ f.Tc.val) : ∃ k : ℝ, (f.dsv.fn = 2 ∧ k = 1 ∨ k = 1 / (T / f.Tc.val)) ∧
    f.sub.dsv T = f.dsv.scale.val * Real.exp (k * sumT (flat f.dsv.coef) (1 - T / f.Tc.val)) := by
  have h := facts hf
  have hc : 0 < f.Tc.val := h.Tt.trans h.Tc
  have hx : 0 ≤ 1 - T / f.Tc.val := by rw [sub_nonneg, div_le_one hc]; exact hT
  have e : f.sub.dsv T = _ := satVal_eq h.dsv T
  rcases h.dsvfn with e1 | e1
  · refine ⟨1, Or.inl ⟨e1, rfl⟩, ?_⟩
    rw [e, e1, one_mul, ← poly1At_flat _ h.dsv.ok hx]
    rfl
  · refine ⟨_, Or.inr rfl, ?_⟩
    rw [e, e1, ← poly1At_flat _ h.dsv.ok hx]
    rfl

theorem dsv_pos {T : ℝ} (hT : T ≤ f.Tc.val) : 0 < f.sub.dsv T := by
  have h := facts hf
  obtain ⟨k, -, e⟩ := dsv_eq hf T hT
  rw [e]
  exact mul_pos h.dsv.scale (Real.exp_pos _)

theorem dsv_lt {T : ℝ} (h1 : f.Tmin ≤ T) (h2 : T < f.Tc.val) : f.sub.dsv T < f.dsv.scale.val := by
  have h := facts hf
  have hc : 0 < f.Tc.val := h.Tt.trans h.Tc
  have hT := (Tmin_pos hf).trans_le h1
  obtain ⟨k, hk, e⟩ := dsv_eq hf T h2.le
  have hx : 0 < 1 - T / f.Tc.val := by rw [sub_pos, div_lt_one hc]; exact h2
  have hv := (curves f hf).vapor _ hx (reach_ge hf h1)
  have hk0 : 0 < k := by
    rcases hk with ⟨-, rfl⟩ | rfl
    · exact one_pos
    · positivity
  rw [e]
  have : Real.exp (k * sumT (flat f.dsv.coef) (1 - T / f.Tc.val)) < 1 := by
    rw [Real.exp_lt_one_iff]
    exact mul_neg_of_pos_of_neg hk0 hv
  nlinarith [h.dsv.scale]

omit hf in
theorem sumT_rest (gs : List G1) (h : (flat gs).all (fun t => decide (0 ≤ t.1)) = true) {x : ℝ} (hx : 0 < x) :
    sumT (flat gs) x = const gs / 10 ^ 20 + sumT (rest gs) x := by
  unfold const rest
  generalize flat gs = ts at *
  simp only [List.all_eq_true, decide_eq_true_eq] at h
  induction ts with
  | nil => simp [sumT]
  | cons t ts ih =>
    have ih := ih fun s hs => h s (by simp [hs])
    by_cases hc : t.1 = 0
    · rw [List.filter_cons_of_pos (by simp [hc]), List.filter_cons_of_neg (by simp [hc])]
      simp only [sumT, List.map_cons, List.sum_cons] at ih ⊢
      rw [ih]
      simp only [cf, xp, hc]
      push_cast
      simp only [zero_div, Real.rpow_zero]
      ring
    · rw [List.filter_cons_of_neg (by simp [hc]), List.filter_cons_of_pos (by simp [hc])]
      simp only [sumT, List.map_cons, List.sum_cons] at ih ⊢
      rw [ih]
      ring

theorem dsl_gt {T : ℝ} (h1 : f.Tmin ≤ T) (h2 : T < f.Tc.val) : f.dsv.scale.val < f.sub.dsl T := by
  have h := facts hf
  have hc : 0 < f.Tc.val := h.Tt.trans h.Tc
  have hx : 0 < 1 - T / f.Tc.val := by rw [sub_pos, div_lt_one hc]; exact h2
  have hl := (curves f hf).liquid _ hx (reach_ge hf h1)
  have e : f.sub.dsl T = _ := satVal_eq h.dsl T
  have hb := (curves f hf).basics
  have h8 : (flat f.dsl.coef).all (fun t => decide (0 ≤ t.1)) = true := by
    simp only [basics, okSat, Bool.and_eq_true] at hb
    exact hb.1.1.1.1.1.1.1.1.1.1.1.1.1.1.1.2.2
  rcases h.dslfn with ⟨e1, e2, e3⟩ | ⟨e1, e3⟩
  · rw [e, e1]
    simp only [satAt]
    rw [poly1At_flat _ h.dsl.ok hx.le]
    have er : rest f.dsl.coef = flat f.dsl.coef := by
      unfold rest
      rw [List.filter_eq_self]
      intro t ht
      have := List.all_eq_true.mp e2 t ht
      simp only [decide_eq_true_eq] at this ⊢
      omega
    rw [er] at hl
    have := Real.one_lt_exp_iff.mpr hl
    nlinarith [h.dsl.scale]
  · rw [e, e1]
    simp only [satAt]
    rw [poly1At_flat _ h.dsl.ok hx.le, sumT_rest _ h8 hx]
    nlinarith [h.dsl.scale, mul_pos h.dsl.scale hl]

theorem ps_eq {T : ℝ} (hT : T ≤ f.Tc.val) : f.sub.ps T = f.ps.scale.val *
    Real.exp ((fun x => sumT (flat f.ps.coef) x / (1 - x)) (1 - T / f.Tc.val)) := by
  have h := facts hf
  have hc : 0 < f.Tc.val := h.Tt.trans h.Tc
  have hx : 0 ≤ 1 - T / f.Tc.val := by rw [sub_nonneg, div_le_one hc]; exact hT
  have e : f.sub.ps T = _ := satVal_eq h.ps T
  rw [e, h.psfn]
  simp only [satAt]
  rw [poly1At_flat _ h.ps.ok hx, sub_sub_cancel, one_div_mul_eq_div]

theorem ps_pos {T : ℝ} (hT : T ≤ f.Tc.val) : 0 < f.sub.ps T := by
  rw [ps_eq hf hT]
  exact mul_pos (facts hf).ps.scale (Real.exp_pos _)

/-- The saturation pressure rises with temperature. -/
theorem ps_mono : StrictMonoOn f.sub.ps (Set.Icc f.Tmin f.Tc.val) := by
  have h := facts hf
  have hc : 0 < f.Tc.val := h.Tt.trans h.Tc
  intro T ⟨a1, a2⟩ T' ⟨b1, b2⟩ hlt
  rw [ps_eq hf a2, ps_eq hf b2]
  refine mul_lt_mul_of_pos_left (Real.exp_lt_exp.mpr ?_) h.ps.scale
  have hT := (Tmin_pos hf).trans_le a1
  have hX : 1 - T / f.Tc.val < 1 := by
    have : 0 < T / f.Tc.val := by positivity
    linarith
  have hlt' : T / f.Tc.val < T' / f.Tc.val := div_lt_div_of_pos_right hlt hc
  have h0 : 0 ≤ 1 - T' / f.Tc.val := by rw [sub_nonneg, div_le_one hc]; exact b2
  refine sumT_anti h.ps0 hX ?_ ⟨h0, by linarith⟩ ⟨by linarith, le_refl _⟩ (by linarith)
  intro x hx hx2
  exact (curves f hf).pressure x hx (hx2.trans_le (reach_ge hf a1))

/-- The data of a shipped substance are what the theorems on calls assume. -/
theorem good : GoodSub f.sub f.Tmin where
  dome := ⟨(facts hf).mw, fun _ _ h2 => dsv_pos hf h2, fun _ h1 h2 => (dsv_lt hf h1 h2).trans (dsl_gt hf h1 h2)⟩
  pos := (facts hf).Tt
  order := (facts hf).Tc
  range := (facts hf).Tlim
  min1 := min_le_left _ _
  min2 := min_le_right _ _

end

end PyroMat.Shipped
