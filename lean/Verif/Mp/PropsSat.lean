import Verif.Mp.SpecHelm
import Verif.Mp.PropsPoly

/-!
# C56: saturation fits
-/

set_option linter.unusedSimpArgs false

namespace PyroMat.Mp.Props

open PyroMat PyroMat.Mp PyroMat.Mp.Spec Filter Topology

/-- The routine at second order, as a function. -/
noncomputable def satF (fn : Nat) (gs : List Group1) (t : ℝ) : P3 :=
  let q : P3 := ⟨(evalGs1 gs (1 - t)).p, -(evalGs1 gs (1 - t)).px, (evalGs1 gs (1 - t)).pxx⟩
  match fn with
  | 0 => evalGs1 gs t
  | 1 => q
  | 2 => ⟨Real.exp q.p, q.px * Real.exp q.p, Real.exp q.p * (q.pxx + q.px * q.px)⟩
  | _ =>
    let p := q.p * (1 / t)
    let pt := 1 / t * (q.px - p)
    let ptt := 1 / t * (q.pxx - 2 * pt)
    ⟨Real.exp p, Real.exp p * pt, Real.exp p * (ptt + pt * pt)⟩

theorem satfit_eq (fn : Nat) (gs : List Group1) (t : ℝ) (h : ∀ g ∈ gs, g.terms ≠ []) (hf : fn ≤ 3) :
    satfit t fn gs 2 = .ok (satF fn gs t) := by
  match fn, hf with
  | 0, _ => simp [satfit, satF, poly1_eq gs t h]
  | 1, _ => simp [satfit, satF, poly1_eq gs (1 - t) h]
  | 2, _ => simp [satfit, satF, poly1_eq gs (1 - t) h]
  | 3, _ => simp [satfit, satF, poly1_eq gs (1 - t) h]

theorem rev_jet (x : ℝ) : Jet1 (fun s => ⟨1 - s, -1, 0⟩) x :=
  ⟨by simpa using (hasDerivAt_id x).const_sub 1, hasDerivAt_const x (-1)⟩

theorem inv_jet {x : ℝ} (hx : x ≠ 0) : Jet1 (fun s => ⟨1 / s, -(1 / s) / s, 2 * (1 / s) / s / s⟩) x := by
  have h1 : ∀ s : ℝ, s ≠ 0 → HasDerivAt (fun u : ℝ => 1 / u) (-(1 / s) / s) s := by
    intro s hs
    refine ((hasDerivAt_const s (1 : ℝ)).div (hasDerivAt_id s) hs).congr_deriv ?_
    simp only [id]; field_simp; ring
  refine ⟨h1 x hx, ?_⟩
  have h2 : HasDerivAt (fun u : ℝ => -(1 / u)) (-(-(1 / x) / x)) x := (h1 x hx).neg
  refine (h2.div (hasDerivAt_id x) hx).congr_deriv ?_
  simp only [id]; field_simp; ring

theorem satQ_jet (gs : List Group1) {x : ℝ} (h : x < 1) :
    Jet1 (fun s => ⟨(evalGs1 gs (1 - s)).p, -(evalGs1 gs (1 - s)).px, (evalGs1 gs (1 - s)).pxx⟩) x := by
  have h1 : Jet1 (evalGs1 gs) ((fun s : ℝ => (⟨1 - s, -1, 0⟩ : P3)) x).p :=
    evalGs1_jet gs (by simpa using sub_pos.mpr h)
  refine (Jet1.comp (X := fun s => ⟨1 - s, -1, 0⟩) h1 (rev_jet x)).congr (Eventually.of_forall fun s => ?_)
  simp

theorem satF_jet (fn : Nat) (gs : List Group1) {x : ℝ} (h0 : 0 < x) (h1 : x < 1) :
    Jet1 (satF fn gs) x := by
  have hq := satQ_jet gs h1
  match fn with
  | 0 => exact evalGs1_jet gs h0
  | 1 => exact hq
  | 2 =>
    refine (Jet1.exp hq).congr (Eventually.of_forall fun s => ?_)
    simp only [satF]
    congr 1 <;> ring
  | n + 3 =>
    refine (Jet1.exp (Jet1.mul hq (inv_jet h0.ne'))).congr ?_
    filter_upwards [eventually_gt_nhds h0] with s hs
    have hs' : s ≠ 0 := hs.ne'
    simp only [satF]
    congr 2 <;> field_simp <;> ring

theorem satF_value (fn : Nat) (gs : List Group1) (h : ∀ g ∈ gs, Sorted1 g) (t : ℝ) :
    (satF fn gs t).p = satAt fn gs t := by
  match fn with
  | 0 => simp [satF, satAt, evalGs1_value _ _ h]
  | 1 => simp [satF, satAt, evalGs1_value _ _ h]
  | 2 => simp [satF, satAt, evalGs1_value _ _ h]
  | n + 3 => simp [satF, satAt, evalGs1_value _ _ h, mul_comm]

/-- **C56.** For every coefficient list in the documented order and each of the four supported forms,
the routine returns the documented value and its first and second derivatives at every reduced
temperature between 0 and 1. -/
theorem C56_satfit (fn : Nat) (hf : fn ≤ 3) (gs : List Group1) (h : ∀ g ∈ gs, Sorted1 g) (t : ℝ)
    (h0 : 0 < t) (h1 : t < 1) :
    ∃ j, satfit t fn gs 2 = .ok j ∧ Is1 (satAt fn gs) t j := by
  refine ⟨_, satfit_eq fn gs t (fun g hg => (h g hg).1) hf, Jet1.is ?_ ?_⟩
  · filter_upwards [eventually_gt_nhds h0, eventually_lt_nhds h1] with s hs hs'
    exact satF_jet fn gs hs hs'
  · exact Eventually.of_forall fun s => satF_value fn gs h s

/-- **C56.** Asking for fewer derivatives returns the same numbers with the others 0. -/
theorem C56_order (d fn : Nat) (t : ℝ) (gs : List Group1) :
    satfit t fn gs d = (satfit t fn gs 2).map (P3.cut d) := by
  unfold satfit
  split
  · exact C46_order d t gs
  all_goals try rfl
  all_goals
    rw [C46_order d (1 - t) gs]
    cases poly1 (1 - t) gs 2 with
    | error e => rfl
    | ok s => rcases d with _ | _ | d <;> simp [P3.cut, Except.map]

/-- **C56.** At every temperature, the critical one included, the value is the documented one. -/
theorem C56_value (d fn : Nat) (hf : fn ≤ 3) (gs : List Group1) (h : ∀ g ∈ gs, Sorted1 g) (t : ℝ) :
    ∃ j, satfit t fn gs d = .ok j ∧ j.p = satAt fn gs t := by
  rw [C56_order, satfit_eq fn gs t (fun g hg => (h g hg).1) hf]
  exact ⟨_, rfl, by simpa [P3.cut] using satF_value fn gs h t⟩

/-- **C56.** Another form is not answered. -/
theorem C56_unsupported (d fn : Nat) (hf : 3 < fn) (gs : List Group1) (t : ℝ) :
    satfit t fn gs d = .error .unboundLocal := by
  match fn, hf with
  | n + 4, _ => rfl

/-- **C56.** The saturation pressure, liquid density and vapour density are the scaled fit of the
reduced temperature, and the numbers returned with them are the derivatives by temperature in the
units of the data, for every temperature between 0 and the critical scale. -/
theorem C56_saturation (g : SatGroup) (hf : g.fn ≤ 3) (h : ∀ q ∈ g.coef, Sorted1 q) (T : ℝ)
    (h0 : 0 < T) (h1 : T < g.Tscale) :
    ∃ j, satprop g 2 T = .ok j ∧
      Is1 (fun T => g.scale * satAt g.fn g.coef (T / g.Tscale)) T j := by
  have hs : 0 < g.Tscale := lt_trans h0 h1
  let F : ℝ → P3 := fun T => ⟨(satF g.fn g.coef (T / g.Tscale)).p * g.scale,
    (satF g.fn g.coef (T / g.Tscale)).px * (g.scale / g.Tscale),
    (satF g.fn g.coef (T / g.Tscale)).pxx * (g.scale / g.Tscale / g.Tscale)⟩
  refine ⟨F T, ?_, Jet1.is ?_ ?_⟩
  · simp [satprop, satfit_eq g.fn g.coef _ (fun q hq => (h q hq).1) hf, F]
  · filter_upwards [eventually_gt_nhds h0, eventually_lt_nhds h1] with s hs0 hs1
    have hX : Jet1 (fun u : ℝ => (⟨u / g.Tscale, 1 / g.Tscale, 0⟩ : P3)) s :=
      ⟨by simpa using (hasDerivAt_id s).div_const g.Tscale, hasDerivAt_const s _⟩
    have hF : Jet1 (satF g.fn g.coef) ((fun u : ℝ => (⟨u / g.Tscale, 1 / g.Tscale, 0⟩ : P3)) s).p :=
      satF_jet _ _ (div_pos hs0 hs) ((div_lt_one hs).mpr hs1)
    refine ((Jet1.comp (X := fun u => ⟨u / g.Tscale, 1 / g.Tscale, 0⟩) hF hX).mul (Jet1.const g.scale s)).congr (Eventually.of_forall fun u => ?_)
    simp only [F]
    congr 1 <;> field_simp <;> ring
  · refine Eventually.of_forall fun s => ?_
    simp only [F]
    rw [satF_value g.fn g.coef h]
    ring

/-- **C56.** The value alone, at every temperature and whatever derivatives are asked for. -/
theorem C56_saturation_value (g : SatGroup) (hf : g.fn ≤ 3) (h : ∀ q ∈ g.coef, Sorted1 q) (T : ℝ)
    (d : Nat) :
    ∃ j, satprop g d T = .ok j ∧ j.p = g.scale * satAt g.fn g.coef (T / g.Tscale) := by
  obtain ⟨j, hj, hv⟩ := C56_value d g.fn hf g.coef h (T / g.Tscale)
  refine ⟨⟨j.p * g.scale, if d > 0 then j.px * (g.scale / g.Tscale) else j.px,
    if d > 1 then j.pxx * (g.scale / g.Tscale / g.Tscale) else j.pxx⟩, by simp only [satprop, hj], ?_⟩
  simp only [hv]
  ring

/-! ## Concrete cases -/

/-- A vapour-pressure equation of the shipped shape, at 300 of 500 kelvin. -/
example : let g : SatGroup := ⟨500, 4e6, 3, [⟨1 / 2, 0, [(7, -1.3), (3, 1.5), (2, -7)]⟩]⟩
    g.fn ≤ 3 ∧ (∀ q ∈ g.coef, Sorted1 q) ∧ (0 : ℝ) < 300 ∧ 300 < g.Tscale := by
  refine ⟨le_refl 3, ?_, by norm_num, by norm_num⟩
  intro q hq
  simp only [List.mem_singleton] at hq
  subst hq
  exact ⟨by simp, by simp⟩

end PyroMat.Mp.Props
