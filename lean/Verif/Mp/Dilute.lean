import Verif.Mp.PropsMend

/-!
# The residual part at vanishing density
-/

set_option linter.unusedSimpArgs false

namespace PyroMat.Mp.Props

open PyroMat PyroMat.Mp PyroMat.Mp.Spec Filter Topology

/-- As the density falls to zero the scaled components (each density derivative multiplied by the density) have limits. -/
structure Tame (F : ℝ → J6) (l : J6) : Prop where
  p : Tendsto (fun d => (F d).p) (𝓝[>] 0) (𝓝 l.p)
  px : Tendsto (fun d => (F d).px) (𝓝[>] 0) (𝓝 l.px)
  pxx : Tendsto (fun d => (F d).pxx) (𝓝[>] 0) (𝓝 l.pxx)
  py : Tendsto (fun d => d * (F d).py) (𝓝[>] 0) (𝓝 l.py)
  pxy : Tendsto (fun d => d * (F d).pxy) (𝓝[>] 0) (𝓝 l.pxy)
  pyy : Tendsto (fun d => d * (d * (F d).pyy)) (𝓝[>] 0) (𝓝 l.pyy)

/-- The zero jet. -/
def zero6 : J6 := ⟨0, 0, 0, 0, 0, 0⟩

/-- As the density falls to zero the scaled components vanish. -/
def Fade (F : ℝ → J6) : Prop := Tame F zero6

theorem Tame.congr {F G : ℝ → J6} {l : J6} (h : Tame F l) (e : ∀ᶠ d in 𝓝[>] (0 : ℝ), F d = G d) : Tame G l := by
  refine ⟨h.p.congr' ?_, h.px.congr' ?_, h.pxx.congr' ?_, h.py.congr' ?_, h.pxy.congr' ?_, h.pyy.congr' ?_⟩ <;>
    · filter_upwards [e] with d hd
      rw [hd]

theorem Tame.add {F G : ℝ → J6} {l m : J6} (hF : Tame F l) (hG : Tame G m) : Tame (fun d => (F d).add (G d)) (l.add m) := by
  refine ⟨hF.p.add hG.p, hF.px.add hG.px, hF.pxx.add hG.pxx, (hF.py.add hG.py).congr fun d => ?_,
    (hF.pxy.add hG.pxy).congr fun d => ?_, (hF.pyy.add hG.pyy).congr fun d => ?_⟩ <;>
    · simp only [J6.add]
      ring

theorem Tame.mul {F G : ℝ → J6} {l m : J6} (hF : Tame F l) (hG : Tame G m) : Tame (fun d => (F d).mul (G d)) (l.mul m) := by
  refine ⟨hF.p.mul hG.p, (hF.px.mul hG.p).add (hF.p.mul hG.px),
    ((hF.pxx.mul hG.p).add ((hF.px.const_mul 2).mul hG.px)).add (hF.p.mul hG.pxx),
    ((hF.py.mul hG.p).add (hF.p.mul hG.py)).congr fun d => ?_,
    ((((hF.pxy.mul hG.p).add (hF.px.mul hG.py)).add (hF.py.mul hG.px)).add (hF.p.mul hG.pxy)).congr fun d => ?_,
    (((hF.pyy.mul hG.p).add ((hF.py.const_mul 2).mul hG.py)).add (hF.p.mul hG.pyy)).congr fun d => ?_⟩ <;>
    · simp only [J6.mul]
      ring

theorem Fade.add {F G : ℝ → J6} (hF : Fade F) (hG : Fade G) : Fade (fun d => (F d).add (G d)) := by
  have := Tame.add hF hG
  rwa [show zero6.add zero6 = zero6 by simp [zero6, J6.add]] at this

theorem Fade.mul {F G : ℝ → J6} {m : J6} (hF : Fade F) (hG : Tame G m) : Fade (fun d => (F d).mul (G d)) := by
  have := Tame.mul hF hG
  rwa [show zero6.mul m = zero6 by simp [zero6, J6.mul]] at this

theorem Tame.fade_mul {F G : ℝ → J6} {m : J6} (hF : Tame F m) (hG : Fade G) : Fade (fun d => (F d).mul (G d)) := by
  have := Tame.mul hF hG
  rwa [show m.mul zero6 = zero6 by simp [zero6, J6.mul]] at this

theorem Fade.const_zero : Fade (fun _ => ⟨0, 0, 0, 0, 0, 0⟩) :=
  ⟨tendsto_const_nhds, tendsto_const_nhds, tendsto_const_nhds, by simp [zero6], by simp [zero6], by simp [zero6]⟩

theorem Tame.const (j : J6) : Tame (fun _ => j) ⟨j.p, j.px, 0, j.pxx, 0, 0⟩ := by
  have h0 : Tendsto (fun d : ℝ => d) (𝓝[>] 0) (𝓝 0) := tendsto_nhdsWithin_of_tendsto_nhds tendsto_id
  refine ⟨tendsto_const_nhds, tendsto_const_nhds, tendsto_const_nhds, ?_, ?_, ?_⟩
  · simpa using h0.mul_const j.py
  · simpa using h0.mul_const j.pxy
  · simpa using h0.mul (h0.mul_const j.pyy)

/-- Components that are continuous at density zero. -/
theorem Tame.of_continuous {F : ℝ → J6} (h1 : ContinuousAt (fun d => (F d).p) 0) (h2 : ContinuousAt (fun d => (F d).px) 0)
    (h3 : ContinuousAt (fun d => (F d).pxx) 0) (h4 : ContinuousAt (fun d => (F d).py) 0)
    (h5 : ContinuousAt (fun d => (F d).pxy) 0) (h6 : ContinuousAt (fun d => (F d).pyy) 0) :
    Tame F ⟨(F 0).p, (F 0).px, 0, (F 0).pxx, 0, 0⟩ := by
  have h0 : Tendsto (fun d : ℝ => d) (𝓝[>] 0) (𝓝 0) := tendsto_nhdsWithin_of_tendsto_nhds tendsto_id
  have g : ∀ {f : ℝ → ℝ}, ContinuousAt f 0 → Tendsto f (𝓝[>] 0) (𝓝 (f 0)) := fun h => h.mono_left nhdsWithin_le_nhds
  refine ⟨g h1, g h2, g h3, ?_, ?_, ?_⟩
  · simpa using h0.mul (g h4)
  · simpa using h0.mul (g h5)
  · simpa using h0.mul (h0.mul (g h6))

theorem pow_zero_limit {b : ℝ} (hb : 0 < b) : Tendsto (fun d : ℝ => d ^ b) (𝓝[>] 0) (𝓝 0) := by
  have := (Real.continuousAt_rpow_const 0 b (Or.inr hb.le)).tendsto
  rw [Real.zero_rpow hb.ne'] at this
  exact this.mono_left nhdsWithin_le_nhds

/-- A positive power of the density. -/
theorem powP_fade {b : ℝ} (hb : 0 < b) : Fade (fun d => (powP b d).liftY) := by
  have h := pow_zero_limit hb
  refine ⟨h, tendsto_const_nhds, tendsto_const_nhds, ?_, by simp [P3.liftY, zero6], ?_⟩
  · have := h.const_mul b
    rw [mul_zero] at this
    refine this.congr' ?_
    filter_upwards [self_mem_nhdsWithin] with d hd
    have : d ≠ 0 := ne_of_gt hd
    simp only [powP, P3.liftY]
    field_simp
  · have := h.const_mul (b * (b - 1))
    rw [mul_zero] at this
    refine this.congr' ?_
    filter_upwards [self_mem_nhdsWithin] with d hd
    have : d ≠ 0 := ne_of_gt hd
    simp only [powP, P3.liftY]
    field_simp

theorem expK_tame {k : Nat} (hk : k ≠ 0) : ∃ l, Tame (fun d => (expK k d).liftY) l := by
  have h0 : Tendsto (fun d : ℝ => d ^ k) (𝓝[>] 0) (𝓝 0) := by
    have := ((continuous_pow k).tendsto (0 : ℝ)).mono_left (nhdsWithin_le_nhds (s := Set.Ioi 0))
    rwa [zero_pow hk] at this
  have he : Tendsto (fun d : ℝ => Real.exp (-d ^ k)) (𝓝[>] 0) (𝓝 1) := by
    have := (Real.continuous_exp.tendsto _).comp h0.neg
    simpa [Function.comp_def] using this
  refine ⟨⟨1, 0, 0, 0, 0, 0⟩, he, tendsto_const_nhds, tendsto_const_nhds, ?_, by simp [P3.liftY], ?_⟩
  · have := he.mul (h0.const_mul (-(k : ℝ)))
    rw [mul_zero, mul_zero] at this
    refine this.congr' ?_
    filter_upwards [self_mem_nhdsWithin] with d hd
    have : d ≠ 0 := ne_of_gt hd
    simp only [expK, P3.liftY]
    field_simp
  · have := he.mul ((h0.const_mul (-(k : ℝ))).mul ((h0.const_mul (-(k : ℝ))).const_add ((k : ℝ) - 1)))
    rw [mul_zero, zero_mul, mul_zero] at this
    refine this.congr' ?_
    filter_upwards [self_mem_nhdsWithin] with d hd
    have : d ≠ 0 := ne_of_gt hd
    simp only [expK, P3.liftY]
    field_simp

theorem quadE_tame (a e b g t : ℝ) : ∃ l, Tame (fun d => quadE a e b g t d) l := by
  refine ⟨_, Tame.of_continuous ?_ ?_ ?_ ?_ ?_ ?_⟩ <;>
    · simp only [quadE, quadF, P3.of]
      fun_prop

/-! ## Polynomials -/

/-- Families with the same values and right derivatives are the same. -/
theorem Jet2.unique {F G : ℝ → ℝ → J6} {U : Set (ℝ × ℝ)} (hU : IsOpen U) (hF : ∀ x y, (x, y) ∈ U → Jet2 F x y)
    (hG : ∀ x y, (x, y) ∈ U → Jet2 G x y) (e : ∀ x y, (x, y) ∈ U → (F x y).p = (G x y).p) {x y : ℝ}
    (h : (x, y) ∈ U) : F x y = G x y := by
  have iF := Jet2.is hU hF e h
  have iG := Jet2.is hU hG (fun _ _ _ => rfl) h
  have h1 := iF.dx.unique iG.dx
  have h2 := iF.dy.unique iG.dy
  have h3 := iF.dxx.unique iG.dxx
  have h4 := iF.dxy.unique iG.dxy
  have h5 := iF.dyy.unique iG.dyy
  have h6 := e x y h
  revert h1 h2 h3 h4 h5 h6
  generalize F x y = a
  generalize G x y = b
  cases a; cases b
  intros
  simp_all

/-- One term of a polynomial with its derivatives. -/
noncomputable def termF (g : Group2) (t : Term2) (x y : ℝ) : J6 :=
  (J6.mul ⟨t.2.2, 0, 0, 0, 0, 0⟩ (powP (g.prex * t.1 + g.postx) x).liftX).mul (powP (g.prey * t.2.1 + g.posty) y).liftY

theorem termF_jet (g : Group2) (t : Term2) {x y : ℝ} (hx : x ≠ 0) (hy : y ≠ 0) : Jet2 (termF g t) x y :=
  ((Jet2.const t.2.2 x y).mul (Jet2.liftX (Jet1.rpow _ hx) y)).mul (Jet2.liftY (Jet1.rpow _ hy) x)

theorem group_terms (g : Group2) (hs : Sorted2 g) (hok : PreOk g) {x y : ℝ} (hx : 0 < x) (hy : 0 < y) :
    evalG2 2 g x y = (g.terms.map fun t => termF g t x y).foldr J6.add ⟨0, 0, 0, 0, 0, 0⟩ := by
  refine Jet2.unique (F := evalG2 2 g)
    (G := fun x y => (g.terms.map fun t => termF g t x y).foldr J6.add ⟨0, 0, 0, 0, 0, 0⟩) quadrant_open
    (fun a b hab => evalG2_jet g hok hab.1 hab.2) (fun a b hab => foldr_jet (termF g) g.terms fun t _ =>
      termF_jet g t (ne_of_gt hab.1) (ne_of_gt hab.2)) (fun a b hab => ?_) (show (x, y) ∈ _ from ⟨hx, hy⟩)
  have ha : 0 < a := hab.1
  have hb : 0 < b := hab.2
  rw [evalG2_value 2 g a b hs, foldr_value, ← List.sum_map_mul_left]
  congr 1
  refine List.map_congr_left fun t _ => ?_
  simp only [termF, J6.mul, powP, P3.liftX, P3.liftY]
  rw [Real.rpow_add ha, Real.rpow_add hb, Real.rpow_mul ha.le, Real.rpow_mul hb.le, Real.rpow_natCast, Real.rpow_natCast]
  ring

/-- Every term of the group has a positive power of the density, or coefficient zero. -/
def Group2.Dilute (g : Group2) : Prop := ∀ t ∈ g.terms, t.2.2 = 0 ∨ 0 < g.prey * t.2.1 + g.posty

theorem foldr_fade {α : Type} (f : α → ℝ → J6) (l : List α) (h : ∀ r ∈ l, Fade (f r)) :
    Fade (fun d => (l.map fun r => f r d).foldr J6.add ⟨0, 0, 0, 0, 0, 0⟩) := by
  induction l with
  | nil => exact Fade.const_zero
  | cons a l ih => exact (h a (by simp)).add (ih fun r hr => h r (by simp [hr]))

theorem evalG2_fade (g : Group2) (hs : Sorted2 g) (hok : PreOk g) (hd : Group2.Dilute g) {t : ℝ} (ht : 0 < t) :
    Fade (fun d => evalG2 2 g t d) := by
  refine (foldr_fade (fun r d => termF g r t d) g.terms fun r hr => ?_).congr ?_
  · rcases hd r hr with h0 | h0
    · refine Fade.const_zero.congr (Eventually.of_forall fun d => ?_)
      simp [termF, J6.mul, h0]
    · exact Tame.fade_mul (Tame.const _) (powP_fade h0)
  · filter_upwards [self_mem_nhdsWithin] with d hd'
    exact (group_terms g hs hok ht hd').symm

theorem evalGs2_fade (gs : List Group2) (hs : ∀ g ∈ gs, Sorted2 g) (hok : ∀ g ∈ gs, PreOk g)
    (hd : ∀ g ∈ gs, Group2.Dilute g) {t : ℝ} (ht : 0 < t) : Fade (fun d => evalGs2 gs t d) := by
  induction gs with
  | nil => exact Fade.const_zero
  | cons g gs ih =>
    exact (evalG2_fade g (hs g (by simp)) (hok g (by simp)) (hd g (by simp)) ht).add
      (ih (fun q hq => hs q (by simp [hq])) (fun q hq => hok q (by simp [hq])) fun q hq => hd q (by simp [hq]))

theorem expsF_fade (l : List (List Group2)) (hs : ∀ gs ∈ l, ∀ g ∈ gs, Sorted2 g) (hok : ∀ gs ∈ l, ∀ g ∈ gs, PreOk g)
    (hd : ∀ gs ∈ l, ∀ g ∈ gs, Group2.Dilute g) {t : ℝ} (ht : 0 < t) (k : Nat) (hk : k ≠ 0) :
    Fade (fun d => expsF l k t d) := by
  induction l generalizing k with
  | nil => exact Fade.const_zero
  | cons gs l ih =>
    obtain ⟨m, hm⟩ := expK_tame hk
    exact (hm.fade_mul (evalGs2_fade gs (hs gs (by simp)) (hok gs (by simp)) (hd gs (by simp)) ht)).add
      (ih (fun q hq => hs q (by simp [hq])) (fun q hq => hok q (by simp [hq])) (fun q hq => hd q (by simp [hq])) _
        (Nat.succ_ne_zero k))

theorem gaussTerm_fade (r : Row1) (hr : 0 < r.d) (t : ℝ) : Fade (fun d => gaussTerm r t d) := by
  obtain ⟨m, hm⟩ := quadE_tame r.a r.ep r.b r.gam t
  have := Fade.mul (Tame.fade_mul (Tame.const ⟨r.c, 0, 0, 0, 0, 0⟩)
    ((powP_fade hr).mul (Tame.const (powP r.t t).liftX))) hm
  exact this.congr (Eventually.of_forall fun d => (gaussTerm_eq r t d).symm)

/-- The part without density derivatives. -/
def J6.xPart (j : J6) : P3 := ⟨j.p, j.px, j.pxx⟩

/-- As the density falls to zero the components have limits, those with a density derivative vanish. -/
def Settle (F : ℝ → J6) (q : P3) : Prop := Tame F q.liftX

theorem Fade.settle {F : ℝ → J6} (h : Fade F) : Settle F ⟨0, 0, 0⟩ := h

/-- The sum. -/
def P3.add (a b : P3) : P3 := ⟨a.p + b.p, a.px + b.px, a.pxx + b.pxx⟩

theorem Settle.add {F G : ℝ → J6} {a b : P3} (hF : Settle F a) (hG : Settle G b) :
    Settle (fun d => (F d).add (G d)) (P3.add a b) := by
  have := Tame.add hF hG
  rwa [show a.liftX.add b.liftX = (P3.add a b).liftX by simp [P3.liftX, P3.add, J6.add]] at this

/-- A Gaussian term without a power of the density. -/
noncomputable def gaussF0 (r : Row1) (t d : ℝ) : J6 :=
  (J6.mul ⟨r.c, 0, 0, 0, 0, 0⟩ (powP r.t t).liftX).mul (quadE r.a r.ep r.b r.gam t d)

open Classical in
/-- What is left of a Gaussian term at density zero. -/
noncomputable def gauss0 (r : Row1) (t : ℝ) : P3 := if r.d = 0 then J6.xPart (gaussF0 r t 0) else ⟨0, 0, 0⟩

theorem gauss0_jet (r : Row1) {t : ℝ} (ht : t ≠ 0) : Jet1 (gauss0 r) t := by
  by_cases h : r.d = 0
  · have := ((Jet2.const r.c t 0).mul (Jet2.liftX (Jet1.rpow r.t ht) 0)).mul (quadE_jet r.a r.ep r.b r.gam t 0)
    have e : gauss0 r = fun t => J6.xPart (gaussF0 r t 0) := funext fun t => if_pos h
    rw [e]
    exact ⟨this.dx, this.dxx⟩
  · have e : gauss0 r = fun _ => ⟨0, 0, 0⟩ := funext fun t => if_neg h
    rw [e]
    exact Jet1.const 0 t

theorem gaussTerm_settle (r : Row1) (hr : 0 ≤ r.d) (t : ℝ) : Settle (fun d => gaussTerm r t d) (gauss0 r t) := by
  by_cases h : r.d = 0
  · rw [gauss0, if_pos h]
    have hc : Tame (fun d => gaussF0 r t d) (J6.xPart (gaussF0 r t 0)).liftX := by
      refine Tame.of_continuous ?_ ?_ ?_ ?_ ?_ ?_ <;>
        · simp only [gaussF0, J6.mul, quadE, quadF, P3.of, P3.liftX]
          fun_prop
    refine hc.congr ?_
    filter_upwards [self_mem_nhdsWithin] with d hd
    rw [gaussTerm_eq]
    simp only [gaussF0, powP, h, Real.rpow_zero, P3.liftX, P3.liftY, J6.mul]
    congr 1 <;> ring
  · rw [gauss0, if_neg h]
    exact gaussTerm_fade r (lt_of_le_of_ne hr (Ne.symm h)) t

/-- What is left of the residual part at density zero. -/
noncomputable def ar0 (g : ARgroup) (t : ℝ) : P3 := (g.coef1.map fun r => gauss0 r t).foldr P3.add ⟨0, 0, 0⟩

theorem ar0_jet (g : ARgroup) {t : ℝ} (ht : t ≠ 0) : Jet1 (ar0 g) t := by
  unfold ar0
  induction g.coef1 with
  | nil => exact Jet1.const 0 t
  | cons r l ih => exact (gauss0_jet r ht).add ih

theorem foldr_settle {α : Type} (f : α → ℝ → J6) (q : α → P3) (l : List α) (h : ∀ r ∈ l, Settle (f r) (q r)) :
    Settle (fun d => (l.map fun r => f r d).foldr J6.add ⟨0, 0, 0, 0, 0, 0⟩) ((l.map q).foldr P3.add ⟨0, 0, 0⟩) := by
  induction l with
  | nil => exact Fade.const_zero
  | cons a l ih => exact (h a (by simp)).add (ih fun r hr => h r (by simp [hr]))

/-! ## Non-analytic terms -/

theorem rpow_near (a : ℝ) : ContinuousAt (fun d : ℝ => ((d - 1) * (d - 1)) ^ a) 0 := by
  have : ContinuousAt (fun d : ℝ => (d - 1) * (d - 1)) 0 := by fun_prop
  exact this.rpow_const (Or.inl (by norm_num))

theorem div_near {f : ℝ → ℝ} (h : ContinuousAt f 0) : ContinuousAt (fun d => f d / (d - 1)) 0 :=
  h.div (by fun_prop) (by norm_num)

theorem naInner_near (r : Row2) : ContinuousAt (fun d => (naInner r false d).p) 0 ∧
    ContinuousAt (fun d => (naInner r false d).px) 0 ∧ ContinuousAt (fun d => (naInner r false d).pxx) 0 := by
  have h1 : ContinuousAt (fun d : ℝ => r.A * ((d - 1) * (d - 1)) ^ (1 / 2 * (1 / r.m))) 0 :=
    continuousAt_const.mul (rpow_near _)
  have h2 := div_near (continuousAt_const (y := 1 / r.m).mul h1)
  exact ⟨h1, h2, div_near (h2.mul continuousAt_const)⟩

theorem naOuter_near (r : Row2) : ContinuousAt (fun d => (naOuter r false d).p) 0 ∧
    ContinuousAt (fun d => (naOuter r false d).px) 0 ∧ ContinuousAt (fun d => (naOuter r false d).pxx) 0 := by
  have h1 : ContinuousAt (fun d : ℝ => r.B * ((d - 1) * (d - 1)) ^ r.a) 0 := continuousAt_const.mul (rpow_near _)
  have h2 := div_near (continuousAt_const (y := 2 * r.a).mul h1)
  exact ⟨h1, h2, div_near (continuousAt_const.mul h2)⟩

theorem naDelta_near (r : Row2) (t : ℝ) : ContinuousAt (fun d => (naDelta r false t d).p) 0 := by
  have hp : ContinuousAt (fun d => (naInner r false d).p - (t - 1)) 0 := (naInner_near r).1.sub continuousAt_const
  exact (hp.mul hp).add (naOuter_near r).1

theorem list_eventually {α : Type} (P : α → ℝ → Prop) (l : List α) (h : ∀ r ∈ l, ∀ᶠ d in 𝓝[>] (0 : ℝ), P r d) :
    ∀ᶠ d in 𝓝[>] (0 : ℝ), ∀ r ∈ l, P r d := by
  induction l with
  | nil => simp
  | cons a l ih =>
    filter_upwards [h a (by simp), ih fun r hr => h r (by simp [hr])] with d h1 h2 r hr
    rcases List.mem_cons.mp hr with rfl | hr
    · exact h1
    · exact h2 r hr

theorem naTerm_fade (r : Row2) (hB : 0 < r.B) (t : ℝ) : Fade (fun d => naTerm r false false t d) := by
  obtain ⟨i1, i2, i3⟩ := naInner_near r
  obtain ⟨o1, o2, o3⟩ := naOuter_near r
  have hp : ContinuousAt (fun d => (naInner r false d).p - (t - 1)) 0 := i1.sub continuousAt_const
  have c1 : ContinuousAt (fun d => (naDelta r false t d).p) 0 := (hp.mul hp).add o1
  have c2 : ContinuousAt (fun d => (naDelta r false t d).px) 0 := (continuousAt_const.mul hp).mul continuousAt_const
  have c3 : ContinuousAt (fun d => (naDelta r false t d).py) 0 := ((continuousAt_const.mul hp).mul i2).add o2
  have c4 : ContinuousAt (fun d => (naDelta r false t d).pxx) 0 := continuousAt_const
  have c6 : ContinuousAt (fun d => (naDelta r false t d).pyy) 0 :=
    (((continuousAt_const.mul i2).mul i2).add ((continuousAt_const.mul hp).mul i3)).add o3
  have h0 : (naDelta r false t 0).p ≠ 0 := by
    rw [naDelta_value]; exact (delta_pos r hB t (by norm_num)).ne'
  have e : ContinuousAt (fun d => (naDelta r false t d).p ^ r.b) 0 := c1.rpow_const (Or.inl h0)
  have be := continuousAt_const (y := r.b) (x := (0 : ℝ)) |>.mul e
  have et := (be.mul c2).div c1 h0
  have ed := (be.mul c3).div c1 h0
  have ett := (((continuousAt_const (y := r.b - 1)).mul et |>.mul c2).add (be.mul c4)).div c1 h0
  have etd := (((continuousAt_const (y := r.b - 1)).mul et |>.mul c3).add (be.mul c4)).div c1 h0
  have edd := (((continuousAt_const (y := r.b - 1)).mul ed |>.mul c3).add (be.mul c6)).div c1 h0
  have hq : ∃ m, Tame (fun d => naPow r false (naDelta r false t d)) m := by
    refine ⟨_, Tame.of_continuous ?_ ?_ ?_ ?_ ?_ ?_⟩ <;>
      simp only [naPow, Bool.false_eq_true, if_false]
    · exact e
    · exact et
    · exact ett
    · exact ed
    · exact etd
    · exact edd
  obtain ⟨m, hm⟩ := hq
  obtain ⟨l, hl⟩ := quadE_tame r.C 1 r.D 1 t
  have hd : Fade (fun d => (J6.mul ⟨r.c, 0, 0, 0, 0, 0⟩ (P3.liftY ⟨d, 1, 0⟩))) := by
    refine Tame.fade_mul (Tame.const _) ((powP_fade one_pos).congr ?_)
    filter_upwards [self_mem_nhdsWithin] with d hd
    have : d ≠ 0 := ne_of_gt hd
    simp [powP, P3.liftY, this]
  refine (((hd.mul hm).mul hl)).congr (Eventually.of_forall fun d => ?_)
  simp only [naTerm, J6.mul, P3.liftY, quadE, quadF, P3.of]
  congr 1 <;> ring

/-! ## The residual part -/

/-- What the limit of zero density needs of the coefficients: positive powers of the density (none in
some Gaussian terms), and a distance function that is not small there. -/
structure DiluteData (g : ARgroup) : Prop where
  poly : ∀ gs ∈ g.coef0, ∀ q ∈ gs, Group2.Dilute q
  gauss : ∀ r ∈ g.coef1, 0 ≤ r.d
  far : ∀ r ∈ g.coef2, 1 / 1000000 < r.B

theorem P3.zero_add' (q : P3) : P3.add ⟨0, 0, 0⟩ q = q := by simp [P3.add]

theorem P3.add_zero' (q : P3) : P3.add q ⟨0, 0, 0⟩ = q := by simp [P3.add]

theorem arF1_settle (g : ARgroup) (h : ArData g) (hd : DiluteData g) {t : ℝ} (ht : 0 < t) :
    Settle (fun d => arF1 g t d) (ar0 g t) := by
  obtain ⟨c0, c1, c2⟩ := g
  cases c0 with
  | nil => exact absurd rfl h.some
  | cons first rest =>
    have h1 := ((evalGs2_fade first (h.sorted first (by simp)) (h.pre first (by simp)) (hd.poly first (by simp)) ht).add
      (expsF_fade rest (fun gs hgs => h.sorted gs (by simp [hgs])) (fun gs hgs => h.pre gs (by simp [hgs]))
        (fun gs hgs => hd.poly gs (by simp [hgs])) ht 1 one_ne_zero)).settle
    have := h1.add (foldr_settle (fun r d => gaussTerm r t d) (fun r => gauss0 r t) c1
      fun r hr => gaussTerm_settle r (hd.gauss r hr) t)
    rwa [P3.zero_add'] at this

/-- As the density falls to zero, the residual part and its scaled derivatives go to those of `ar0`. -/
theorem arAt_settle (g : ARgroup) (h : ArData g) (hd : DiluteData g) {t : ℝ} (ht : 0 < t) :
    Settle (fun d => orZero (arAt g 2 [(t, d)] t d)) (ar0 g t) := by
  have h2 : Settle (fun d => (g.coef2.map fun r => naTerm r false false t d).foldr J6.add ⟨0, 0, 0, 0, 0, 0⟩) ⟨0, 0, 0⟩ :=
    foldr_fade (fun r d => naTerm r false false t d) g.coef2 fun r hr =>
      naTerm_fade r (lt_trans (by norm_num) (hd.far r hr)) t
  have h3 := (arF1_settle g h hd ht).add h2
  rw [P3.add_zero'] at h3
  refine Tame.congr h3 ?_
  have hfar : ∀ᶠ d in 𝓝[>] (0 : ℝ), ∀ r ∈ g.coef2, anyTiny r [(t, d)] = false := by
    refine list_eventually _ _ fun r hr => ?_
    have hc := naDelta_near r t
    have h0 : 1 / 1000000 < (naDelta r false t 0).p := by
      rw [naDelta_value]
      have : deltaVal r t 0 = ((1 - t) + r.A) ^ 2 + r.B := by simp [deltaVal]
      rw [this]
      have := hd.far r hr
      nlinarith [sq_nonneg ((1 - t) + r.A)]
    filter_upwards [(hc.eventually (eventually_gt_nhds h0)).filter_mono nhdsWithin_le_nhds] with d hd
    simp only [anyTiny, List.any_cons, List.any_nil, Bool.or_false, decide_eq_false_iff_not, not_lt]
    exact hd.le.trans (le_abs_self _)
  have hsmall : ∀ᶠ d in 𝓝[>] (0 : ℝ), anySmall [(t, d)] = false := by
    have : ∀ᶠ d : ℝ in 𝓝[>] 0, d < 1 / 2 := (eventually_lt_nhds (by norm_num)).filter_mono nhdsWithin_le_nhds
    filter_upwards [this] with d hd
    simp only [anySmall, List.any_cons, List.any_nil, Bool.or_false, decide_eq_false_iff_not, not_lt]
    rw [abs_of_neg (by linarith)]
    linarith
  filter_upwards [hfar, hsmall] with d a b
  rw [arAt_eq g h.some h.sorted]
  simp only [orZero, b]
  congr 2
  exact List.map_congr_left fun r hr => by rw [a r hr]

end PyroMat.Mp.Props
