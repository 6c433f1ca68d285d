import Mathlib.Tactic.Ring
import Mathlib.Tactic.FieldSimp
import Mathlib.Analysis.Calculus.Deriv.Mul
import Mathlib.Analysis.Calculus.Deriv.Comp
import Mathlib.Analysis.Calculus.Deriv.Add
import Verif.Mp.Spec

/-!
# Families of derivatives and how they combine
-/

namespace PyroMat.Mp

open PyroMat PyroMat.Mp.Spec Filter Topology

/-- At `x` the second and third components are the derivatives of the first and second. -/
structure Jet1 (F : ℝ → P3) (x : ℝ) : Prop where
  d1 : HasDerivAt (fun s => (F s).p) (F x).px x
  d2 : HasDerivAt (fun s => (F s).px) (F x).pxx x

/-- The same in two variables. -/
structure Jet2 (F : ℝ → ℝ → J6) (x y : ℝ) : Prop where
  dx : HasDerivAt (fun s => (F s y).p) (F x y).px x
  dy : HasDerivAt (fun s => (F x s).p) (F x y).py y
  dxx : HasDerivAt (fun s => (F s y).px) (F x y).pxx x
  dxy : HasDerivAt (fun s => (F x s).px) (F x y).pxy y
  dyx : HasDerivAt (fun s => (F s y).py) (F x y).pxy x
  dyy : HasDerivAt (fun s => (F x s).py) (F x y).pyy y

/-- From a family of derivatives to derivatives of the value. -/
theorem Jet1.is {F : ℝ → P3} {V : ℝ → ℝ} {x : ℝ} (h : ∀ᶠ s in 𝓝 x, Jet1 F s)
    (hv : ∀ᶠ s in 𝓝 x, (F s).p = V s) : Is1 V x (F x) := by
  have hx := h.self_of_nhds
  have hd : ∀ᶠ s in 𝓝 x, deriv V s = (F s).px := by
    have := hv.eventually_nhds
    filter_upwards [h, this] with s hs hvs
    exact (hs.d1.congr_of_eventuallyEq (hvs.mono fun u hu => hu.symm)).deriv
  exact ⟨hv.self_of_nhds, hx.d1.congr_of_eventuallyEq (hv.mono fun u hu => hu.symm),
    hx.d2.congr_of_eventuallyEq hd⟩

/-- From a family of partial derivatives on an open set to partial derivatives of the value. -/
theorem Jet2.is {F : ℝ → ℝ → J6} {V : ℝ → ℝ → ℝ} {U : Set (ℝ × ℝ)} (hU : IsOpen U)
    (h : ∀ x y, (x, y) ∈ U → Jet2 F x y) (hv : ∀ x y, (x, y) ∈ U → (F x y).p = V x y)
    {x y : ℝ} (hxy : (x, y) ∈ U) : Is2 V x y (F x y) := by
  have hsx : ∀ a b, (a, b) ∈ U → ∀ᶠ s in 𝓝 a, (s, b) ∈ U := fun a b hab =>
    (Continuous.prodMk_left b).continuousAt.eventually (hU.mem_nhds hab)
  have hsy : ∀ a b, (a, b) ∈ U → ∀ᶠ s in 𝓝 b, (a, s) ∈ U := fun a b hab =>
    (Continuous.prodMk_right a).continuousAt.eventually (hU.mem_nhds hab)
  have fx : ∀ a b, (a, b) ∈ U → HasDerivAt (fun s => V s b) (F a b).px a := fun a b hab =>
    (h a b hab).dx.congr_of_eventuallyEq ((hsx a b hab).mono fun s hs => (hv s b hs).symm)
  have fy : ∀ a b, (a, b) ∈ U → HasDerivAt (fun s => V a s) (F a b).py b := fun a b hab =>
    (h a b hab).dy.congr_of_eventuallyEq ((hsy a b hab).mono fun s hs => (hv a s hs).symm)
  have hj := h x y hxy
  refine ⟨hv x y hxy, fx x y hxy, fy x y hxy, ?_, ?_, ?_, ?_⟩
  · exact hj.dxx.congr_of_eventuallyEq ((hsx x y hxy).mono fun s hs => (fx s y hs).deriv)
  · exact hj.dxy.congr_of_eventuallyEq ((hsy x y hxy).mono fun s hs => (fx x s hs).deriv)
  · exact hj.dyx.congr_of_eventuallyEq ((hsx x y hxy).mono fun s hs => (fy s y hs).deriv)
  · exact hj.dyy.congr_of_eventuallyEq ((hsy x y hxy).mono fun s hs => (fy x s hs).deriv)

theorem hcomp (f g : ℝ → ℝ) {f' g' x : ℝ} (hf : HasDerivAt f f' (g x)) (hg : HasDerivAt g g' x) :
    HasDerivAt (fun s => f (g s)) (f' * g') x := HasDerivAt.comp x hf hg

/-! ## One variable -/

theorem Jet1.congr {F G : ℝ → P3} {x : ℝ} (h : Jet1 F x) (e : ∀ᶠ s in 𝓝 x, G s = F s) :
    Jet1 G x := by
  have ex := e.self_of_nhds
  refine ⟨?_, ?_⟩
  · rw [ex]; exact h.d1.congr_of_eventuallyEq (e.mono fun s hs => by simp only [hs])
  · rw [ex]; exact h.d2.congr_of_eventuallyEq (e.mono fun s hs => by simp only [hs])

theorem Jet1.const (c x : ℝ) : Jet1 (fun _ => ⟨c, 0, 0⟩) x :=
  ⟨hasDerivAt_const x c, hasDerivAt_const x 0⟩

theorem Jet1.add {F G : ℝ → P3} {x : ℝ} (hF : Jet1 F x) (hG : Jet1 G x) :
    Jet1 (fun s => ⟨(F s).p + (G s).p, (F s).px + (G s).px, (F s).pxx + (G s).pxx⟩) x :=
  ⟨hF.d1.add hG.d1, hF.d2.add hG.d2⟩

theorem Jet1.mul {F G : ℝ → P3} {x : ℝ} (hF : Jet1 F x) (hG : Jet1 G x) :
    Jet1 (fun s => ⟨(F s).p * (G s).p, (F s).px * (G s).p + (F s).p * (G s).px,
      (F s).pxx * (G s).p + 2 * (F s).px * (G s).px + (F s).p * (G s).pxx⟩) x := by
  refine ⟨hF.d1.mul hG.d1, ?_⟩
  have := (hF.d2.mul hG.d1).add (hF.d1.mul hG.d2)
  refine this.congr_deriv ?_
  ring

theorem Jet1.comp {F X : ℝ → P3} {x : ℝ} (hF : Jet1 F (X x).p) (hX : Jet1 X x) :
    Jet1 (fun s => ⟨(F (X s).p).p, (F (X s).p).px * (X s).px,
      (F (X s).p).pxx * (X s).px * (X s).px + (F (X s).p).px * (X s).pxx⟩) x := by
  have h1 : HasDerivAt (fun s => (F (X s).p).p) ((F (X x).p).px * (X x).px) x :=
    hcomp (fun u => (F u).p) (fun s => (X s).p) hF.d1 hX.d1
  have h2 : HasDerivAt (fun s => (F (X s).p).px) ((F (X x).p).pxx * (X x).px) x :=
    hcomp (fun u => (F u).px) (fun s => (X s).p) hF.d2 hX.d1
  exact ⟨h1, h2.mul hX.d2⟩

/-- A real power with its derivatives. -/
theorem Jet1.rpow (a : ℝ) {x : ℝ} (hx : x ≠ 0) :
    Jet1 (fun s => ⟨s ^ a, a * s ^ a / s, a * s ^ a / s * (a - 1) / s⟩) x := by
  have hp : ∀ s : ℝ, s ≠ 0 → HasDerivAt (fun u : ℝ => u ^ a) (a * s ^ a / s) s := by
    intro s hs
    refine (Real.hasDerivAt_rpow_const (Or.inl hs)).congr_deriv ?_
    rw [Real.rpow_sub_one hs]; ring
  refine ⟨hp x hx, ?_⟩
  have := ((hp x hx).const_mul a).div (hasDerivAt_id x) hx
  refine this.congr_deriv ?_
  simp only [id]
  field_simp

/-- The exponential of a function. -/
theorem Jet1.exp {F : ℝ → P3} {x : ℝ} (hF : Jet1 F x) :
    Jet1 (fun s => ⟨Real.exp (F s).p, Real.exp (F s).p * (F s).px,
      Real.exp (F s).p * ((F s).px * (F s).px + (F s).pxx)⟩) x := by
  have h1 : HasDerivAt (fun s => Real.exp (F s).p) (Real.exp (F x).p * (F x).px) x := hF.d1.exp
  refine ⟨h1, ?_⟩
  refine (h1.mul hF.d2).congr_deriv ?_
  ring

/-- The logarithm of a function. -/
theorem Jet1.log {F : ℝ → P3} {x : ℝ} (hF : Jet1 F x) (h0 : (F x).p ≠ 0) :
    Jet1 (fun s => ⟨Real.log (F s).p, (F s).px / (F s).p,
      ((F s).pxx * (F s).p - (F s).px * (F s).px) / (F s).p ^ 2⟩) x :=
  ⟨hF.d1.log h0, hF.d2.div hF.d1 h0⟩

theorem Jet1.id (x : ℝ) : Jet1 (fun s => ⟨s, 1, 0⟩) x :=
  ⟨hasDerivAt_id x, hasDerivAt_const x 1⟩

/-! ## Two variables -/

theorem Jet2.congr {F G : ℝ → ℝ → J6} {x y : ℝ} (h : Jet2 F x y)
    (ex : ∀ᶠ s in 𝓝 x, G s y = F s y) (ey : ∀ᶠ s in 𝓝 y, G x s = F x s) : Jet2 G x y := by
  have e := ex.self_of_nhds
  refine ⟨?_, ?_, ?_, ?_, ?_, ?_⟩ <;> rw [e]
  · exact h.dx.congr_of_eventuallyEq (ex.mono fun s hs => by simp only [hs])
  · exact h.dy.congr_of_eventuallyEq (ey.mono fun s hs => by simp only [hs])
  · exact h.dxx.congr_of_eventuallyEq (ex.mono fun s hs => by simp only [hs])
  · exact h.dxy.congr_of_eventuallyEq (ey.mono fun s hs => by simp only [hs])
  · exact h.dyx.congr_of_eventuallyEq (ex.mono fun s hs => by simp only [hs])
  · exact h.dyy.congr_of_eventuallyEq (ey.mono fun s hs => by simp only [hs])

theorem Jet2.congr' {F G : ℝ → ℝ → J6} {x y : ℝ} (h : Jet2 F x y) (e : ∀ s t, G s t = F s t) :
    Jet2 G x y :=
  h.congr (Eventually.of_forall fun s => e s y) (Eventually.of_forall fun s => e x s)

/-- The sum. -/
def J6.add (a b : J6) : J6 :=
  ⟨a.p + b.p, a.px + b.px, a.py + b.py, a.pxx + b.pxx, a.pxy + b.pxy, a.pyy + b.pyy⟩

/-- The product rule. -/
def J6.mul (a b : J6) : J6 :=
  ⟨a.p * b.p, a.px * b.p + a.p * b.px, a.py * b.p + a.p * b.py,
    a.pxx * b.p + 2 * a.px * b.px + a.p * b.pxx,
    a.pxy * b.p + a.px * b.py + a.py * b.px + a.p * b.pxy,
    a.pyy * b.p + 2 * a.py * b.py + a.p * b.pyy⟩

/-- A function of the first variable. -/
def P3.liftX (a : P3) : J6 := ⟨a.p, a.px, 0, a.pxx, 0, 0⟩

/-- A function of the second variable. -/
def P3.liftY (a : P3) : J6 := ⟨a.p, 0, a.px, 0, 0, a.pxx⟩

theorem Jet2.const (c x y : ℝ) : Jet2 (fun _ _ => ⟨c, 0, 0, 0, 0, 0⟩) x y :=
  ⟨hasDerivAt_const x c, hasDerivAt_const y c, hasDerivAt_const x 0, hasDerivAt_const y 0,
    hasDerivAt_const x 0, hasDerivAt_const y 0⟩

theorem Jet2.add {F G : ℝ → ℝ → J6} {x y : ℝ} (hF : Jet2 F x y) (hG : Jet2 G x y) :
    Jet2 (fun s t => (F s t).add (G s t)) x y :=
  ⟨hF.dx.add hG.dx, hF.dy.add hG.dy, hF.dxx.add hG.dxx, hF.dxy.add hG.dxy, hF.dyx.add hG.dyx,
    hF.dyy.add hG.dyy⟩

theorem Jet2.mul {F G : ℝ → ℝ → J6} {x y : ℝ} (hF : Jet2 F x y) (hG : Jet2 G x y) :
    Jet2 (fun s t => (F s t).mul (G s t)) x y := by
  refine ⟨hF.dx.mul hG.dx, hF.dy.mul hG.dy, ?_, ?_, ?_, ?_⟩
  · refine ((hF.dxx.mul hG.dx).add (hF.dx.mul hG.dxx)).congr_deriv ?_
    simp only [J6.mul]; ring
  · refine ((hF.dxy.mul hG.dy).add (hF.dy.mul hG.dxy)).congr_deriv ?_
    simp only [J6.mul]; ring
  · refine ((hF.dyx.mul hG.dx).add (hF.dx.mul hG.dyx)).congr_deriv ?_
    simp only [J6.mul]; ring
  · refine ((hF.dyy.mul hG.dy).add (hF.dy.mul hG.dyy)).congr_deriv ?_
    simp only [J6.mul]; ring

theorem Jet2.liftX {F : ℝ → P3} {x : ℝ} (h : Jet1 F x) (y : ℝ) :
    Jet2 (fun s _ => (F s).liftX) x y :=
  ⟨h.d1, hasDerivAt_const y _, h.d2, hasDerivAt_const y _, hasDerivAt_const x _,
    hasDerivAt_const y _⟩

theorem Jet2.liftY {F : ℝ → P3} {y : ℝ} (h : Jet1 F y) (x : ℝ) :
    Jet2 (fun _ s => (F s).liftY) x y :=
  ⟨hasDerivAt_const x _, h.d1, hasDerivAt_const x _, hasDerivAt_const y _, hasDerivAt_const x _,
    h.d2⟩

/-- A function of one variable applied to a function of two. -/
def P3.of (f : P3) (a : J6) : J6 :=
  ⟨f.p, f.px * a.px, f.px * a.py, f.pxx * a.px * a.px + f.px * a.pxx,
    f.pxx * a.px * a.py + f.px * a.pxy, f.pxx * a.py * a.py + f.px * a.pyy⟩

theorem Jet2.outer {f : ℝ → P3} {F : ℝ → ℝ → J6} {x y : ℝ} (hf : Jet1 f (F x y).p)
    (hF : Jet2 F x y) : Jet2 (fun s t => (f (F s t).p).of (F s t)) x y := by
  have h1x : HasDerivAt (fun s => (f (F s y).p).p) ((f (F x y).p).px * (F x y).px) x :=
    hcomp (fun u => (f u).p) (fun s => (F s y).p) hf.d1 hF.dx
  have h1y : HasDerivAt (fun s => (f (F x s).p).p) ((f (F x y).p).px * (F x y).py) y :=
    hcomp (fun u => (f u).p) (fun s => (F x s).p) hf.d1 hF.dy
  have h2x : HasDerivAt (fun s => (f (F s y).p).px) ((f (F x y).p).pxx * (F x y).px) x :=
    hcomp (fun u => (f u).px) (fun s => (F s y).p) hf.d2 hF.dx
  have h2y : HasDerivAt (fun s => (f (F x s).p).px) ((f (F x y).p).pxx * (F x y).py) y :=
    hcomp (fun u => (f u).px) (fun s => (F x s).p) hf.d2 hF.dy
  refine ⟨h1x, h1y, h2x.mul hF.dxx, (h2y.mul hF.dxy).congr_deriv ?_,
    (h2x.mul hF.dyx).congr_deriv ?_, h2y.mul hF.dyy⟩
  · simp only [P3.of]; ring
  · simp only [P3.of]

/-- Functions of each variable put into a function of two. -/
theorem Jet2.comp {F : ℝ → ℝ → J6} {X Y : ℝ → P3} {x y : ℝ} (hF : Jet2 F (X x).p (Y y).p)
    (hX : Jet1 X x) (hY : Jet1 Y y) :
    Jet2 (fun s t => ⟨(F (X s).p (Y t).p).p, (F (X s).p (Y t).p).px * (X s).px,
      (F (X s).p (Y t).p).py * (Y t).px,
      (F (X s).p (Y t).p).pxx * (X s).px * (X s).px + (F (X s).p (Y t).p).px * (X s).pxx,
      (F (X s).p (Y t).p).pxy * (X s).px * (Y t).px,
      (F (X s).p (Y t).p).pyy * (Y t).px * (Y t).px + (F (X s).p (Y t).p).py * (Y t).pxx⟩) x y := by
  have e1 : HasDerivAt (fun s => (F (X s).p (Y y).p).p) ((F (X x).p (Y y).p).px * (X x).px) x :=
    hcomp (fun u => (F u (Y y).p).p) (fun s => (X s).p) hF.dx hX.d1
  have e2 : HasDerivAt (fun s => (F (X x).p (Y s).p).p) ((F (X x).p (Y y).p).py * (Y y).px) y :=
    hcomp (fun u => (F (X x).p u).p) (fun s => (Y s).p) hF.dy hY.d1
  have e3 : HasDerivAt (fun s => (F (X s).p (Y y).p).px) ((F (X x).p (Y y).p).pxx * (X x).px) x :=
    hcomp (fun u => (F u (Y y).p).px) (fun s => (X s).p) hF.dxx hX.d1
  have e4 : HasDerivAt (fun s => (F (X x).p (Y s).p).px) ((F (X x).p (Y y).p).pxy * (Y y).px) y :=
    hcomp (fun u => (F (X x).p u).px) (fun s => (Y s).p) hF.dxy hY.d1
  have e5 : HasDerivAt (fun s => (F (X s).p (Y y).p).py) ((F (X x).p (Y y).p).pxy * (X x).px) x :=
    hcomp (fun u => (F u (Y y).p).py) (fun s => (X s).p) hF.dyx hX.d1
  have e6 : HasDerivAt (fun s => (F (X x).p (Y s).p).py) ((F (X x).p (Y y).p).pyy * (Y y).px) y :=
    hcomp (fun u => (F (X x).p u).py) (fun s => (Y s).p) hF.dyy hY.d1
  refine ⟨e1, e2, (e3.mul hX.d2), (e4.mul_const _).congr_deriv (by ring), (e5.mul_const _),
    e6.mul hY.d2⟩

end PyroMat.Mp
