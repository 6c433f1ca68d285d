import Verif.Float.Poly

/-!
# Polynomials in two variables with rounded operations

`_poly2` of `/repo/src/pyromat/registry/mp1.py` once more (see `Verif.Mp.Poly`), with one operation of the arithmetic
for each operation of the code.
-/

namespace PyroMat.Float

open PyroMat PyroMat.Mp

/-- The inner loop over y-exponents `jj = n-1, ..., 0` for x-exponent `ii` (`mp1.py:728-741`). -/
noncomputable def innerY (A : Arith) (diff : Nat) (y : ℝ) (ii : Nat) : Nat → List Term2 → P3 → P3 × List Term2
  | 0, r, s => (s, r)
  | n + 1, (i, j, c) :: r, s =>
    if i = ii ∧ j = n then innerY A diff y ii n r (fold1 A diff y (A.lit c) s)
    else innerY A diff y ii n ((i, j, c) :: r) (skip1 A diff y s)
  | n + 1, [], s => innerY A diff y ii n [] (skip1 A diff y s)

/-- The step of the outer loop for an x-exponent that occurs (`mp1.py:743-753`). -/
noncomputable def fold2 (A : Arith) (diff : Nat) (x : ℝ) (q : P3) (s : J6) : J6 where
  p := A.add q.p (A.mul x s.p)
  px := if diff > 0 then A.add s.p (A.mul x s.px) else s.px
  py := if diff > 0 then A.add q.px (A.mul x s.py) else s.py
  pxx := if diff > 1 then A.add (A.mul 2 s.px) (A.mul x s.pxx) else s.pxx
  pxy := if diff > 1 then A.add s.py (A.mul x s.pxy) else s.pxy
  pyy := if diff > 1 then A.add q.pxx (A.mul x s.pyy) else s.pyy

/-- The step for one that does not (`mp1.py:754-764`). -/
noncomputable def skip2 (A : Arith) (diff : Nat) (x : ℝ) (s : J6) : J6 where
  p := A.mul x s.p
  px := if diff > 0 then A.add s.p (A.mul x s.px) else s.px
  py := if diff > 0 then A.mul x s.py else s.py
  pxx := if diff > 1 then A.add (A.mul 2 s.px) (A.mul x s.pxx) else s.pxx
  pxy := if diff > 1 then A.add s.py (A.mul x s.pxy) else s.pxy
  pyy := if diff > 1 then A.mul x s.pyy else s.pyy

/-- The outer loop over x-exponents `ii = n-1, ..., 0` (`mp1.py:714-764`). -/
noncomputable def outer (A : Arith) (diff : Nat) (x y : ℝ) : Nat → List Term2 → J6 → J6
  | 0, _, s => s
  | n + 1, (i, j, c) :: r, s =>
    if i = n then
      let q := innerY A diff y n (j + 1) ((i, j, c) :: r) ⟨0, 0, 0⟩
      outer A diff x y n q.2 (fold2 A diff x q.1 s)
    else outer A diff x y n ((i, j, c) :: r) (skip2 A diff x s)
  | n + 1, [], s => outer A diff x y n [] (skip2 A diff x s)

/-- The correction for the pre-exponentials (`mp1.py:766-774`). -/
noncomputable def preFix2 (A : Arith) (diff : Nat) (prex : ℝ) (x y : P3) (s : J6) : J6 :=
  if prex ≠ 1 then
    ⟨s.p, if diff > 0 then A.mul s.px x.px else s.px, if diff > 0 then A.mul s.py y.px else s.py,
      if diff > 1 then A.add (A.mul (A.mul s.pxx x.px) x.px) (A.mul s.px x.pxx) else s.pxx,
      if diff > 1 then A.mul (A.mul s.pxy x.px) y.px else s.pxy,
      if diff > 1 then A.add (A.mul (A.mul s.pyy y.px) y.px) (A.mul s.py y.pxx) else s.pyy⟩
  else s

/-- The x post-exponential (`mp1.py:776-788`). -/
noncomputable def postX (A : Arith) (pw : ℝ → ℝ → ℝ) (diff : Nat) (x post : ℝ) (s : J6) : J6 :=
  if post ≠ 0 then
    let f := pw x post
    let fx := A.div (A.mul post f) x
    let fxx := A.div (A.mul fx (A.sub post 1)) x
    ⟨A.mul s.p f, if diff > 0 then A.add (A.mul s.px f) (A.mul s.p fx) else s.px,
      if diff > 0 then A.mul s.py f else s.py,
      if diff > 1 then
        A.add (A.add (A.mul s.pxx f) (A.mul (A.mul 2 s.px) fx)) (A.mul s.p fxx) else s.pxx,
      if diff > 1 then A.add (A.mul s.pxy f) (A.mul s.py fx) else s.pxy,
      if diff > 1 then A.mul s.pyy f else s.pyy⟩
  else s

/-- The y post-exponential (`mp1.py:789-800`). -/
noncomputable def postY (A : Arith) (pw : ℝ → ℝ → ℝ) (diff : Nat) (y post : ℝ) (s : J6) : J6 :=
  if post ≠ 0 then
    let f := pw y post
    let fy := A.div (A.mul post f) y
    let fyy := A.div (A.mul fy (A.sub post 1)) y
    ⟨A.mul s.p f, if diff > 0 then A.mul s.px f else s.px,
      if diff > 0 then A.add (A.mul s.py f) (A.mul s.p fy) else s.py,
      if diff > 1 then A.mul s.pxx f else s.pxx,
      if diff > 1 then A.add (A.mul s.pxy f) (A.mul s.px fy) else s.pxy,
      if diff > 1 then
        A.add (A.add (A.mul s.pyy f) (A.mul (A.mul 2 s.py) fy)) (A.mul s.p fyy) else s.pyy⟩
  else s

/-- One group (`mp1.py:659-800`). -/
noncomputable def group2 (A : Arith) (pw : ℝ → ℝ → ℝ) (diff : Nat) (x y : ℝ) (g : Group2) : Except Err J6 :=
  match g.terms with
  | [] => .error .index
  | (i, j, c) :: r =>
    let x0 := preExp A pw diff x g.prex
    let y0 := preExp A pw diff y g.prey
    .ok (postY A pw diff y g.posty (postX A pw diff x g.postx
      (preFix2 A diff g.prex x0 y0
        (outer A diff x0.p y0.p (i + 1) ((i, j, c) :: r) ⟨0, 0, 0, 0, 0, 0⟩))))

/-- `g += p; if diff>0: gx += px; ...` -/
noncomputable def acc6 (A : Arith) (diff : Nat) (s q : J6) : J6 :=
  ⟨A.add s.p q.p, if diff > 0 then A.add s.px q.px else s.px,
    if diff > 0 then A.add s.py q.py else s.py,
    if diff > 1 then A.add s.pxx q.pxx else s.pxx,
    if diff > 1 then A.add s.pxy q.pxy else s.pxy,
    if diff > 1 then A.add s.pyy q.pyy else s.pyy⟩

/-- Accumulation over groups (`mp1.py:652-657`, `806-815`). -/
noncomputable def groups2 (A : Arith) (pw : ℝ → ℝ → ℝ) (diff : Nat) (x y : ℝ) : List Group2 → J6 → Except Err J6
  | [], s => .ok s
  | g :: gs, s => do
    let q ← group2 A pw diff x y g
    groups2 A pw diff x y gs (acc6 A diff s q)

/-- `_poly2` (`mp1.py:576-815`). -/
noncomputable def poly2 (A : Arith) (pw : ℝ → ℝ → ℝ) (x y : ℝ) (gs : List Group2) (diff : Nat) : Except Err J6 :=
  match gs with
  | [g] => group2 A pw diff x y g
  | _ => groups2 A pw diff x y gs ⟨0, 0, 0, 0, 0, 0⟩

end PyroMat.Float
