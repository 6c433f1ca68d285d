import Mathlib.Analysis.SpecialFunctions.Pow.Real
import Verif.Basic

/-!
# Polynomial evaluation of the multi-phase class

Model of `_poly1` and `_poly2` of `/repo/src/pyromat/registry/mp1.py`.  Numbers are reals; arrays are
evaluated element by element, which is all these two routines do with them.  `diff` is the highest
order of derivative asked for.
-/

namespace PyroMat.Mp

open PyroMat

/-- Value, first and second derivative. -/
structure P3 where
  p : ℝ
  px : ℝ
  pxx : ℝ

/-- Value and the five derivatives up to second order. -/
structure J6 where
  p : ℝ
  px : ℝ
  py : ℝ
  pxx : ℝ
  pxy : ℝ
  pyy : ℝ

/-- One Horner step (`mp1.py:927-946`): fold in the coefficient `c`.  The branch for a missing
exponent (`mp1.py:939-946`) is the same step with `c = 0`. -/
noncomputable def fold1 (diff : Nat) (x c : ℝ) (s : P3) : P3 where
  p := c + x * s.p
  px := if diff > 0 then s.p + x * s.px else s.px
  pxx := if diff > 1 then 2 * s.px + x * s.pxx else s.pxx

/-- The loop over exponents `ii = n-1, ..., 0` (`mp1.py:926-946`).  The terms not yet used are
`coef[index:]`. -/
noncomputable def loop1 (diff : Nat) (x : ℝ) : Nat → List (Nat × ℝ) → P3 → P3
  | 0, _, s => s
  | n + 1, (i, c) :: r, s =>
    if i = n then loop1 diff x n r (fold1 diff x c s)
    else loop1 diff x n ((i, c) :: r) (fold1 diff x 0 s)
  | n + 1, [], s => loop1 diff x n [] (fold1 diff x 0 s)

/-- The pre-exponential of one variable and its derivatives (`mp1.py:899-914`, `672-700`). -/
noncomputable def preExp (diff : Nat) (x pre : ℝ) : P3 :=
  if pre ≠ 1 then
    let x0 := x ^ pre
    let x1 := if diff > 0 then x0 * pre / x else 0
    let x2 := if diff > 1 then x1 * (pre - 1) / x else 0
    ⟨x0, x1, x2⟩
  else ⟨x, 1, 0⟩

/-- A group of terms of a one-variable polynomial: pre-exponent, post-exponent, terms (exponent,
coefficient). -/
structure Group1 where
  pre : ℝ
  post : ℝ
  terms : List (Nat × ℝ)

/-- The correction for the pre-exponential (`mp1.py:948-953`). -/
noncomputable def preFix1 (diff : Nat) (g : Group1) (x : P3) (s : P3) : P3 :=
  if g.pre ≠ 1 then
    ⟨s.p, if diff > 0 then s.px * x.px else s.px,
      if diff > 1 then s.pxx * x.px * x.px + s.px * x.pxx else s.pxx⟩
  else s

/-- The post-exponential (`mp1.py:955-964`). -/
noncomputable def postFix1 (diff : Nat) (x post : ℝ) (s : P3) : P3 :=
  if post ≠ 0 then
    let f := x ^ post
    let fx := post * f / x
    let fxx := fx * (post - 1) / x
    ⟨s.p * f, if diff > 0 then s.px * f + s.p * fx else s.px,
      if diff > 1 then s.pxx * f + 2 * s.px * fx + s.p * fxx else s.pxx⟩
  else s

/-- One group (`mp1.py:889-964`).  A group without terms raises `IndexError` at `coef[2]`. -/
noncomputable def group1 (diff : Nat) (x : ℝ) (g : Group1) : Except Err P3 :=
  match g.terms with
  | [] => .error .index
  | (i, c) :: r =>
    let x0 := preExp diff x g.pre
    .ok (postFix1 diff x g.post
      (preFix1 diff g x0 (loop1 diff x0.p (i + 1) ((i, c) :: r) ⟨0, 0, 0⟩)))

/-- Accumulation over groups (`mp1.py:885-889`, `969-975`). -/
noncomputable def groups1 (diff : Nat) (x : ℝ) : List Group1 → P3 → Except Err P3
  | [], s => .ok s
  | g :: gs, s => do
    let q ← group1 diff x g
    groups1 diff x gs ⟨s.p + q.p, if diff > 0 then s.px + q.px else s.px,
      if diff > 1 then s.pxx + q.pxx else s.pxx⟩

/-- `_poly1` (`mp1.py:818-975`).  A single group returns at once (`mp1.py:966-967`). -/
noncomputable def poly1 (x : ℝ) (gs : List Group1) (diff : Nat) : Except Err P3 :=
  match gs with
  | [g] => group1 diff x g
  | _ => groups1 diff x gs ⟨0, 0, 0⟩

/-! ## Two variables -/

/-- A term: x-exponent, y-exponent, coefficient. -/
abbrev Term2 := Nat × Nat × ℝ

/-- The inner loop over y-exponents `jj = n-1, ..., 0` (`mp1.py:728-741`) for x-exponent `ii`.  The
Horner step is the one of `_poly1`. -/
noncomputable def inner (diff : Nat) (y : ℝ) (ii : Nat) : Nat → List Term2 → P3 → P3 × List Term2
  | 0, r, s => (s, r)
  | n + 1, (i, j, c) :: r, s =>
    if i = ii ∧ j = n then inner diff y ii n r (fold1 diff y c s)
    else inner diff y ii n ((i, j, c) :: r) (fold1 diff y 0 s)
  | n + 1, [], s => inner diff y ii n [] (fold1 diff y 0 s)

/-- One step of the outer loop (`mp1.py:743-764`); a missing x-exponent is the step with `q = 0`. -/
noncomputable def fold2 (diff : Nat) (x : ℝ) (q : P3) (s : J6) : J6 where
  p := q.p + x * s.p
  px := if diff > 0 then s.p + x * s.px else s.px
  py := if diff > 0 then q.px + x * s.py else s.py
  pxx := if diff > 1 then 2 * s.px + x * s.pxx else s.pxx
  pxy := if diff > 1 then s.py + x * s.pxy else s.pxy
  pyy := if diff > 1 then q.pxx + x * s.pyy else s.pyy

/-- The outer loop over x-exponents `ii = n-1, ..., 0` (`mp1.py:714-764`). -/
noncomputable def outer (diff : Nat) (x y : ℝ) : Nat → List Term2 → J6 → J6
  | 0, _, s => s
  | n + 1, (i, j, c) :: r, s =>
    if i = n then
      let q := inner diff y n (j + 1) ((i, j, c) :: r) ⟨0, 0, 0⟩
      outer diff x y n q.2 (fold2 diff x q.1 s)
    else outer diff x y n ((i, j, c) :: r) (fold2 diff x ⟨0, 0, 0⟩ s)
  | n + 1, [], s => outer diff x y n [] (fold2 diff x ⟨0, 0, 0⟩ s)

/-- A group of a two-variable polynomial. -/
structure Group2 where
  prex : ℝ
  prey : ℝ
  postx : ℝ
  posty : ℝ
  terms : List Term2

/-- The correction for the pre-exponentials (`mp1.py:766-774`): it is skipped when the x
pre-exponent is 1. -/
noncomputable def preFix2 (diff : Nat) (g : Group2) (x y : P3) (s : J6) : J6 :=
  if g.prex ≠ 1 then
    ⟨s.p, if diff > 0 then s.px * x.px else s.px, if diff > 0 then s.py * y.px else s.py,
      if diff > 1 then s.pxx * x.px * x.px + s.px * x.pxx else s.pxx,
      if diff > 1 then s.pxy * x.px * y.px else s.pxy,
      if diff > 1 then s.pyy * y.px * y.px + s.py * y.pxx else s.pyy⟩
  else s

/-- The x post-exponential (`mp1.py:776-788`). -/
noncomputable def postX (diff : Nat) (x post : ℝ) (s : J6) : J6 :=
  if post ≠ 0 then
    let f := x ^ post
    let fx := post * f / x
    let fxx := fx * (post - 1) / x
    ⟨s.p * f, if diff > 0 then s.px * f + s.p * fx else s.px,
      if diff > 0 then s.py * f else s.py,
      if diff > 1 then s.pxx * f + 2 * s.px * fx + s.p * fxx else s.pxx,
      if diff > 1 then s.pxy * f + s.py * fx else s.pxy,
      if diff > 1 then s.pyy * f else s.pyy⟩
  else s

/-- The y post-exponential (`mp1.py:789-800`). -/
noncomputable def postY (diff : Nat) (y post : ℝ) (s : J6) : J6 :=
  if post ≠ 0 then
    let f := y ^ post
    let fy := post * f / y
    let fyy := fy * (post - 1) / y
    ⟨s.p * f, if diff > 0 then s.px * f else s.px,
      if diff > 0 then s.py * f + s.p * fy else s.py,
      if diff > 1 then s.pxx * f else s.pxx,
      if diff > 1 then s.pxy * f + s.px * fy else s.pxy,
      if diff > 1 then s.pyy * f + 2 * s.py * fy + s.p * fyy else s.pyy⟩
  else s

/-- One group (`mp1.py:659-800`). -/
noncomputable def group2 (diff : Nat) (x y : ℝ) (g : Group2) : Except Err J6 :=
  match g.terms with
  | [] => .error .index
  | (i, j, c) :: r =>
    let x0 := preExp diff x g.prex
    let y0 := preExp diff y g.prey
    .ok (postY diff y g.posty (postX diff x g.postx
      (preFix2 diff g x0 y0
        (outer diff x0.p y0.p (i + 1) ((i, j, c) :: r) ⟨0, 0, 0, 0, 0, 0⟩))))

/-- Accumulation over groups (`mp1.py:652-657`, `806-815`). -/
noncomputable def groups2 (diff : Nat) (x y : ℝ) : List Group2 → J6 → Except Err J6
  | [], s => .ok s
  | g :: gs, s => do
    let q ← group2 diff x y g
    groups2 diff x y gs ⟨s.p + q.p, if diff > 0 then s.px + q.px else s.px,
      if diff > 0 then s.py + q.py else s.py,
      if diff > 1 then s.pxx + q.pxx else s.pxx,
      if diff > 1 then s.pxy + q.pxy else s.pxy,
      if diff > 1 then s.pyy + q.pyy else s.pyy⟩

/-- `_poly2` (`mp1.py:576-815`).  A single group returns at once (`mp1.py:803-804`). -/
noncomputable def poly2 (x y : ℝ) (gs : List Group2) (diff : Nat) : Except Err J6 :=
  match gs with
  | [g] => group2 diff x y g
  | _ => groups2 diff x y gs ⟨0, 0, 0, 0, 0, 0⟩

end PyroMat.Mp
