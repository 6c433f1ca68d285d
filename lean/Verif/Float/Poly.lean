import Verif.Float.Arith
import Verif.Mp.Poly

/-!
# Polynomial evaluation of the multi-phase class with rounded operations

`_poly1` of `/repo/src/pyromat/registry/mp1.py` once more (see `Verif.Mp.Poly`), with one operation of the
arithmetic for each operation of the code.  `pw` is the operation `x**y` with a real exponent.  The argument and
the exponents are the numbers held by the program; a coefficient is read from a decimal literal of a data file.
-/

namespace PyroMat.Float

open PyroMat PyroMat.Mp

/-- Rounded real powers of positive numbers. -/
def Powers (ε : ℝ) (pw : ℝ → ℝ → ℝ) : Prop := ∀ x y, 0 < x → Within ε (x ^ y) (pw x y)

/-- A Horner step with the coefficient `c` (`mp1.py:927-938`). -/
noncomputable def fold1 (A : Arith) (diff : Nat) (x c : ℝ) (s : P3) : P3 where
  p := A.add c (A.mul x s.p)
  px := if diff > 0 then A.add s.p (A.mul x s.px) else s.px
  pxx := if diff > 1 then A.add (A.mul 2 s.px) (A.mul x s.pxx) else s.pxx

/-- The step for an exponent that does not occur (`mp1.py:939-946`). -/
noncomputable def skip1 (A : Arith) (diff : Nat) (x : ℝ) (s : P3) : P3 where
  p := A.mul x s.p
  px := if diff > 0 then A.add s.p (A.mul x s.px) else s.px
  pxx := if diff > 1 then A.add (A.mul 2 s.px) (A.mul x s.pxx) else s.pxx

/-- The loop over exponents (`mp1.py:926-946`). -/
noncomputable def loop1 (A : Arith) (diff : Nat) (x : ℝ) : Nat → List (Nat × ℝ) → P3 → P3
  | 0, _, s => s
  | n + 1, (i, c) :: r, s =>
    if i = n then loop1 A diff x n r (fold1 A diff x (A.lit c) s)
    else loop1 A diff x n ((i, c) :: r) (skip1 A diff x s)
  | n + 1, [], s => loop1 A diff x n [] (skip1 A diff x s)

/-- The pre-exponential and its derivatives (`mp1.py:899-914`). -/
noncomputable def preExp (A : Arith) (pw : ℝ → ℝ → ℝ) (diff : Nat) (x pre : ℝ) : P3 :=
  if pre ≠ 1 then
    let x0 := pw x pre
    let x1 := if diff > 0 then A.div (A.mul x0 pre) x else 0
    let x2 := if diff > 1 then A.div (A.mul x1 (A.sub pre 1)) x else 0
    ⟨x0, x1, x2⟩
  else ⟨x, 1, 0⟩

/-- The correction for the pre-exponential (`mp1.py:948-953`). -/
noncomputable def preFix1 (A : Arith) (diff : Nat) (pre : ℝ) (x : P3) (s : P3) : P3 :=
  if pre ≠ 1 then
    ⟨s.p, if diff > 0 then A.mul s.px x.px else s.px,
      if diff > 1 then A.add (A.mul (A.mul s.pxx x.px) x.px) (A.mul s.px x.pxx) else s.pxx⟩
  else s

/-- The post-exponential (`mp1.py:955-964`). -/
noncomputable def postFix1 (A : Arith) (pw : ℝ → ℝ → ℝ) (diff : Nat) (x post : ℝ) (s : P3) : P3 :=
  if post ≠ 0 then
    let f := pw x post
    let fx := A.div (A.mul post f) x
    let fxx := A.div (A.mul fx (A.sub post 1)) x
    ⟨A.mul s.p f, if diff > 0 then A.add (A.mul s.px f) (A.mul s.p fx) else s.px,
      if diff > 1 then
        A.add (A.add (A.mul s.pxx f) (A.mul (A.mul 2 s.px) fx)) (A.mul s.p fxx) else s.pxx⟩
  else s

/-- One group (`mp1.py:889-964`). -/
noncomputable def group1 (A : Arith) (pw : ℝ → ℝ → ℝ) (diff : Nat) (x : ℝ) (g : Group1) : Except Err P3 :=
  match g.terms with
  | [] => .error .index
  | (i, c) :: r =>
    let x0 := preExp A pw diff x g.pre
    .ok (postFix1 A pw diff x g.post
      (preFix1 A diff g.pre x0 (loop1 A diff x0.p (i + 1) ((i, c) :: r) ⟨0, 0, 0⟩)))

/-- Accumulation over groups (`mp1.py:885-889`, `969-975`). -/
noncomputable def groups1 (A : Arith) (pw : ℝ → ℝ → ℝ) (diff : Nat) (x : ℝ) : List Group1 → P3 → Except Err P3
  | [], s => .ok s
  | g :: gs, s => do
    let q ← group1 A pw diff x g
    groups1 A pw diff x gs ⟨A.add s.p q.p, if diff > 0 then A.add s.px q.px else s.px,
      if diff > 1 then A.add s.pxx q.pxx else s.pxx⟩

/-- `_poly1` (`mp1.py:818-975`). -/
noncomputable def poly1 (A : Arith) (pw : ℝ → ℝ → ℝ) (x : ℝ) (gs : List Group1) (diff : Nat) : Except Err P3 :=
  match gs with
  | [g] => group1 A pw diff x g
  | _ => groups1 A pw diff x gs ⟨0, 0, 0⟩

end PyroMat.Float
