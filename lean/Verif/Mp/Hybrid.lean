import Mathlib.Data.Real.Basic
import Verif.Basic

/-!
# The bracketed solver

Model of `_hybrid1` of `/repo/src/pyromat/registry/mp1.py:1083-1329` with `paranoid=True`, which every
caller uses.  An array is a list of elements, each with its own function and derivative (the other
arguments of the property held fixed).  The derivative is an arbitrary function.  Numbers are exact;
a Newton candidate may be infinite or NaN, because its slope may be 0.  The sign of an infinity is
that of the numerator (the sign of a floating zero is not modelled); both lie outside every bracket.
-/

namespace PyroMat.Mp

open PyroMat

/-- A floating number (the candidates `xa`, `xb` of `mp1.py:1155-1156`). -/
inductive Cand where
  | fin (r : ℝ)
  | pinf
  | ninf
  | nan

/-- `a < b` for floating numbers, as in `mp1.py:1258-1260`; false when either is NaN.  Two infinities
of the same sign are not less than each other. -/
def Cand.lt : Cand → Cand → Prop
  | .fin a, .fin b => a < b
  | .fin _, .pinf => True
  | .ninf, .fin _ => True
  | .ninf, .pinf => True
  | _, _ => False

/-- One element: the function, the derivative reported with it, and the target (`fn`, `fx_index` and
`y` of `mp1.py:1083-1145`). -/
structure Prob where
  f : ℝ → ℝ
  df : ℝ → ℝ
  y : ℝ

open Classical in
/-- `x + (y - yy)/yyx`, Newton's next guess (`mp1.py:1193`, `1205`, `1298`). -/
noncomputable def newton (P : Prob) (x : ℝ) : Cand :=
  if P.df x = 0 then
    if P.f x < P.y then .pinf else if P.y < P.f x then .ninf else .nan
  else .fin (x + (P.y - P.f x) / P.df x)

/-- `|num/den| > ep` for floating numbers (`ep` finite): a zero denominator gives infinity, or NaN for
a zero numerator (`mp1.py:1322-1323`). -/
def relGt (num den ep : ℝ) : Prop :=
  if den = 0 then num ≠ 0 else |num / den| > ep

/-- What the loop keeps for one element: the down-select bit `Ids`, `Iswap`, the limits, the two
Newton candidates and the midpoint, and the result array; `none` is NaN
(`mp1.py:1155-1172`). -/
structure HSt where
  active : Bool
  swap : Bool
  xmin : ℝ
  xmax : ℝ
  xa : Cand
  xb : Cand
  xc : ℝ
  x : Option ℝ

/-- `Cand` to the result array (infinities are always replaced before they are used,
`mp1.py:1275-1278`). -/
def Cand.toOption : Cand → Option ℝ
  | .fin r => some r
  | _ => none

/-- Outside the limits (`mp1.py:1275-1278`). -/
def oob (s : HSt) (c : Cand) : Prop := c.lt (.fin s.xmin) ∨ (Cand.fin s.xmax).lt c

open Classical in
/-- The choice of the middle candidate (`mp1.py:1258-1270`); later assignments replace earlier
ones. -/
noncomputable def middle (s : HSt) : Cand :=
  let iab := decide (s.xa.lt s.xb)
  let ibc := decide (s.xb.lt (.fin s.xc))
  let ica := decide ((Cand.fin s.xc).lt s.xa)
  if ibc = ica then .fin s.xc
  else if iab = ibc then s.xb
  else s.xa

open Classical in
/-- The next guess (`mp1.py:1258-1278`). -/
noncomputable def guess (s : HSt) : Cand :=
  if oob s s.xb then .fin s.xc
  else if oob s s.xa then .fin s.xc
  else middle s

/-- Which limit the guess replaces (`mp1.py:1305`): `xor (yy <= y) Iswap`. -/
def low (P : Prob) (swap : Bool) (x : ℝ) : Prop := if swap then P.y < P.f x else P.f x ≤ P.y

open Classical in
/-- The update after evaluating at `x` (`mp1.py:1292-1323`). -/
noncomputable def update (P : Prob) (ep : ℝ) (s : HSt) (x : ℝ) : HSt :=
  let xmin := if low P s.swap x then x else s.xmin
  let xmax := if low P s.swap x then s.xmax else x
  { active := decide (relGt (xmax - xmin) x ep ∧ relGt (P.f x - P.y) P.y ep)
    swap := s.swap
    xmin := xmin
    xmax := xmax
    xa := if low P s.swap x then newton P x else s.xa
    xb := if low P s.swap x then s.xb else newton P x
    xc := 1 / 2 * (xmax + xmin)
    x := some x }

/-- One pass of the loop for one element.  At NaN every later comparison is false and the element is
dropped from the iteration (`mp1.py:1241-1323`). -/
noncomputable def hstep (P : Prob) (ep : ℝ) (s : HSt) : HSt :=
  if s.active then
    match guess s with
    | .fin x => update P ep s x
    | _ => { s with active := false, x := none }
  else s

/-- The loop (`mp1.py:1240-1326`): it ends when no element is active, or after `Nmax+1` passes with
a warning.  Returns whether it warned. -/
noncomputable def hloop (ep : ℝ) : Nat → List (Prob × HSt) → List (Prob × HSt) × Bool
  | 0, l => (l, l.any (·.2.active))
  | n + 1, l =>
    if l.any (·.2.active) then hloop ep n (l.map (fun e => (e.1, hstep e.1 ep e.2))) else (l, false)

open Classical in
/-- The start for one element (`mp1.py:1186-1205`, `1235`). -/
noncomputable def hstart (P : Prob) (xmin xmax : ℝ) (x : Option ℝ) : HSt :=
  ⟨true, decide (P.y ≤ P.f xmin), xmin, xmax, newton P xmin, newton P xmax, 1 / 2 * (xmin + xmax), x⟩

/-- The limits do not bracket a solution (`mp1.py:1210`): `not (xor Iswap (yy >= y))`. -/
def unbracketed (P : Prob) (xmin xmax : ℝ) : Prop := P.y ≤ P.f xmin ↔ P.y ≤ P.f xmax

/-- An element as passed to the solver: problem, limits, the down-select bit and the entry already in
the result array (`mp1.py:1121-1135`). -/
structure HIn where
  P : Prob
  xmin : ℝ
  xmax : ℝ
  ids : Bool
  x : Option ℝ

open Classical in
/-- The entry of the state list for one element: elements not selected are left alone, elements that
are not bracketed get the out-of-bounds value (NaN here) and are dropped
(`mp1.py:1218-1222`). -/
noncomputable def hinit (e : HIn) : Prob × HSt :=
  if e.ids then
    if unbracketed e.P e.xmin e.xmax then
      (e.P, { hstart e.P e.xmin e.xmax none with active := false })
    else (e.P, hstart e.P e.xmin e.xmax e.x)
  else (e.P, { hstart e.P e.xmin e.xmax e.x with active := false })

open Classical in
/-- `_hybrid1`: the result array and whether a warning for lack of convergence was printed; a
parameter error if no selected element is bracketed (`mp1.py:1211-1217`). -/
noncomputable def hybrid1 (ep : ℝ) (Nmax : Nat) (l : List HIn) : Except Err (List (Option ℝ) × Bool) :=
  if l.any (·.ids) ∧ ∀ e ∈ l, e.ids → unbracketed e.P e.xmin e.xmax then .error .param
  else
    let r := hloop ep (Nmax + 1) (l.map hinit)
    .ok (r.1.map (·.2.x), r.2)

/-! ### The points at which a pass evaluates the function -/

/-- The point at which the next pass evaluates the function, if it does (`mp1.py:1290-1292`). -/
noncomputable def evalPoint (s : HSt) : Option ℝ :=
  if s.active then (guess s).toOption else none

end PyroMat.Mp
