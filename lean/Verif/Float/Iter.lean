import Verif.Float.Gas
import Verif.Shipped.Sound

/-!
# Model of the search for a temperature with rounded arithmetic

`_iter1` of the ideal-gas classes (`/repo/src/pyromat/registry/ig.py:319-413`, `ig2.py:631-722`), which finds the
temperature of an enthalpy or of an internal energy, as `Verif/Gas/Model.lean` has it, each arithmetic operation of
the code being one operation of an `Arith`.
Simplification: one element.  The elements of an array do not influence each other (`C35`), and which of them are
still searched for is decided by comparisons, not by arithmetic.
-/

namespace PyroMat.Float

open PyroMat PyroMat.Units PyroMat.Gas PyroMat.Shipped

/-- The loop that pulls an out-of-bounds guess back (`ig.py:392-402`): `dx /= 2`, then `x -= dx`. -/
noncomputable def halveF (A : Arith) (xmin xmax : ℝ) : Nat → ℝ → ℝ → Except Err ℝ
  | k, x, dx =>
    open Classical in
    if x < xmin ∨ x > xmax then
      match k with
      | 0 => .error .analysis
      | k + 1 => halveF A xmin xmax k (A.sub x (A.div dx 2)) (A.div dx 2)
    else .ok x

open Classical in
/-- One pass of the outer loop (`ig.py:369-405`): `error = y - yy`, `dx = error / yyx`, `x += dx`, and another pass
while `abs(error) > abs(ep*y)`. -/
noncomputable def stepF (A : Arith) (ep xmin xmax : ℝ) (Nmax : Nat) (e : El) : Except Err El :=
  if e.act then
    match e.x with
    | none => .ok { e with act := false }
    | some x =>
      match e.f x with
      | none => .ok { e with x := none, act := false }
      | some (yy, yyx) =>
        let error := A.sub e.y yy
        let act := decide (|error| > |A.mul ep e.y|)
        if yyx = 0 then .ok { e with x := none, act := act }
        else do
          let dx := A.div error yyx
          let x' ← halveF A xmin xmax Nmax (A.add x dx) dx
          .ok { e with x := some x', act := act }
  else .ok e

/-- The outer loop (`ig.py:369-412`); `n` is the number of passes still allowed after this one.  The flag tells
whether the "failed to converge" warning was printed. -/
noncomputable def loopF (A : Arith) (ep xmin xmax : ℝ) (Nmax : Nat) : Nat → El → Except Err (El × Bool)
  | n, e =>
    if e.act then do
      let e' ← stepF A ep xmin xmax Nmax e
      match n with
      | 0 => .ok (e', true)
      | n + 1 => loopF A ep xmin xmax Nmax n e'
    else .ok (e, false)

/-- `_iter1` with one element: the temperature and the flag. -/
noncomputable def searchF (A : Arith) (f : ℝ → Option (ℝ × ℝ)) (y x0 xmin xmax ep : ℝ) (Nmax : Nat) :
    Except Err (Nan × Bool) := do
  let r ← loopF A ep xmin xmax Nmax Nmax ⟨f, y, some x0, true⟩
  .ok (r.1.x, r.2)

/-- The derivative that `_h` of `ig2` returns (`ig2.py:769-782`): `temp = c/term + out; dh = temp + T*dh;
out = T*temp` for the coefficients from the fifth to the first, then `dh *= Ru`. -/
noncomputable def Nasa.hT (C : Coef) (T : ℝ) : Sm :=
  .mul ([4, 3, 2, 1, 0].foldl (fun (st : Sm × Sm) k =>
    let temp := Sm.add (.quo (cf (C.at k)) (.num (k + 1 : ℕ))) st.1
    (.mul (nm T) temp, .add temp (.mul (nm T) st.2))) (nm 0, nm 0)).2 (.ex RuE)

/-- The derivative that `_h` returns: that of `ig` is written as in `_cp` (`ig.py:466-467`). -/
noncomputable def slope (c : Cls) : Coef → ℝ → Sm :=
  match c with
  | .ig => Sho.cp
  | .ig2 => Nasa.hT

/-- The two quantities a temperature is searched from. -/
inductive From
  | h | e

/-- `_h(T, diff=True)` (`ig.py:444-470`, `ig2.py:750-783`) and `_e(T, diff=True)` (`ig.py:472-485`, `ig2.py:814-828`):
value and derivative at a temperature in K. -/
noncomputable def routineF (A : Arith) (c : Cls) (D : Data) (F : Forms) (q : From) (T : ℝ) : Option (ℝ × ℝ) :=
  piecewise (D.Tlim.map A.lit) D.C (fun C T =>
    let h := (F.h C T).eval A
    let hT := (slope c C T).eval A
    match q with
    | .h => (h, hT)
    | .e => (A.sub h (A.mul (RuE.eval A) T), A.sub hT (RuE.eval A))) T

/-- The temperature in K that a call given an enthalpy or an internal energy works with (`ig.py:193-212`,
`ig2.py:178-197`); `y` is in kJ/kmol.  The search starts half way between the limits of the data file. -/
noncomputable def temperatureF (A : Arith) (c : Cls) (D : Data) (F : Forms) (q : From) (y : ℝ) : Except Err (Nan × Bool) :=
  let Tlow := A.lit (D.Tlim.headD 0)
  let Thigh := A.lit (D.Tlim.getLastD 0)
  searchF A (routineF A c D F q) y (A.mul 0.5 (A.add Tlow Thigh)) Tlow Thigh (A.lit 1e-6) 20

end PyroMat.Float
