import Verif.Float.Poly2
import Verif.Mp.Thermo

/-!
# Residual Helmholtz energy and pressure with rounded operations

`_ar` with its first derivatives (`diff=1`) and `_p` with `diff=0` of `/repo/src/pyromat/registry/mp1.py` once more (see
`Verif.Mp.Helm` and `Verif.Mp.Thermo`), with one operation of the arithmetic for each operation of the code.  `pw` is
`x**y`, `ex` is `np.exp`.  Temperature, density and exponents are the numbers held by the program; coefficients, scales and
the parameters inside the Gaussian exponentials are read from decimal literals.  Non-analytic terms (the entry
`coef2`, which water and carbon dioxide have) are not modelled here.  Multiplication by the integer `k` and negation are
exact on the integer.
-/

namespace PyroMat.Float

open PyroMat PyroMat.Mp

/-- Rounded exponentials. -/
def Exps (ε : ℝ) (ex : ℝ → ℝ) : Prop := ∀ x, Within ε (Real.exp x) (ex x)

/-- `A += p; At += pt; Ad += pd`. -/
noncomputable def accQ (A : Arith) (s q : Q3) : Q3 := ⟨A.add s.v q.v, A.add s.vT q.vT, A.add s.vd q.vd⟩

/-- One polynomial multiplied by `exp(-dd^k)` (`mp1.py:1603-1632`); `ddk` is the running product. -/
noncomputable def expQ (A : Arith) (ex : ℝ → ℝ) (k : Nat) (dd ddk : ℝ) (p : J6) : Q3 :=
  let e := ex (-ddk)
  let ed := A.div (A.mul (-(k : ℝ)) ddk) dd
  ⟨A.mul p.p e, A.mul p.px e, A.mul e (A.add (A.mul p.p ed) p.py)⟩

/-- The loop over the polynomials with exponential (`mp1.py:1598-1632`). -/
noncomputable def expsQ (A : Arith) (pw : ℝ → ℝ → ℝ) (ex : ℝ → ℝ) (tt dd : ℝ) :
    List (List Group2) → Nat → ℝ → Q3 → Except Err Q3
  | [], _, _, s => .ok s
  | term :: rest, k, ddk, s =>
    match poly2 A pw tt dd term 1 with
    | .error e => .error e
    | .ok p => expsQ A pw ex tt dd rest (k + 1) (A.mul ddk dd) (accQ A s (expQ A ex (k + 1) dd (A.mul ddk dd) p))

/-- A Gaussian term (`mp1.py:1638-1662`). -/
noncomputable def gaussQ (A : Arith) (pw : ℝ → ℝ → ℝ) (ex : ℝ → ℝ) (tt dd : ℝ) (r : Row1) : Q3 :=
  let ddm1 := A.sub dd (A.lit r.ep)
  let ttm1 := A.sub tt (A.lit r.gam)
  let e := ex (A.sub (A.mul (-A.lit r.a) (A.pow ddm1 2)) (A.mul (A.lit r.b) (A.pow ttm1 2)))
  let p := A.mul (A.mul (A.lit r.c) (pw dd r.d)) (pw tt r.t)
  let pt := A.div (A.mul r.t p) tt
  let pd := A.div (A.mul r.d p) dd
  let et := A.mul (A.mul (A.mul (-2) (A.lit r.b)) ttm1) e
  let ed := A.mul (A.mul (A.mul (-2) (A.lit r.a)) ddm1) e
  ⟨A.mul e p, A.add (A.mul e pt) (A.mul et p), A.add (A.mul e pd) (A.mul ed p)⟩

/-- `_ar(tt, dd, 1)` (`mp1.py:1573-1663`). -/
noncomputable def residual (A : Arith) (pw : ℝ → ℝ → ℝ) (ex : ℝ → ℝ) (coef0 : List (List Group2)) (coef1 : List Row1)
    (tt dd : ℝ) : Except Err Q3 :=
  match coef0 with
  | [] => .error .index
  | first :: rest =>
    match poly2 A pw tt dd first 1 with
    | .error e => .error e
    | .ok p =>
      match expsQ A pw ex tt dd rest 0 1 ⟨p.p, p.px, p.py⟩ with
      | .error e => .error e
      | .ok s => .ok (coef1.foldl (fun acc r => accQ A acc (gaussQ A pw ex tt dd r)) s)

/-- `_p(T, d)` (`mp1.py:2066-2090`). -/
noncomputable def pressure (A : Arith) (pw : ℝ → ℝ → ℝ) (ex : ℝ → ℝ) (R Tscale dscale : ℝ) (coef0 : List (List Group2))
    (coef1 : List Row1) (T d : ℝ) : Except Err ℝ :=
  let tt := A.div (A.lit Tscale) T
  let dd := A.div d (A.lit dscale)
  match residual A pw ex coef0 coef1 tt dd with
  | .error e => .error e
  | .ok a => .ok (A.mul (A.mul (A.mul T d) (A.lit R)) (A.add 1 (A.mul dd a.vd)))

end PyroMat.Float
