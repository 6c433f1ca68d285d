import Verif.Float.Poly
import Verif.Float.Residual

/-!
# Ideal part and energies with rounded operations

`_ao` with its first derivatives (`diff=1`) and `_e`, `_h`, `_s`, `_f`, `_g` with `diff=0` of
`/repo/src/pyromat/registry/mp1.py` once more (see `Verif.Mp.Helm` and `Verif.Mp.Thermo`), with one operation of the
arithmetic for each operation of the code, as in `Verif.Float.Residual`.
-/

namespace PyroMat.Float

open PyroMat PyroMat.Mp

/-- The terms in the logarithms (`mp1.py:1506-1545`). -/
noncomputable def idealLog (A : Arith) (g : AOgroup) (tt dd : ℝ) : Q3 :=
  let s0 : Q3 := ⟨A.log dd, 0, A.div 1 dd⟩
  let s1 : Q3 :=
    match g.logt with
    | none => s0
    | some c => ⟨A.add s0.v (A.mul (A.lit c) (A.log tt)), A.add s0.vT (A.div (A.lit c) tt), s0.vd⟩
  match g.tlogt with
  | none => s1
  | some c => ⟨A.add s1.v (A.mul (A.mul (A.lit c) tt) (A.log tt)),
      A.add s1.vT (A.mul (A.lit c) (A.add (A.log tt) 1)), s1.vd⟩

/-- The polynomial part (`mp1.py:1548-1555`). -/
noncomputable def idealPoly (A : Arith) (pw : ℝ → ℝ → ℝ) (g : AOgroup) (tt : ℝ) (s : Q3) : Except Err Q3 :=
  match g.coef0 with
  | none => .ok s
  | some gs =>
    match poly1 A pw tt gs 1 with
    | .error e => .error e
    | .ok p => .ok ⟨A.add s.v p.p, A.add s.vT p.px, s.vd⟩

/-- One step of the log/exp expansion (`mp1.py:1559-1565`). -/
noncomputable def idealStep (A : Arith) (ex : ℝ → ℝ) (tt : ℝ) (s : Q3) (r : ℝ × ℝ) : Q3 :=
  let e := ex (A.mul (-A.lit r.1) tt)
  let p := A.log (A.sub 1 e)
  let pt := A.div (A.mul (A.lit r.1) e) (A.sub 1 e)
  ⟨A.add s.v (A.mul (A.lit r.2) p), A.add s.vT (A.mul (A.lit r.2) pt), s.vd⟩

/-- `_ao(tt, dd, 1)` (`mp1.py:1484-1570`). -/
noncomputable def ideal (A : Arith) (pw : ℝ → ℝ → ℝ) (ex : ℝ → ℝ) (g : AOgroup) (tt dd : ℝ) : Except Err Q3 :=
  match idealPoly A pw g tt (idealLog A g tt dd) with
  | .error e => .error e
  | .ok s => .ok (g.coef1.foldl (idealStep A ex tt) s)

/-- The numbers all inner routines start from. -/
structure Start where
  tto : ℝ
  o : Q3
  tt : ℝ
  dd : ℝ
  r : Q3

/-- The opening lines of the inner routines: both parts at the state (`mp1.py:2999-3018`, `3036-3056`, `3072-3091`,
`3108-3127`, `3147-3166`). -/
noncomputable def start (A : Arith) (pw : ℝ → ℝ → ℝ) (ex : ℝ → ℝ) (To dso Tr dsr : ℝ) (g : AOgroup)
    (coef0 : List (List Group2)) (coef1 : List Row1) (T d : ℝ) : Except Err Start :=
  let tto := A.div (A.lit To) T
  match ideal A pw ex g tto (A.div d (A.lit dso)) with
  | .error e => .error e
  | .ok o =>
    let tt := A.div (A.lit Tr) T
    let dd := A.div d (A.lit dsr)
    match residual A pw ex coef0 coef1 tt dd with
    | .error e => .error e
    | .ok r => .ok ⟨tto, o, tt, dd, r⟩

/-- `_e` (`mp1.py:2993-3027`). -/
noncomputable def energy (A : Arith) (R Tr : ℝ) (s : Start) : ℝ :=
  A.mul (A.add s.o.vT s.r.vT) (A.mul (A.lit R) (A.lit Tr))

/-- `_h` (`mp1.py:3030-3064`). -/
noncomputable def enthalpy (A : Arith) (R T : ℝ) (s : Start) : ℝ :=
  A.mul (A.add (A.add 1 (A.mul s.tto s.o.vT)) (A.add (A.mul s.dd s.r.vd) (A.mul s.tt s.r.vT))) (A.mul (A.lit R) T)

/-- `_s` (`mp1.py:3066-3100`). -/
noncomputable def entropy (A : Arith) (R : ℝ) (s : Start) : ℝ :=
  A.mul (A.add (A.sub (A.mul s.tto s.o.vT) s.o.v) (A.sub (A.mul s.tt s.r.vT) s.r.v)) (A.lit R)

/-- `_f` (`mp1.py:3102-3137`). -/
noncomputable def freeEnergy (A : Arith) (R T : ℝ) (s : Start) : ℝ :=
  A.mul (A.add s.o.v s.r.v) (A.mul (A.lit R) T)

/-- `_g` (`mp1.py:3141-3176`). -/
noncomputable def gibbs (A : Arith) (R T : ℝ) (s : Start) : ℝ :=
  A.mul (A.add (A.add s.o.v 1) (A.add s.r.v (A.mul s.dd s.r.vd))) (A.mul (A.lit R) T)

end PyroMat.Float
