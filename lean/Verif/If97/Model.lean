import Mathlib.Analysis.SpecialFunctions.Pow.Real
import Verif.Mp.Poly
import Verif.Gas.Model

/-!
# The IF-97 steam class

Model of `/repo/src/pyromat/registry/if97.py`: the polynomial evaluation, the region test, the
saturation line, the properties as functions of temperature, pressure and quality, the limits and the
saturation methods.  Numbers are reals.  A power of zero with a negative exponent, a division by zero
and the logarithm of zero are 0 in Lean, an exception, infinity or NaN in Python.  Arrays are
one-dimensional.
-/

namespace PyroMat.If97

open PyroMat PyroMat.Mp PyroMat.Units PyroMat.Gas

/-- A term of a coefficient list: x-exponent, y-exponent, coefficient (`if97.py:56-63`). -/
abbrev Term := ℤ × ℤ × ℝ

/-- `LARGE` (`if97.py:68`). -/
def large : ℤ := 100

/-- One step of the Horner loop in y (`if97.py:107-121`): `c` is 0 for a missing term. -/
noncomputable def foldY (order : Nat) (y c : ℝ) (s : P3) : P3 where
  p := s.p * y + c
  px := if order > 0 then s.px * y + s.p else s.px
  pxx := if order > 1 then s.pxx * y + 2 * s.px else s.pxx

/-- The loop over the y-exponents of one x-exponent `m` (`if97.py:103-128`); the list holds the terms
still to come, last one first.  Returns the exponent reached, one below the last one used. -/
noncomputable def inner (order : Nat) (y : ℝ) (m : ℤ) (n : ℤ) (l : List Term) (s : P3) :
    Except Err (ℤ × List Term × P3) :=
  match l with
  | [] => .ok (n, [], s)
  | t :: r =>
    if t.1 = m then
      if n - 1 < -large then .error .exception
      else if n = t.2.1 then inner order y m (n - 1) r (foldY order y t.2.2 s)
      else inner order y m (n - 1) (t :: r) (foldY order y 0 s)
    else .ok (n, t :: r, s)
termination_by (n + large + 1).toNat
decreasing_by all_goals (simp only [large] at *; omega)

/-- `y**n` with its derivatives (`if97.py:134-145`, `182-193`). -/
noncomputable def powJet (n : ℤ) (y : ℝ) : P3 :=
  if n = 1 then ⟨y, 1, 0⟩
  else ⟨y ^ (n - 2) * y * y, y ^ (n - 2) * y * n, y ^ (n - 2) * ((n - 1) * n)⟩

/-- Multiplication by `y**n` (`if97.py:131-150`). -/
noncomputable def shiftY (order : Nat) (n : ℤ) (y : ℝ) (s : P3) : P3 :=
  if n = 0 then s
  else
    let z := powJet n y
    { p := s.p * z.p
      px := if order > 0 then s.p * z.px + s.px * z.p else s.px
      pxx := if order > 1 then s.pxx * z.p + 2 * s.px * z.px + s.p * z.pxx else s.pxx }

/-- One step of the Horner loop in x (`if97.py:151-172`): `q` is 0 for a missing exponent. -/
noncomputable def foldX (order : Nat) (x : ℝ) (q : P3) (s : J6) : J6 where
  pyy := if order > 1 then s.pyy * x + q.pxx else s.pyy
  pxy := if order > 1 then s.pxy * x + s.py else s.pxy
  pxx := if order > 1 then s.pxx * x + 2 * s.px else s.pxx
  py := if order > 0 then s.py * x + q.px else s.py
  px := if order > 0 then s.px * x + s.p else s.px
  p := s.p * x + q.p

/-- The sub-polynomial of the x-exponent `m`, if the next term has it (`if97.py:90-150`). -/
noncomputable def subPoly (order : Nat) (y : ℝ) (m : ℤ) : List Term → Except Err (P3 × List Term)
  | [] => .ok (⟨0, 0, 0⟩, [])
  | t :: r =>
    if t.1 = m then
      if t.2.1 > large then .error .exception
      else do
        let w ← inner order y m t.2.1 (t :: r) ⟨0, 0, 0⟩
        .ok (shiftY order (w.1 + 1) y w.2.2, w.2.1)
    else .ok (⟨0, 0, 0⟩, t :: r)

/-- The loop over the x-exponents (`if97.py:87-177`).  Returns the exponent reached, one below the last
one used. -/
noncomputable def outer (order : Nat) (x y : ℝ) (m : ℤ) (l : List Term) (s : J6) :
    Except Err (ℤ × J6) :=
  match l with
  | [] => .ok (m, s)
  | t :: r =>
    match subPoly order y m (t :: r) with
    | .error e => .error e
    | .ok w =>
      if m - 1 < -large then .error .exception
      else outer order x y (m - 1) w.2 (foldX order x w.1 s)
termination_by (m + large + 1).toNat
decreasing_by (simp only [large] at *; omega)

/-- Multiplication by `x**m` (`if97.py:180-200`). -/
noncomputable def shiftX (order : Nat) (m : ℤ) (x : ℝ) (s : J6) : J6 :=
  if m = 0 then s
  else
    let z := powJet m x
    { pxx := if order > 1 then s.pxx * z.p + 2 * s.px * z.px + s.p * z.pxx else s.pxx
      pxy := if order > 1 then s.pxy * z.p + s.py * z.px else s.pxy
      pyy := if order > 1 then s.pyy * z.p else s.pyy
      px := if order > 0 then s.px * z.p + s.p * z.px else s.px
      py := if order > 0 then s.py * z.p else s.py
      p := s.p * z.p }

/-- `_peval` (`if97.py:47-200`).  `A[-1]` of an empty list raises. -/
noncomputable def peval (x y : ℝ) (A : List Term) (order : Nat) : Except Err J6 :=
  match A.reverse with
  | [] => .error .index
  | t :: r =>
    if t.1 > large then .error .exception
    else do
      let w ← outer order x y t.1 (t :: r) ⟨0, 0, 0, 0, 0, 0⟩
      .ok (shiftX order (w.1 + 1) x w.2)

/-! ## The data and the regions -/

/-- The entries of the data file the class reads (`self.data`). -/
structure Water where
  r1 : List Term
  r2o : List Term
  r2r : List Term
  r3 : List Term
  r3ln : ℝ
  r5o : List Term
  r5r : List Term
  r4 : Fin 10 → ℝ
  b23 : Fin 5 → ℝ
  R : ℝ
  mw : ℝ
  Tc : ℝ
  pc : ℝ
  dc : ℝ
  Tt : ℝ
  pt : ℝ

/-- Dimensionless pressure and temperature with a function of them and its derivatives: what `_g1`,
`_g2`, `_g5` return. -/
structure Dimless where
  pi : ℝ
  t : ℝ
  j : J6

/-- `_g1` (`if97.py:204-218`). -/
noncomputable def g1 (W : Water) (T p : ℝ) (order : Nat) : Except Err Dimless := do
  let j ← peval (7.1 - p / 165.3) (1386 / T - 1.222) W.r1 order
  .ok ⟨p / 165.3, 1386 / T, ⟨j.p, -j.px, j.py, j.pxx, -j.pxy, j.pyy⟩⟩

/-- The sum of the ideal and residual parts and the logarithm (`if97.py:259-270`, `573-584`). -/
noncomputable def addLog (order : Nat) (pi : ℝ) (o r : J6) : J6 where
  p := o.p + (r.p + Real.log pi)
  px := if order > 0 then o.px + (r.px + 1 / pi) else o.px
  py := if order > 0 then o.py + r.py else o.py
  pxx := if order > 1 then o.pxx + (r.pxx + -(1 / pi) / pi) else o.pxx
  pxy := if order > 1 then o.pxy + r.pxy else o.pxy
  pyy := if order > 1 then o.pyy + r.pyy else o.pyy

/-- `_g2` (`if97.py:246-270`). -/
noncomputable def g2 (W : Water) (T p : ℝ) (order : Nat) : Except Err Dimless := do
  let o ← peval (p / 10) (540 / T) W.r2o order
  let r ← peval (p / 10) (540 / T - 0.5) W.r2r order
  .ok ⟨p / 10, 540 / T, addLog order (p / 10) o r⟩

/-- `_g5` (`if97.py:576-600`). -/
noncomputable def g5 (W : Water) (T p : ℝ) (order : Nat) : Except Err Dimless := do
  let o ← peval (p / 10) (1000 / T) W.r5o order
  let r ← peval (p / 10) (1000 / T) W.r5r order
  .ok ⟨p / 10, 1000 / T, addLog order (p / 10) o r⟩

/-- `_pfromd` inside `_f3` (`if97.py:382-397`): the dimensionless pressure and the free energy with
its derivatives at the dimensionless density `n`. -/
noncomputable def pfromd (W : Water) (t n : ℝ) : Except Err (ℝ × J6) := do
  let j ← peval n t W.r3 2
  let v : J6 := ⟨j.p + W.r3ln * Real.log n, j.px + W.r3ln / n, j.py, j.pxx - W.r3ln / n / n, j.pxy, j.pyy⟩
  .ok (n * n * v.px, v)

/-- The bisection loop of `_f3` (`if97.py:403-409`): `k` passes left, the bracket, the density and
values of the latest pass. -/
noncomputable def bisect (W : Water) (t pp : ℝ) : Nat → ℝ → ℝ → ℝ × J6 → Except Err (ℝ × J6)
  | 0, _, _, last => .ok last
  | k + 1, na, nb, _ => do
    let nc := 0.5 * (na + nb)
    let r ← pfromd W t nc
    if r.1 > pp then bisect W t pp k na nc (nc, r.2) else bisect W t pp k nc nb (nc, r.2)

/-- `_f3` on scalars (`if97.py:346-411`). -/
noncomputable def f3 (W : Water) (T p : ℝ) : Except Err Dimless := do
  let r ← bisect W (W.Tc / T) (p * 1e2 / (W.dc * W.R * T)) 14 0.10 2.4 (0, ⟨0, 0, 0, 0, 0, 0⟩)
  .ok ⟨r.1, W.Tc / T, r.2⟩

/-- `_b23(T=T)` (`if97.py:677-679`). -/
noncomputable def b23 (W : Water) (T : ℝ) : ℝ := (W.b23 2 * T + W.b23 1) * T + W.b23 0

/-- The square root, NaN below zero. -/
noncomputable def sqrtN (x : ℝ) : Nan := if x < 0 then none else some (Real.sqrt x)

/-- `_ps` (`if97.py:754-772`). -/
noncomputable def ps (W : Water) (T : ℝ) : Nan :=
  let t := T + W.r4 8 / (T - W.r4 9)
  let a := (t + W.r4 0) * t + W.r4 1
  let b := (W.r4 2 * t + W.r4 3) * t + W.r4 4
  let c := (W.r4 5 * t + W.r4 6) * t + W.r4 7
  (sqrtN (b * b - 4 * a * c)).map (fun r => (2 * c / (-b + r)) ^ 4 * 10)

/-- `_Ts` (`if97.py:775-794`); pressures below zero give NaN. -/
noncomputable def Ts (W : Water) (p : ℝ) : Nan :=
  if p < 0 then none
  else
    let pp := (p / 10) ^ (0.25 : ℝ)
    let a := (pp + W.r4 2) * pp + W.r4 5
    let b := (W.r4 0 * pp + W.r4 3) * pp + W.r4 6
    let c := (W.r4 1 * pp + W.r4 4) * pp + W.r4 7
    (sqrtN (b * b - 4 * a * c)).bind (fun r =>
      let t := 2 * c / (-b - r)
      let tt := W.r4 9 + t
      (sqrtN (tt * tt - 4 * (W.r4 8 + W.r4 9 * t))).map (fun r => 0.5 * (tt - r)))

/-- `p < x` where `x` may be NaN. -/
noncomputable def ltN (p : ℝ) (x : Nan) : Bool :=
  match x with
  | some y => decide (p < y)
  | none => false

/-- `_region` (`if97.py:705-751`); `none` is the index -1. -/
noncomputable def region (W : Water) (T p : ℝ) : Option Nat :=
  if p < 0 ∨ p > 1000 then none
  else if T > 2273.15 then none
  else if T > 1073.15 then (if p > 500 then none else some 5)
  else if T > 863.15 then some 2
  else if T > 623.15 then (if p < b23 W T then some 2 else some 3)
  else if ltN p (ps W T) then some 2 else some 1

/-! ## Properties as functions of temperature, pressure and quality -/

/-- The properties with a method of their own. -/
inductive Q where
  | h | s | d | e | cp | cv
  deriving DecidableEq

/-- Number of derivatives requested (`if97.py:1399`, `1491`, `1582`, `1677`, `1767`, `1862`). -/
def Q.order : Q → Nat
  | .cp | .cv => 2
  | _ => 1

/-- The formulas in regions 1, 2 and 5 (`if97.py:1298-1326`, `1397-1419`, `1489-1509`, `1580-1600`,
`1676-1696`, `1765-1785`, `1860-1882`). -/
noncomputable def Q.gibbs (q : Q) (R T p : ℝ) (g : Dimless) : ℝ :=
  match q with
  | .h => R * T * g.t * g.j.py
  | .s => R * (g.t * g.j.py - g.j.p)
  | .d => p * 100 / (R * T * g.pi * g.j.px)
  | .e => T * R * (g.t * g.j.py - g.pi * g.j.px)
  | .cp => -R * g.t * g.t * g.j.pyy
  | .cv =>
    let temp := g.j.px - g.t * g.j.pxy
    let temp := temp * temp / g.j.pxx
    R * (temp - g.t * g.t * g.j.pyy)

/-- The formulas in region 3 (same lines). -/
noncomputable def Q.helm (q : Q) (R dc T : ℝ) (f : Dimless) : ℝ :=
  let n := f.pi
  match q with
  | .h => R * T * (n * f.j.px + f.t * f.j.py)
  | .s => R * (f.t * f.j.py - f.j.p)
  | .d => dc * n
  | .e => T * R * f.t * f.j.py
  | .cp =>
    let temp := n * f.j.px - n * f.t * f.j.pxy
    let temp := temp * temp / (2 * n * f.j.px + n * n * f.j.pxx)
    R * (-f.t * f.t * f.j.pyy + temp)
  | .cv => -R * f.t * f.t * f.j.pyy

/-- The quantity mixed by quality: the specific volume for the density
(`if97.py:1520-1525`), the property itself otherwise. -/
noncomputable def Q.sat (q : Q) (R T p : ℝ) (g : Dimless) : ℝ :=
  match q with
  | .d => (R * T * g.pi * g.j.px) / (p * 100)
  | q => q.gibbs R T p g

/-- The value at quality `x` from the two mixed quantities (`if97.py:1339`, `1432`, `1525`, `1616`,
`1709`, `1800`, `1899`). -/
noncomputable def Q.mix (q : Q) (L V x : ℝ) : ℝ :=
  match q with
  | .d => 1 / (L + (V - L) * x)
  | _ => L + (V - L) * x

/-- One element without quality: the formula of its region (`if97.py:1389-1421`). -/
noncomputable def single (W : Water) (q : Q) (T p : ℝ) : Except Err ℝ :=
  match region W T p with
  | some 1 => (g1 W T p q.order).map (q.gibbs W.R T p)
  | some 2 => (g2 W T p q.order).map (q.gibbs W.R T p)
  | some 3 => (f3 W T p).map (q.helm W.R W.dc T)
  | some 5 => (g5 W T p q.order).map (q.gibbs W.R T p)
  | _ => .error .param

/-- One element with a quality (`if97.py:1423-1433`). -/
noncomputable def mixed (W : Water) (q : Q) (T p x : ℝ) : Except Err ℝ := do
  let L ← g1 W T p q.order
  let V ← g2 W T p q.order
  .ok (q.mix (q.sat W.R T p L) (q.sat W.R T p V) x)

/-- One element (`if97.py:1384-1433`).  The flags tell which of T and p were left out.  A NaN
temperature or pressure gives NaN. -/
noncomputable def element (W : Water) (q : Q) (defT defp : Bool) (T p x : ℝ) : Except Err Nan :=
  if x < 0 then (single W q T p).map some
  else if defT then
    match Ts W p with
    | some T => (mixed W q T p x).map some
    | none => .ok none
  else if defp then
    match ps W T with
    | some p => (mixed W q T p x).map some
    | none => .ok none
  else (mixed W q T p x).map some

section methods
variable (E : Env) (W : Water)

/-- The elements of an argument, or the default. -/
def orDefault (d : ℝ) : Option (Val ℝ) → List ℝ
  | some v => Val.elems v
  | none => [d]

/-- The arrays an `nditer` runs over (`if97.py:1379-1382`); zero-sized operands are an error. -/
def nditer3 (T p x : List ℝ) : Except Err (List (ℝ × ℝ × ℝ)) := do
  let (T1, p1) ← broadcast T p
  let (tp, x1) ← broadcast (T1.zip p1) x
  if tp = [] then .error .value else .ok (tp.zipWith (fun a x => (a.1, a.2, x)) x1)

/-- `energy(from_units='kJ')`, `matter(…, from_units='kg', exponent=-1)` (`if97.py:1438-1439`). -/
noncomputable def energyScale : Except Err ℝ := do
  let c ← scalarOf ((energy : Conv ℝ).call E.c.str (.scalar 1) (some "kJ") none none false)
  scalarOf (matter E.a E.c.str (.scalar c) W.mw (some "kg") none (some (-1)) false)

/-- The factor applied to the results (`if97.py:1438-1439` h, `1529-1530` d, `1621-1623` s,
`1713-1714` e, `1804-1806` cp, `1903-1905` cv).  For the entropy the temperature factor has no
exponent. -/
noncomputable def Q.scale (q : Q) : Except Err ℝ :=
  match q with
  | .h | .e => energyScale E W
  | .s => do
    let c ← energyScale E W
    scalarOf ((temperature : Conv ℝ).call E.c.str (.scalar c) (some "K") none none false)
  | .d => do
    let c ← scalarOf ((volume : Conv ℝ).call E.c.str (.scalar 1) (some "m3") none (some (-1)) false)
    scalarOf (matter E.a E.c.str (.scalar c) W.mw (some "kg") none none false)
  | .cp | .cv => do
    let c ← energyScale E W
    scalarOf ((temperature : Conv ℝ).call E.c.str (.scalar c) (some "K") none (some (-1)) false)

/-- A temperature of the caller in K. -/
noncomputable def toK (T : ℝ) : Except Err ℝ :=
  scalarOf (temperatureScale E.c.str (.scalar T) none (some "K") false)

/-- `h(T,p,x)` and its siblings (`if97.py:1346-1908`).  The defaults are the stored numbers
`pyro.config['def_T']` and `pyro.config['def_p']`. -/
noncomputable def method (q : Q) (T p x : Option (Val ℝ)) : Except Err (List Nan) := do
  let pscale ← scalarOf ((Units.pressure E.a).call E.c.str (.scalar 1) none (some "bar") none false)
  let it ← nditer3 (orDefault E.c.defT T) (orDefault E.c.defp p) (orDefault (-1) x)
  let r ← it.mapM (fun a => do
    let TT ← toK E a.1
    element W q T.isNone p.isNone TT (a.2.1 * pscale) a.2.2)
  let c ← q.scale E W
  .ok (scaleBy c r)

/-- One element of `hsd` (`if97.py:1304-1356`).  Where the other methods test whether the pressure was
left out, this one tests whether it is negative.  The code evaluates the region functions once for the
three results, this model once for each. -/
noncomputable def hsdElement (defT : Bool) (T p x : ℝ) : Except Err (Nan × Nan × Nan) := do
  let h ← element W .h defT (decide (p < 0)) T p x
  let s ← element W .s defT (decide (p < 0)) T p x
  let d ← element W .d defT (decide (p < 0)) T p x
  .ok (h, s, d)

/-- `hsd(T,p,x)` (`if97.py:1262-1369`). -/
noncomputable def mHsd (T p x : Option (Val ℝ)) : Except Err (List Nan × List Nan × List Nan) := do
  let pscale ← scalarOf ((Units.pressure E.a).call E.c.str (.scalar 1) none (some "bar") none false)
  let it ← nditer3 (orDefault E.c.defT T) (orDefault E.c.defp p) (orDefault (-1) x)
  let r ← it.mapM (fun a => do
    let TT ← toK E a.1
    hsdElement W T.isNone TT (a.2.1 * pscale) a.2.2)
  let ch ← Q.h.scale E W
  let cs ← Q.s.scale E W
  let cd ← Q.d.scale E W
  .ok (scaleBy ch (r.map (·.1)), scaleBy cs (r.map (·.2.1)), scaleBy cd (r.map (·.2.2)))

/-- `ps(T)` (`if97.py:918-940`). -/
noncomputable def mPs (T : Option (Val ℝ)) : Except Err (List Nan) := do
  let TT ← (orDefault E.c.defT T).mapM (toK E)
  if TT.any (fun t => decide (t < W.Tt)) then .error .param
  else if TT.any (fun t => decide (t > W.Tc)) then .error .param
  else
    convNan (fun v => (Units.pressure E.a).call E.c.str v (some "bar") none none false) (TT.map (ps W))

/-- `Ts(p)` (`if97.py:944-968`). -/
noncomputable def mTs (p : Option (Val ℝ)) : Except Err (List Nan) := do
  let pp ← (orDefault E.c.defp p).mapM (fun p =>
    scalarOf ((Units.pressure E.a).call E.c.str (.scalar p) none (some "bar") none false))
  if pp.any (fun p => decide (p < W.pt)) then .error .param
  else if pp.any (fun p => decide (p > W.pc)) then .error .param
  else convNan (fun v => temperatureScale E.c.str v (some "K") none false) (pp.map (Ts W))

/-- `Tlim(p)` (`if97.py:796-840`): the lower limit and the upper limit at each pressure. -/
noncomputable def mTlim (p : Option (Val ℝ)) : Except Err (ℝ × List ℝ) := do
  let pp ← (orDefault E.c.defp p).mapM (fun p =>
    scalarOf ((Units.pressure E.a).call E.c.str (.scalar p) none (some "bar") none false))
  let big ← scalarOf (temperatureScale E.c.str (.scalar 2273.15) (some "K") none false)
  let small ← scalarOf (temperatureScale E.c.str (.scalar 1073.15) (some "K") none false)
  let lo ← scalarOf (temperatureScale E.c.str (.scalar 273.15) (some "K") none false)
  .ok (lo, pp.map (fun p => if p > 500 then small else big))

/-- `plim(T)` (`if97.py:843-887`). -/
noncomputable def mPlim (T : Option (Val ℝ)) : Except Err (ℝ × List ℝ) := do
  let TT ← (orDefault E.c.defT T).mapM (toK E)
  let big ← scalarOf ((Units.pressure E.a).call E.c.str (.scalar 1000) (some "bar") none none false)
  let small ← scalarOf ((Units.pressure E.a).call E.c.str (.scalar 500) (some "bar") none none false)
  let lo ← scalarOf ((Units.pressure E.a).call E.c.str (.scalar W.pt) (some "bar") none none false)
  .ok (lo, TT.map (fun T => if T > 1073.15 then small else big))

end methods

end PyroMat.If97
