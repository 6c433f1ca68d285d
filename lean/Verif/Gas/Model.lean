import Verif.Gas.Inner
import Verif.Config.Defaults

/-!
# Shared code of the ideal-gas classes: `_iter1`, `_argparse`, property methods

`ig.py`, `ig2.py` and `igmix.py` carry the same text (checked by `diff`; only the names under
which limits, molecular weight and reference pressure are stored differ).  Line numbers below are
those of `ig.py` with the other two in brackets where useful.
-/

namespace PyroMat.Gas

open PyroMat PyroMat.Units PyroMat.Config.Defaults

/-! ## `_iter1` -/

/-- One element of the arrays `_iter1` works on: the routine being inverted (with this element's
extra parameters, `ig.py:371-374`), its target `y[i]`, the current `x[i]` and `Ids[i]`. -/
structure El where
  f : ℝ → Option (ℝ × ℝ)
  y : ℝ
  x : Nan
  act : Bool

/-- The inner loop that pulls an out-of-bounds guess back (`ig.py:392-402`); `k` is the number of
halvings still allowed.  A guess still out of bounds after `Nmax` halvings raises after the next
one. -/
noncomputable def halve (xmin xmax : ℝ) : Nat → ℝ → ℝ → Except Err ℝ
  | k, x, dx =>
    open Classical in
    if x < xmin ∨ x > xmax then
      match k with
      | 0 => .error .analysis
      | k + 1 => halve xmin xmax k (x - dx / 2) (dx / 2)
    else .ok x

open Classical in
/-- One pass of the outer loop for one element (`ig.py:369-405`).  A NaN error compares false, so
the element stops; a zero derivative makes `x` NaN through `inf - inf`.
Simplification: the pull-back loop runs over all elements together in Python with one shared
counter; as an element only moves while it is itself out of bounds, that is the same as running
it per element and raising when any element raises. -/
noncomputable def stepEl (ep xmin xmax : ℝ) (Nmax : Nat) (e : El) : Except Err El :=
  if e.act then
    match e.x with
    | none => .ok { e with act := false }
    | some x =>
      match e.f x with
      | none => .ok { e with x := none, act := false }
      | some (yy, yyx) =>
        let error := e.y - yy
        let act := decide (|error| > |ep * e.y|)
        if yyx = 0 then .ok { e with x := none, act := act }
        else do
          let x' ← halve xmin xmax Nmax (x + error / yyx) (error / yyx)
          .ok { e with x := some x', act := act }
  else .ok e

/-- The outer loop (`ig.py:369-412`); `n` is the number of passes still allowed after this one.
The flag tells whether the "failed to converge" warning was printed. -/
noncomputable def iterLoop (ep xmin xmax : ℝ) (Nmax : Nat) :
    Nat → List El → Except Err (List El × Bool)
  | n, es =>
    if es.any (·.act) then do
      let es' ← es.mapM (stepEl ep xmin xmax Nmax)
      match n with
      | 0 => .ok (es', true)
      | n + 1 => iterLoop ep xmin xmax Nmax n es'
    else .ok (es, false)

/-- `_iter1` (`ig.py:319-413`, `ig2.py:631-722`, `igmix.py:398-489`) on elements all selected by
`Ids` (as in every call of the ideal-gas classes), all starting at `x0`.  Returns the final `x`
array and the warning flag. -/
noncomputable def iter1 (fy : List ((ℝ → Option (ℝ × ℝ)) × ℝ)) (x0 xmin xmax : ℝ)
    (ep : ℝ := 1e-6) (Nmax : Nat := 20) : Except Err (List Nan × Bool) := do
  let r ← iterLoop ep xmin xmax Nmax Nmax (fy.map (fun q => ⟨q.1, q.2, some x0, true⟩))
  .ok (r.1.map (·.x), r.2)

/-! ## `_argparse` -/

/-- Keyword arguments: a Python dict, i.e. an association list with distinct keys. -/
abbrev Kw := List (String × Val ℝ)

/-- `name in kwarg`. -/
def Kw.has (kw : Kw) (k : String) : Bool := (kw.lookup k).isSome

/-- What the methods read from their surroundings.  `cell x ws` is what NumPy leaves in a single
memory cell holding `x` after writing the values `ws` to it through an array all of whose elements
share that cell. -/
structure Env where
  a : SetupArgs ℝ
  c : NumCfg ℝ
  cell : ℝ → List ℝ → ℝ

/-- Step 1, positional arguments (`ig.py:105-116`). -/
def bindPos (varg : List (Val ℝ)) (kw : Kw) : Except Err Kw :=
  match varg with
  | [] => .ok kw
  | [T] => if kw.has "T" then .error .param else .ok (("T", T) :: kw)
  | [T, p] =>
    if kw.has "T" then .error .param
    else if kw.has "p" then .error .param
    else .ok (("p", p) :: ("T", T) :: kw)
  | _ :: _ :: _ :: _ => .error .param

/-- The scalar returned by `config.def_T()` / `config.def_p()` (`utility.py:387-406`). -/
def retOf (r : Except Err (Res ℝ)) : Except Err (Val ℝ) := r.map (·.ret)

/-- Step 1, defaults (`ig.py:118-128`). -/
noncomputable def applyDefaults (E : Env) (kw : Kw) : Except Err Kw :=
  match kw with
  | [] => do
    let T ← retOf (defT E.c)
    let p ← retOf (defp E.a E.c)
    .ok [("p", p), ("T", T)]
  | [q] =>
    if q.1 ≠ "T" then do
      let T ← retOf (defT E.c)
      .ok [("T", T), q]
    else do
      let p ← retOf (defp E.a E.c)
      .ok [("p", p), q]
  | _ => .ok kw

/-- `legal_args` (`ig.py:136`). -/
def legal : List String := ["T", "p", "d", "v", "e", "h", "s"]

/-- Step 2, the argument rules (`ig.py:130-167`). -/
def checkRules (kw : Kw) : Except Err Unit :=
  if kw.length > 2 then .error .param
  else if kw.any (fun q => !legal.contains q.1) then .error .param
  else if (["T", "e", "h"].filter (fun k => kw.has k)).length > 1 then .error .param
  else if kw.has "v" && kw.has "d" then .error .param
  else .ok ()

/-- Step 3, `np.asarray` with at least one dimension (`ig.py:169-176`). -/
def Val.elems : Val ℝ → List ℝ
  | .scalar x => [x]
  | .arr xs => xs

/-- An argument after steps 3 and 4: contents, and whether the array is still the one the caller
handed in (`np.asarray` and a conversion between equal units do not copy, `ig.py:178-182`). -/
structure Arg where
  xs : List ℝ
  own : Bool

/-- Run a chain of unit conversions on an argument. -/
def convArg (v : Val ℝ) (fs : List (Val ℝ → Except Err (Res ℝ))) : Except Err Arg :=
  fs.foldlM (fun (a : Arg) f => do
    let r ← f (.arr a.xs)
    .ok ⟨Val.elems r.ret, a.own && r.isAlias⟩) ⟨Val.elems v, v.isArr⟩

/-- The unit conversions of step 4 by argument name (`ig.py:184-226`). -/
noncomputable def conversions (E : Env) (mw : ℝ) (name : String) : List (Val ℝ → Except Err (Res ℝ)) :=
  let cfg := E.c.str
  match name with
  | "T" => [fun v => temperatureScale cfg v none (some "K") false]
  | "p" => [fun v => (pressure E.a).call cfg v none (some "Pa") none false]
  | "d" => [fun v => (volume : Conv ℝ).call cfg v none (some "m3") (some (-1)) false,
            fun v => matter E.a cfg v mw none (some "kmol") none false]
  | "v" => [fun v => (volume : Conv ℝ).call cfg v none (some "m3") none false,
            fun v => matter E.a cfg v mw none (some "kmol") (some (-1)) false]
  | "h" | "e" => [fun v => (energy : Conv ℝ).call cfg v none (some "kJ") none false,
            fun v => matter E.a cfg v mw none (some "kmol") (some (-1)) false]
  | "s" => [fun v => (energy : Conv ℝ).call cfg v none (some "kJ") none false,
            fun v => matter E.a cfg v mw none (some "kmol") (some (-1)) false,
            fun v => (temperature : Conv ℝ).call cfg v none (some "K") (some (-1)) false]
  | _ => []

/-- One keyword in internal units, if present. -/
noncomputable def convKw (E : Env) (mw : ℝ) (kw : Kw) (name : String) : Except Err (Option Arg) :=
  match kw.lookup name with
  | none => .ok none
  | some v => (convArg v (conversions E mw name)).map some

/-- The arguments in internal units (K, Pa, kmol/m3, m3/kmol, kJ/kmol, kJ/kmol/K). -/
structure Std where
  T : Option Arg := none
  p : Option Arg := none
  d : Option Arg := none
  v : Option Arg := none
  h : Option Arg := none
  e : Option Arg := none
  s : Option Arg := none

/-- Step 4 (`ig.py:178-226`).  Simplification: all conversions run before the iterations for
`h` and `e` (the text interleaves them). -/
noncomputable def convert (E : Env) (mw : ℝ) (kw : Kw) : Except Err Std := do
  let T ← convKw E mw kw "T"
  let p ← convKw E mw kw "p"
  let d ← convKw E mw kw "d"
  let v ← convKw E mw kw "v"
  let h ← convKw E mw kw "h"
  let e ← convKw E mw kw "e"
  let s ← convKw E mw kw "s"
  .ok { T, p, d, v, h, e, s }

/-- Step 5.1, `kwarg['d'] = 1./...` (`ig.py:191-194`): a fresh array.  Simplification: `1/0` is
`inf` in NumPy and 0 here. -/
noncomputable def densityOf (k : Std) : Option Arg :=
  match k.v with
  | some v => some ⟨v.xs.map (fun x => 1 / x), false⟩
  | none => k.d

/-- Temperature argument of the final case split: given, or computed from `h`/`e`; NaN possible.
`warned`: the inversion printed its "failed to converge" warning. -/
structure TArg where
  xs : List Nan
  own : Bool
  warned : Bool

/-- Step 5.2 (`ig.py:195-220`): invert `_h` or `_e` from the middle of the range. -/
noncomputable def tempOf (G : Gas) (k : Std) : Except Err (Option TArg) :=
  match k.e with
  | some e => do
    let r ← iter1 (e.xs.map (fun y => (G.e, y))) (0.5 * (G.Tlo + G.Thi)) G.Tlo G.Thi
    .ok (some ⟨r.1, false, r.2⟩)
  | none =>
    match k.h with
    | some h => do
      let r ← iter1 (h.xs.map (fun y => (G.h, y))) (0.5 * (G.Tlo + G.Thi)) G.Tlo G.Thi
      .ok (some ⟨r.1, false, r.2⟩)
    | none => .ok (k.T.map (fun a => ⟨a.xs.map some, a.own, false⟩))

/-- `np.broadcast_arrays` on one-dimensional arrays: equal lengths or one of length 1. -/
def broadcast {α β : Type} (xs : List α) (ys : List β) : Except Err (List α × List β) :=
  if xs.length = ys.length then .ok (xs, ys)
  else match xs, ys with
    | [x], _ => .ok (List.replicate ys.length x, ys)
    | _, [y] => .ok (xs, List.replicate xs.length y)
    | _, _ => .error .value

/-- What `_argparse` returns: arrays of T, p, d (the last two possibly `None`), what it leaves in
the caller's own temperature and entropy arrays, and whether an inversion printed its warning. -/
structure State where
  T : List Nan
  p : Option (List Nan)
  d : Option (List Nan)
  callerT : Option (List Nan) := none
  callerS : Option (List ℝ) := none
  warned : Bool := false

/-- Entropy moved to the reference pressure, `s += Ru*log(p/pref)` in place (`ig.py:240`).
`s`, `p` are the arrays before broadcasting.  When `s` had one element and was stretched, all its
elements are one memory cell. -/
noncomputable def adjustS (E : Env) (pref : ℝ) (s p : List ℝ) : Except Err (List ℝ) := do
  let (sb, pb) ← broadcast s p
  let ws := List.zipWith (fun s p => s + Ru * Real.log (p / pref)) sb pb
  match s with
  | [x] => if 1 < pb.length then .ok (List.replicate pb.length (E.cell x ws)) else .ok ws
  | _ => .ok ws

/-- Steps 7-9, the case split (`ig.py:228-283`) before the range test.  The three
"Please report a bug" branches and the illegal-entropy branch give `PMParamError`. -/
noncomputable def solve (E : Env) (G : Gas) (k : Std) (T : Option TArg) : Except Err State :=
  let d := densityOf k
  let mid := 0.5 * (G.Tlo + G.Thi)
  match k.s with
  | some s =>
    match d with
    | some d => do
      let (sb, db) ← broadcast s.xs d.xs
      let r ← iter1 (List.zipWith (fun s d => (G.sditer d, s)) sb db) mid G.Tlo G.Thi
      .ok { T := r.1, p := none, d := some (db.map some), warned := r.2 }
    | none =>
      match k.p with
      | some p => do
        let (_, pb) ← broadcast s.xs p.xs
        let sa ← adjustS E G.pref s.xs p.xs
        let r ← iter1 (sa.map (fun y => (G.s, y))) mid G.Tlo G.Thi
        .ok { T := r.1, p := some (pb.map some), d := none, callerS := if s.own then some (sa.take s.xs.length) else none, warned := r.2 }
      | none =>
        match T with
        | some T => do
          let (sb, Tb) ← broadcast s.xs T.xs
          let p := List.zipWith (fun s T => (T.bind G.s).map (fun s0 => G.pref * Real.exp ((s0.1 - s) / Ru))) sb Tb
          .ok { T := Tb, p := some p, d := none, callerT := if T.own then some T.xs else none, warned := T.warned }
        | none => .error .param
  | none =>
    match T with
    | some T =>
      match k.p with
      | some p => do
        let (Tb, pb) ← broadcast T.xs p.xs
        .ok { T := Tb, p := some (pb.map some), d := none, callerT := if T.own then some T.xs else none, warned := T.warned }
      | none =>
        match d with
        | some d => do
          let (Tb, db) ← broadcast T.xs d.xs
          .ok { T := Tb, p := none, d := some (db.map some), callerT := if T.own then some T.xs else none, warned := T.warned }
        | none => .error .param
    | none =>
      match k.p with
      | some p =>
        match d with
        | some d => do
          let (pb, db) ← broadcast p.xs d.xs
          .ok { T := List.zipWith (fun p d => some (p / (1000 * Ru * d))) pb db, p := some (pb.map some), d := some (db.map some) }
        | none => .error .param
      | none => .error .param

open Classical in
/-- `np.logical_or(T < Tlim[0], T > Tlim[-1])` for one element (`ig.py:290`). -/
noncomputable def oob (G : Gas) (T : Nan) : Bool :=
  match T with
  | none => false
  | some T => decide (T < G.Tlo ∨ T > G.Thi)

/-- The range test (`ig.py:289-296`); `T[I] = def_oob` writes through to the caller's array when
the temperature array is the caller's own. -/
noncomputable def rangeTest (G : Gas) (st : State) : Except Err State :=
  if st.T.all (oob G) then .error .param
  else if st.T.any (oob G) then
    .ok { st with T := st.T.map (fun T => if oob G T then none else T), callerT := st.callerT.map (fun Ts => Ts.map (fun T => if oob G T then none else T)) }
  else .ok st

/-- `_argparse` (`ig.py:70-298`, `ig2.py:55-284`, `igmix.py:174-396`). -/
noncomputable def argparse (E : Env) (G : Gas) (varg : List (Val ℝ)) (kw : Kw) :
    Except Err State := do
  let kw ← bindPos varg kw
  let kw ← applyDefaults E kw
  checkRules kw
  let k ← convert E G.mw kw
  let T ← tempOf G k
  let st ← solve E G k T
  rangeTest G st

/-! ## Property methods -/

/-- Lift a function of two reals to NaN floats. -/
def nan2 (f : ℝ → ℝ → ℝ) (x y : Nan) : Nan := x.bind (fun x => y.map (f x))

/-- `if d is None: d = p / (1000*Ru*T)` (`ig.py:1451-1452`).  `_argparse` always gives `p` or
`d`; with neither Python would raise `TypeError`. -/
noncomputable def State.density (st : State) : Except Err (List Nan) :=
  match st.d, st.p with
  | some d, _ => .ok d
  | none, some p => .ok (List.zipWith (nan2 (fun p T => p / (1000 * Ru * T))) p st.T)
  | none, none => .error .type

/-- `if p is None: p = d * (1000*Ru * T)` (`ig.py:1534-1535`, `1707-1708`). -/
noncomputable def State.pressure (st : State) : Except Err (List Nan) :=
  match st.p, st.d with
  | some p, _ => .ok p
  | none, some d => .ok (List.zipWith (nan2 (fun d T => d * (1000 * Ru * T))) d st.T)
  | none, none => .error .type

/-- The number a conversion of a Python scalar returns. -/
def scalarOf (r : Except Err (Res ℝ)) : Except Err ℝ := do
  match (← r).ret with
  | .scalar x => .ok x
  | .arr _ => .error .type

/-- `scale = matter(1., mw, from_units='kmol'); scale = volume(scale, from_units='m3',
exponent=-1)` (`ig.py:1453-1454`). -/
noncomputable def scaleD (E : Env) (mw : ℝ) : Except Err ℝ := do
  let s ← scalarOf (matter E.a E.c.str (.scalar 1) mw (some "kmol") none none false)
  scalarOf ((volume : Conv ℝ).call E.c.str (.scalar s) (some "m3") none (some (-1)) false)

/-- `scale = energy(1, from_units=eu); scale = matter(scale, mw, from_units=mu, exponent=-1)`
(`ig.py:1677-1678` with kJ, kmol; `1814-1815` with J, mol). -/
noncomputable def scaleH (E : Env) (mw : ℝ) (eu mu : String) : Except Err ℝ := do
  let s ← scalarOf ((energy : Conv ℝ).call E.c.str (.scalar 1) (some eu) none none false)
  scalarOf (matter E.a E.c.str (.scalar s) mw (some mu) none (some (-1)) false)

/-- `scale = energy(1, 'kJ'); temperature(scale, 'K', exponent=-1); matter(scale, mw, 'kmol',
exponent=-1)` (`ig.py:1613-1615`). -/
noncomputable def scaleS (E : Env) (mw : ℝ) : Except Err ℝ := do
  let s ← scalarOf ((energy : Conv ℝ).call E.c.str (.scalar 1) (some "kJ") none none false)
  let s ← scalarOf ((temperature : Conv ℝ).call E.c.str (.scalar s) (some "K") none (some (-1)) false)
  scalarOf (matter E.a E.c.str (.scalar s) mw (some "kmol") none (some (-1)) false)

/-- A conversion applied to an array that may hold NaN. -/
def convNan (f : Val ℝ → Except Err (Res ℝ)) (xs : List Nan) : Except Err (List Nan) :=
  xs.mapM (fun x => match x with
    | none => .ok none
    | some x => (scalarOf (f (.scalar x))).map some)

/-- `np.multiply(out, scale, out=out)`. -/
noncomputable def scaleBy (c : ℝ) (xs : List Nan) : List Nan := xs.map (Option.map (· * c))

/-- Inner value of a property at one state element, internal units (`T` in K, `p` in Pa). -/
noncomputable def Gas.gamI (G : Gas) (T : Nan) : Nan := (T.bind G.cp).map (fun cp => cp / (cp - Ru))
/-- `self._cp(T)` (`ig.py:1611`). -/
noncomputable def Gas.cpI (G : Gas) (T : Nan) : Nan := T.bind G.cp
/-- `self._cp(T) - Ru` (`ig.py:1643`). -/
noncomputable def Gas.cvI (G : Gas) (T : Nan) : Nan := (T.bind G.cp).map (· - Ru)
/-- `self._h(T)[0]` (`ig.py:1675`). -/
noncomputable def Gas.hI (G : Gas) (T : Nan) : Nan := T.bind (fun T => (G.h T).map (·.1))
/-- `self._h(T)[0] - Ru*T` (`ig.py:1812`). -/
noncomputable def Gas.eI (G : Gas) (T : Nan) : Nan :=
  T.bind (fun T => (G.h T).map (fun r => r.1 - Ru * T))
/-- `self._g(T)[0] + T*Ru*log(p/pref)` (`ig.py:1710`). -/
noncomputable def Gas.gI (G : Gas) (T p : Nan) : Nan :=
  T.bind (fun T => p.bind (fun p => (G.g T).map (fun r => r.1 + T * Ru * Real.log (p / G.pref))))
/-- `self._f(T)[0] + T*Ru*log(p/pref)` (`ig.py:1746`). -/
noncomputable def Gas.fI (G : Gas) (T p : Nan) : Nan :=
  T.bind (fun T => p.bind (fun p => (G.f T).map (fun r => r.1 + T * Ru * Real.log (p / G.pref))))
/-- `self._s(T)[0] - Ru*log(p/pref)` (`ig.py:1780`). -/
noncomputable def Gas.sI (G : Gas) (T p : Nan) : Nan :=
  T.bind (fun T => p.bind (fun p => (G.s T).map (fun r => r.1 - Ru * Real.log (p / G.pref))))

section methods
variable (E : Env) (G : Gas) (varg : List (Val ℝ)) (kw : Kw)

/-- `d(...)` (`ig.py:1450-1456`, `ig2.py:904-931`, `igmix.py:686-715`). -/
noncomputable def mD : Except Err (List Nan) := do
  let st ← argparse E G varg kw
  let d ← st.density
  let c ← scaleD E G.mw
  .ok (scaleBy c d)

/-- `v(...)` (`ig.py:1479`, `ig2.py:933-954`, `igmix.py:717-738`): `1./d` (NumPy gives `inf` for a zero density, here 0). -/
noncomputable def mV : Except Err (List Nan) := do
  let d ← mD E G varg kw
  .ok (d.map (Option.map (fun x => 1 / x)))

/-- The special default of `T(...)` (`ig.py:1505-1506`): with a single argument `kwarg['p']` is
set to the raw stored number `pm.config['def_p']`, replacing a `p` given by keyword. -/
noncomputable def mTdefault : Kw :=
  if varg.length + kw.length = 1 then ("p", .scalar E.c.defp) :: kw.filter (fun q => q.1 ≠ "p")
  else kw

/-- `T(...)` (`ig.py:1505-1510`, `ig2.py:956-985`, `igmix.py:771-800`). -/
noncomputable def mT : Except Err (List Nan) := do
  let st ← argparse E G varg (mTdefault E varg kw)
  convNan (fun v => temperatureScale E.c.str v (some "K") none true) st.T

/-- `p(...)` (`ig.py:1533-1537`, `ig2.py:987-1012`, `igmix.py:741-768`). -/
noncomputable def mP : Except Err (List Nan) := do
  let st ← argparse E G varg kw
  let p ← st.pressure
  convNan (fun v => (Units.pressure E.a).call E.c.str v (some "Pa") none none true) p

/-- `gam(...)` (`ig.py:1583-1585`, `ig2.py:1037-1060`, `igmix.py:1120-1144`). -/
noncomputable def mGam : Except Err (List Nan) := do
  let st ← argparse E G varg kw
  .ok (st.T.map G.gamI)

/-- `cp(...)` (`ig.py:1609-1618`, `ig2.py:1063-1093`, `igmix.py:862-893`). -/
noncomputable def mCp : Except Err (List Nan) := do
  let st ← argparse E G varg kw
  let c ← scaleS E G.mw
  .ok (scaleBy c (st.T.map G.cpI))

/-- `cv(...)` (`ig.py:1641-1650`, `ig2.py:1095-1125`, `igmix.py:896-927`). -/
noncomputable def mCv : Except Err (List Nan) := do
  let st ← argparse E G varg kw
  let c ← scaleS E G.mw
  .ok (scaleBy c (st.T.map G.cvI))

/-- `h(...)` (`ig.py:1673-1681`, `ig2.py:1127-1156`, `igmix.py:930-957`). -/
noncomputable def mH : Except Err (List Nan) := do
  let st ← argparse E G varg kw
  let c ← scaleH E G.mw "kJ" "kmol"
  .ok (scaleBy c (st.T.map G.hI))

/-- `g(...)` (`ig.py:1706-1716`, `ig2.py:1224-1255`, `igmix.py:960-991`). -/
noncomputable def mG : Except Err (List Nan) := do
  let st ← argparse E G varg kw
  let p ← st.pressure
  let c ← scaleH E G.mw "kJ" "kmol"
  .ok (scaleBy c (List.zipWith G.gI st.T p))

/-- `f(...)` (`ig.py:1742-1752`, `ig2.py:1257-1288`, `igmix.py:1022-1053`). -/
noncomputable def mF : Except Err (List Nan) := do
  let st ← argparse E G varg kw
  let p ← st.pressure
  let c ← scaleH E G.mw "kJ" "kmol"
  .ok (scaleBy c (List.zipWith G.fI st.T p))

/-- `s(...)` (`ig.py:1776-1787`, `ig2.py:1158-1191`, `igmix.py:1088-1117`). -/
noncomputable def mS : Except Err (List Nan) := do
  let st ← argparse E G varg kw
  let p ← st.pressure
  let c ← scaleS E G.mw
  .ok (scaleBy c (List.zipWith G.sI st.T p))

/-- `e(...)` (`ig.py:1810-1818`, `ig2.py:1193-1222`, `igmix.py:993-1020`), scaled from J and mol. -/
noncomputable def mE : Except Err (List Nan) := do
  let st ← argparse E G varg kw
  let c ← scaleH E G.mw "J" "mol"
  .ok (scaleBy c (st.T.map G.eI))

/-- The dictionary returned by `state(...)`. -/
structure StateOut where
  T : List Nan
  p : List Nan
  d : List Nan
  v : List Nan
  h : List Nan
  e : List Nan
  gam : List Nan
  s : List Nan
  cp : List Nan
  cv : List Nan

/-- `state(...)` (`ig.py:1838-1872`, `ig2.py:1290-1342`, `igmix.py:806-859`).  `cp` is the derivative returned by `_h(T, True)`. -/
noncomputable def mState : Except Err StateOut := do
  let st ← argparse E G varg kw
  let d ← st.density
  let p ← st.pressure
  let s := List.zipWith G.sI st.T p
  let h := st.T.map G.hI
  let cp := st.T.map (fun T => T.bind (fun T => (G.h T).map (·.2)))
  let cv := cp.map (Option.map (· - Ru))
  let gam := List.zipWith (nan2 (fun cp cv => cp / cv)) cp cv
  let e := st.T.map G.eI
  let oT ← convNan (fun v => temperatureScale E.c.str v (some "K") none false) st.T
  let op ← convNan (fun v => (Units.pressure E.a).call E.c.str v (some "Pa") none none false) p
  let cd ← scaleD E G.mw
  let od := scaleBy cd d
  let ch ← scaleH E G.mw "kJ" "kmol"
  let cs ← scalarOf ((temperature : Conv ℝ).call E.c.str (.scalar ch) (some "K") none (some (-1)) false)
  .ok { T := oT, p := op, d := od, v := od.map (Option.map (fun x => 1 / x)), h := scaleBy ch h, e := scaleBy ch e, gam := gam, s := scaleBy cs s, cp := scaleBy cs cp, cv := scaleBy cs cv }

/-- `T_s(s, p=None, d=None)` (`ig.py:1876-1893`, `ig2.py:1345-1362`, `igmix.py:1171-1188`). -/
noncomputable def mT_s (s : Val ℝ) (p d : Option (Val ℝ)) : Except Err (List Nan) :=
  match p, d with
  | some p, _ => mT E G [] [("s", s), ("p", p)]
  | none, some d => mT E G [] [("s", s), ("d", d)]
  | none, none => mT E G [] [("s", s)]

/-- `T_h(h, p=None, d=None)` (`ig.py:1896-1916`, `ig2.py:1365-1385`, `igmix.py:1191-1211`). -/
noncomputable def mT_h (h : Val ℝ) (p d : Option (Val ℝ)) : Except Err (List Nan) :=
  match p, d with
  | some p, _ => mT E G [] [("h", h), ("p", p)]
  | none, some d => mT E G [] [("h", h), ("d", d)]
  | none, none => mT E G [] [("h", h)]

/-- `p_s(s, T=None)` (`ig.py:1919-1935`, `ig2.py:1388-1404`, `igmix.py:1214-1230`). -/
noncomputable def mP_s (s : Val ℝ) (T : Option (Val ℝ)) : Except Err (List Nan) :=
  match T with
  | some T => mP E G [] [("s", s), ("T", T)]
  | none => mP E G [] [("s", s)]

/-- `R(...)` (`ig.py:1550-1560`, `ig2.py:1025-1035`, `igmix.py:1073-1085`): the arguments are ignored. -/
noncomputable def mR : Except Err ℝ := do
  let r ← scalarOf ((energy : Conv ℝ).call E.c.str (.scalar Ru) (some "J") none none false)
  let r ← scalarOf ((temperature : Conv ℝ).call E.c.str (.scalar r) (some "K") none (some (-1)) false)
  scalarOf (matter E.a E.c.str (.scalar r) G.mw (some "mol") none (some (-1)) false)

/-- `mw(...)` (`ig.py:1539-1548`, `ig2.py:1014-1023`; `igmix.py:1055-1070` starts from kg and kmol). -/
noncomputable def mMw (mu nu : String) : Except Err ℝ := do
  let r ← scalarOf ((mass E.a).call E.c.str (.scalar G.mw) (some mu) none none false)
  scalarOf ((molar E.a).call E.c.str (.scalar r) (some nu) none (some (-1)) false)

/-- `Tlim()` (`ig.py:1413-1423`, `ig2.py:889-899`, `igmix.py:669-680`). -/
noncomputable def mTlim : Except Err (ℝ × ℝ) := do
  let lo ← scalarOf (temperatureScale E.c.str (.scalar G.Tlo) (some "K") none false)
  let hi ← scalarOf (temperatureScale E.c.str (.scalar G.Thi) (some "K") none false)
  .ok (lo, hi)

end methods

end PyroMat.Gas
