import Verif.Gas.Model
import Verif.Mp.Thermo
import Verif.Mp.Hybrid

/-!
# Argument parsing of the multiphase class

Model of `_sat_argparse` and `_argparse` of `/repo/src/pyromat/registry/mp1.py`.  The positional
arguments, the defaults and the array conversion are text shared with the ideal-gas classes and reuse
their model.  `none` is NaN, and `def_oob` is its shipped value NaN.  The numerical inversions are a
parameter (`Sol`); `Verif/Mp/Solvers.lean` models the code's own.  Simplifications: arguments given
by the caller hold no NaN and, when they are arrays, own their memory; `1/0` is 0 for a given
specific volume of 0.
-/

namespace PyroMat.Mp

open PyroMat PyroMat.Units PyroMat.Gas

/-- The data of a substance: molecular weight, limits, triple and critical point, the Helmholtz
routines, and the saturation curves `_ps`, `_dsl`, `_dsv` with their derivatives by temperature. -/
structure Sub where
  mw : ℝ
  Tlo : ℝ
  Thi : ℝ
  plo : ℝ
  phi : ℝ
  dlo : ℝ
  dhi : ℝ
  Tt : ℝ
  Tc : ℝ
  pt : ℝ
  pc : ℝ
  F : Fluid
  ps : ℝ → ℝ
  dsl : ℝ → ℝ
  dsv : ℝ → ℝ
  psT : ℝ → ℝ
  dslT : ℝ → ℝ
  dsvT : ℝ → ℝ

/-- The properties that need an inversion (`inverse_methods`, `mp1.py:2400`). -/
inductive Inv where
  | e | h | s
  deriving DecidableEq

/-- The name of an inverse property (`mp1.py:2400`). -/
def Inv.name : Inv → String
  | .e => "e" | .h => "h" | .s => "s"

/-- The inner method of an inverse property (`mp1.py:2400`). -/
noncomputable def Sub.inv (B : Sub) : Inv → ℝ → ℝ → ℝ
  | .e => fun T d => (B.F.e T d).v
  | .h => fun T d => (B.F.h T d).v
  | .s => fun T d => (B.F.s T d).v

/-- The numerical inversions.  Each gets one entry per array element, `none` for elements it is not
asked for, and returns the result by position (only those asked for are used), or raises.
`Ts`: `_Ts` of a pressure (`mp1.py:2043-2063`).  `d`: `_d` of temperature and pressure
(`mp1.py:2093-2164`).  `Tdp`: the iteration of `_T` for the single-phase elements with given density
and pressure (`mp1.py:2262-2270`).  `Thp`, `Thd`, `dhT`: the iterations of `_argparse` for a property
with pressure (`mp1.py:2598-2607`), with density (`mp1.py:2643-2652`) and with temperature
(`mp1.py:2740-2773`).  `Tdp` and `Thp` also get the saturation temperature found for the element. -/
structure Sol where
  Ts : List (Option Nan) → Except Err (Nat → Nan)
  d : List (Option (Nan × Nan)) → Except Err (Nat → Nan)
  Tdp : List (Option (ℝ × Nan × Nan)) → Except Err (Nat → Nan)
  Thp : Inv → List (Option (ℝ × Nan × Nan)) → Except Err (Nat → Nan)
  Thd : Inv → List (ℝ × ℝ) → Except Err (Nat → Nan)
  dhT : Inv → List (Option (ℝ × Nan)) → Except Err (Nat → Nan)

/-- One element of what `_argparse` returns: `T, d1, d2, x, I` (`mp1.py:2335-2346`). -/
structure Pt where
  T : Nan
  d1 : Nan
  d2 : Nan
  x : Nan
  I : Bool

/-- What `_argparse` returns, and what it leaves in the arrays that are still the caller's own
(`none` for the others). -/
structure MOut where
  pts : List Pt
  callerT : Option (List Nan) := none
  callerP : Option (List Nan) := none
  callerD : Option (List Nan) := none
  callerX : Option (List Nan) := none

/-! ## Rules and conversions -/

/-- `legal_args` (`mp1.py:2405-2406`). -/
def mpLegal : List String := ["T", "p", "d", "v", "x", "e", "h", "s"]

/-- Step 2, the argument rules (`mp1.py:2411-2438`). -/
def mpRules (kw : Kw) : Except Err Unit :=
  if kw.length > 2 && kw.any (fun q => !(["T", "p", "x"].contains q.1)) then .error .param
  else if kw.any (fun q => !mpLegal.contains q.1) then .error .param
  else if (["e", "h", "s"].filter (fun k => kw.has k)).length > 1 then .error .param
  else if kw.has "v" && kw.has "d" then .error .param
  else .ok ()

/-- The unit conversions of step 4 by argument name (`mp1.py:2460`, `2472`, `2484-2485`,
`2488-2489`, `2498-2512`); quality is not converted. -/
noncomputable def mpConversions (E : Env) (mw : ℝ) (name : String) :
    List (Val ℝ → Except Err (Res ℝ)) :=
  let cfg := E.c.str
  match name with
  | "T" => [fun v => temperatureScale cfg v none (some "K") false]
  | "p" => [fun v => (pressure E.a).call cfg v none (some "Pa") none false]
  | "d" => [fun v => (volume : Conv ℝ).call cfg v none (some "m3") (some (-1)) false,
            fun v => matter E.a cfg v mw none (some "kg") none false]
  | "v" => [fun v => (volume : Conv ℝ).call cfg v none (some "m3") none false,
            fun v => matter E.a cfg v mw none (some "kg") (some (-1)) false]
  | "h" | "e" => [fun v => (energy : Conv ℝ).call cfg v none (some "J") none false,
            fun v => matter E.a cfg v mw none (some "kg") (some (-1)) false]
  | "s" => [fun v => (energy : Conv ℝ).call cfg v none (some "J") none false,
            fun v => matter E.a cfg v mw none (some "kg") (some (-1)) false,
            fun v => (temperature : Conv ℝ).call cfg v none (some "K") (some (-1)) false]
  | _ => []

/-- One keyword in internal units, if present. -/
noncomputable def mpConvKw (E : Env) (mw : ℝ) (kw : Kw) (name : String) :
    Except Err (Option Arg) :=
  match kw.lookup name with
  | none => .ok none
  | some v => (convArg v (mpConversions E mw name)).map some

/-- A temperature or pressure argument after its range test. -/
structure NArg where
  xs : List Nan
  own : Bool

open Classical in
/-- Step 5 for `T` and `p` (`mp1.py:2461-2470`, `2473-2482`): an error if every element is out of
range, otherwise those that are become NaN - in place, so also in the caller's own array. -/
noncomputable def mpRange (lo hi : ℝ) : Option Arg → Except Err (Option NArg)
  | none => .ok none
  | some a =>
    if a.xs.all (fun x => decide (x < lo ∨ x > hi)) then .error .param
    else .ok (some ⟨a.xs.map (fun x => if x < lo ∨ x > hi then none else some x), a.own⟩)

/-- The arguments in internal units (K, Pa, kg/m3, J/kg, J/kg/K); `v` has become `d`. -/
structure MStd where
  T : Option NArg
  p : Option NArg
  d : Option Arg
  x : Option Arg
  inv : Option (Inv × Arg)

open Classical in
/-- Quality must be between -1 and 1 (`mp1.py:2514-2516`). -/
noncomputable def mpQuality : Option Arg → Except Err Unit
  | none => .ok ()
  | some a => if a.xs.any (fun x => decide (x > 1 ∨ x < -1)) then .error .param else .ok ()

/-- The inverse property given, of which there is at most one (`mp1.py:2522-2526`). -/
def mpInv (e h s : Option Arg) : Option (Inv × Arg) :=
  match e, h, s with
  | some a, _, _ => some (.e, a)
  | none, some a, _ => some (.h, a)
  | none, none, some a => some (.s, a)
  | none, none, none => none

/-- `kwarg['d'] = 1./...` when `v` is given (`mp1.py:2486-2496`). -/
noncomputable def mpDensity (d v : Option Arg) : Option Arg :=
  match v with
  | some v => some ⟨v.xs.map (fun x => 1 / x), false⟩
  | none => d

/-- Steps 4 to 6 (`mp1.py:2459-2516`). -/
noncomputable def mpConvert (E : Env) (B : Sub) (kw : Kw) : Except Err MStd := do
  let T ← mpConvKw E B.mw kw "T"
  let T ← mpRange B.Tlo B.Thi T
  let p ← mpConvKw E B.mw kw "p"
  let p ← mpRange B.plo B.phi p
  let d ← mpConvKw E B.mw kw "d"
  let v ← mpConvKw E B.mw kw "v"
  let h ← mpConvKw E B.mw kw "h"
  let e ← mpConvKw E B.mw kw "e"
  let s ← mpConvKw E B.mw kw "s"
  let x ← mpConvKw E B.mw kw "x"
  mpQuality x
  .ok { T, p, d := mpDensity d v, x, inv := mpInv e h s }

/-! ## The cases -/

/-- A curve at a temperature that may be NaN. -/
def onCurve (f : ℝ → ℝ) (T : Nan) : Nan := T.map f

open Classical in
/-- A quotient whose numerator vanishes with its denominator: `0/0` is NaN. -/
noncomputable def quot (a b : ℝ) : Nan := if b = 0 then none else some (a / b)

open Classical in
/-- Quality (possibly NaN) of a mixture with value `y` of an inverse property at the saturation
temperature `T`, if it is saturated (`mp1.py:2570-2571`, `2587`, `2612`; `2716-2717`, `2734`,
`2784`). -/
noncomputable def satInv (B : Sub) (i : Inv) (T y : ℝ) : Option Nan :=
  let yL := B.inv i T (B.dsl T)
  let yV := B.inv i T (B.dsv T)
  if yL ≤ y ∧ y ≤ yV then some (quot (y - yL) (yV - yL)) else none

open Classical in
/-- Quality (possibly NaN) of a mixture of density `d` at temperature `T`, if `dsV ≤ d ≤ dsL`
(`mp1.py:2664`, `2674`; `2243-2245`, `2929`). -/
noncomputable def satDens (B : Sub) (T d : ℝ) : Option Nan :=
  if B.dsv T ≤ d ∧ d ≤ B.dsl T then
    some (quot (B.dsl T / d - 1) (B.dsl T / B.dsv T - 1))
  else none

open Classical in
/-- The same with strict inequalities (`mp1.py:2861-2862`, `2874`). -/
noncomputable def satDensStrict (B : Sub) (T d : ℝ) : Option Nan :=
  if d < B.dsl T ∧ B.dsv T < d then
    some (quot (B.dsl T / d - 1) (B.dsl T / B.dsv T - 1))
  else none

/-- A saturated element at temperature `T` with quality `x`. -/
noncomputable def satPt (B : Sub) (T x : Nan) : Pt :=
  ⟨T, onCurve B.dsl T, onCurve B.dsv T, x, true⟩

/-- A single-phase element. -/
def onePt (T d : Nan) : Pt := ⟨T, d, d, some (-1), false⟩

open Classical in
/-- The pressures for which saturation is possible (`mp1.py:2554`, `2560`).  NaN is one of them. -/
noncomputable def betweenP (B : Sub) : Nan → Bool
  | none => true
  | some p => decide (¬ (p ≥ B.pc ∨ p ≤ B.pt))

/-- Quality of element `(y, p)` given the saturation temperature found for it, if saturated. -/
noncomputable def satHP (B : Sub) (i : Inv) (Ts : Nan) (q : ℝ × Nan) : Option Nan :=
  if betweenP B q.2 then Ts.bind (fun T => satInv B i T q.1) else none

/-- Saturation temperatures of the selected pressures, if there are any (`mp1.py:2560-2563`,
`2217-2223`). -/
noncomputable def askTs (S : Sol) (sel : Nan → Bool) (p : List Nan) : Except Err (Nat → Nan) :=
  if p.any sel then S.Ts (p.map (fun p => if sel p then some p else none)) else .ok (fun _ => none)

/-- An inverse property with pressure (`mp1.py:2532-2625`). -/
noncomputable def mpHP (B : Sub) (S : Sol) (i : Inv) (y : List ℝ) (p : List Nan) :
    Except Err (List Pt) := do
  let (y, p) ← broadcast y p
  let q := y.zip p
  let Ts ← askTs S (betweenP B) p
  let T ← S.Thp i (q.mapIdx (fun n e => if (satHP B i (Ts n) e).isSome then none else some (e.1, e.2, Ts n)))
  let d ← S.d (q.mapIdx (fun n e =>
    if (satHP B i (Ts n) e).isSome then none else some (T n, e.2)))
  .ok (q.mapIdx (fun n e =>
    match satHP B i (Ts n) e with
    | some x => satPt B (Ts n) x
    | none => onePt (T n) (d n)))

open Classical in
/-- Quality at temperature `T` (possibly NaN) and density `d`, if `T` is below the critical
temperature and the density under the dome (`mp1.py:2656-2674`). -/
noncomputable def satTD (B : Sub) (sat : ℝ → ℝ → Option Nan) (T : Nan) (d : ℝ) : Option Nan :=
  T.bind (fun T => if T < B.Tc then sat T d else none)

/-- An inverse property with density (`mp1.py:2628-2680`). -/
noncomputable def mpHD (B : Sub) (S : Sol) (i : Inv) (y d : List ℝ) : Except Err (List Pt) := do
  let (y, d) ← broadcast y d
  let q := y.zip d
  let T ← S.Thd i q
  .ok (q.mapIdx (fun n e =>
    match satTD B (satDens B) (T n) e.2 with
    | some x => satPt B (T n) x
    | none => onePt (T n) (some e.2)))

open Classical in
/-- Quality of an inverse property with temperature, if saturated (`mp1.py:2710-2734`). -/
noncomputable def satHT (B : Sub) (i : Inv) (q : ℝ × Nan) : Option Nan :=
  q.2.bind (fun T => if T < B.Tc then satInv B i T q.1 else none)

/-- An inverse property with temperature (`mp1.py:2691-2791`). -/
noncomputable def mpHT (B : Sub) (S : Sol) (i : Inv) (y : List ℝ) (T : List Nan) :
    Except Err (List Pt) := do
  let (y, T) ← broadcast y T
  let q := y.zip T
  let d ← S.dhT i (q.map (fun e => if (satHT B i e).isSome then none else some e))
  .ok (q.mapIdx (fun n e =>
    match satHT B i e with
    | some x => satPt B e.2 x
    | none => onePt e.2 (d n)))

open Classical in
/-- Quality given with a temperature above the critical point (`mp1.py:2827-2828`). -/
noncomputable def badTX (B : Sub) (T : Nan) (x : ℝ) : Bool :=
  match T with
  | some T => decide (¬ x < 0 ∧ T > B.Tc)
  | none => false

open Classical in
/-- One element of the `T,p,x` case, given the density found for it (`mp1.py:2813-2847`). -/
noncomputable def ptTPX (B : Sub) (d : Nan) (T : Nan) (x : ℝ) : Pt :=
  if badTX B T x then ⟨none, none, none, none, false⟩
  else if x < 0 then ⟨T, d, d, some x, false⟩
  else satPt B T (some x)

open Classical in
/-- Temperature and pressure, with or without quality (`mp1.py:2803-2849`).  The last components are
the temperature and quality arrays as written to, if nothing was copied. -/
noncomputable def mpTPX (B : Sub) (S : Sol) (T p : List Nan) (x : List ℝ) :
    Except Err (List Pt × Option (List Nan × List Nan)) := do
  let (T', p') ← broadcast T p
  let (w, x') ← broadcast (T'.zip p') x
  let q := w.zip x'
  let d ← S.d (q.map (fun e => if e.2 < 0 then some e.1 else none))
  let pts := q.mapIdx (fun n e => ptTPX B (d n) e.1.1 e.2)
  .ok (pts, if T.length = p.length ∧ p.length = x.length then
    some (q.map (fun e => if badTX B e.1.1 e.2 then none else e.1.1),
      q.map (fun e => if badTX B e.1.1 e.2 then none else some e.2))
    else none)

/-- Temperature and density (`mp1.py:2852-2882`). -/
noncomputable def mpTD (B : Sub) (T : List Nan) (d : List ℝ) : Except Err (List Pt) := do
  let (T, d) ← broadcast T d
  .ok ((T.zip d).map (fun e =>
    match satTD B (satDensStrict B) e.1 e.2 with
    | some x => satPt B e.1 x
    | none => onePt e.1 (some e.2)))

open Classical in
/-- Temperature and quality (`mp1.py:2886-2896`). -/
noncomputable def mpTX (B : Sub) (T : List Nan) (x : List ℝ) : Except Err (List Pt) := do
  let (T, x) ← broadcast T x
  if T.any (fun T => match T with | some T => decide (T > B.Tc) | none => false) then .error .param
  else if x.any (fun x => decide (x < 0)) then .error .param
  else .ok ((T.zip x).map (fun e => satPt B e.1 (some e.2)))

open Classical in
/-- Below the critical pressure (`mp1.py:2211`, `2217`).  NaN counts as below. -/
noncomputable def belowPc (B : Sub) : Nan → Bool
  | none => true
  | some p => decide (¬ p ≥ B.pc)

/-- Quality of element `(d, p)` given the saturation temperature found for it (`mp1.py:2243-2245`). -/
noncomputable def satPD (B : Sub) (Ts : Nan) (q : ℝ × Nan) : Option Nan :=
  if belowPc B q.2 then Ts.bind (fun T => satDens B T q.1) else none

/-- Pressure and density (`mp1.py:2913-2937`, with `_T`, `mp1.py:2195-2273`).  The second component
is the density array as written to, if it was not copied. -/
noncomputable def mpPD (B : Sub) (S : Sol) (d : List ℝ) (p : List Nan) :
    Except Err (List Pt × Option (List Nan)) := do
  let (d', p') ← broadcast d p
  let q := d'.zip p'
  let Ts ← askTs S (belowPc B) p'
  let T ← S.Tdp (q.mapIdx (fun n e => if (satPD B (Ts n) e).isSome then none else some (e.1, e.2, Ts n)))
  let pts := q.mapIdx (fun n e =>
    match satPD B (Ts n) e with
    | some x => satPt B (Ts n) x
    | none => onePt (T n) (some e.1))
  .ok (pts, if d.length = p.length then some (pts.map (·.d1)) else none)

open Classical in
/-- Pressure and quality (`mp1.py:2941-2955`). -/
noncomputable def mpPX (B : Sub) (S : Sol) (p : List Nan) (x : List ℝ) : Except Err (List Pt) := do
  if p.any (fun p => match p with | some p => decide (p > B.pc) | none => false) then .error .param
  else if x.any (fun x => decide (x < 0)) then .error .param
  else
    let (p, x) ← broadcast p x
    let Ts ← S.Ts (p.map some)
    .ok ((p.zip x).mapIdx (fun n e => satPt B (Ts n) (some e.2)))

/-- The contents of an array that is still the caller's. -/
def NArg.mine (a : NArg) (xs : List Nan) : Option (List Nan) := if a.own then some xs else none

/-- The same for an array of numbers. -/
def Arg.mine (a : Arg) (xs : List Nan) : Option (List Nan) := if a.own then some xs else none

/-- The case split for an inverse property (`mp1.py:2522-2795`).  With no other argument `pop` raises
`KeyError`; the rules exclude that. -/
noncomputable def mpSolveInv (B : Sub) (S : Sol) (k : MStd) (i : Inv) (y : Arg) :
    Except Err MOut :=
  match k.p, k.d, k.x, k.T with
  | some p, _, _, _ => do
    let r ← mpHP B S i y.xs p.xs
    .ok { pts := r, callerP := p.mine p.xs }
  | none, some d, _, _ => do
    let r ← mpHD B S i y.xs d.xs
    .ok { pts := r, callerD := Arg.mine d (d.xs.map some) }
  | none, none, some _, _ => .error .param
  | none, none, none, some T => do
    let r ← mpHT B S i y.xs T.xs
    .ok { pts := r, callerT := T.mine T.xs }
  | none, none, none, none => .error .key

/-- The other cases (`mp1.py:2798-2989`). -/
noncomputable def mpSolveBasic (B : Sub) (S : Sol) (k : MStd) : Except Err MOut :=
  match k.T, k.p, k.d, k.x with
  | some T, some p, _, none => do
    let r ← mpTPX B S T.xs p.xs [-1]
    .ok { pts := r.1, callerT := T.mine ((r.2.map (·.1)).getD T.xs), callerP := p.mine p.xs }
  | some T, some p, _, some x => do
    let r ← mpTPX B S T.xs p.xs x.xs
    .ok { pts := r.1, callerT := T.mine ((r.2.map (·.1)).getD T.xs), callerP := p.mine p.xs,
          callerX := Arg.mine x ((r.2.map (·.2)).getD (x.xs.map some)) }
  | some T, none, some d, _ => do
    let r ← mpTD B T.xs d.xs
    .ok { pts := r, callerT := T.mine T.xs, callerD := Arg.mine d (d.xs.map some) }
  | some T, none, none, some x => do
    let r ← mpTX B T.xs x.xs
    .ok { pts := r, callerT := T.mine T.xs, callerX := Arg.mine x (x.xs.map some) }
  | none, some p, some d, _ => do
    let r ← mpPD B S d.xs p.xs
    .ok { pts := r.1, callerP := p.mine p.xs,
          callerD := Arg.mine d (r.2.getD (d.xs.map some)) }
  | none, some p, none, some x => do
    let r ← mpPX B S p.xs x.xs
    .ok { pts := r, callerP := p.mine p.xs, callerX := Arg.mine x (x.xs.map some) }
  | _, _, _, _ => .error .param

/-- Step 7 (`mp1.py:2519-2989`). -/
noncomputable def mpSolve (B : Sub) (S : Sol) (k : MStd) : Except Err MOut :=
  match k.inv with
  | some (i, y) => mpSolveInv B S k i y
  | none => mpSolveBasic B S k

/-- `_argparse` (`mp1.py:2321-2989`); steps 1 and 3 (`mp1.py:2366-2389`, `2441-2448`) are those of the
ideal-gas classes. -/
noncomputable def mpArgparse (E : Env) (B : Sub) (S : Sol) (varg : List (Val ℝ)) (kw : Kw) :
    Except Err MOut := do
  let kw ← bindPos varg kw
  let kw ← applyDefaults E kw
  mpRules kw
  let k ← mpConvert E B kw
  mpSolve B S k

/-! ## Saturation calls -/

open Classical in
/-- `_sat_argparse` (`mp1.py:2277-2318`): temperature and the liquid and vapor densities. -/
noncomputable def satArgparse (E : Env) (B : Sub) (S : Sol) (T p : Option (Val ℝ)) :
    Except Err (List (Nan × Nan × Nan)) :=
  match p, T with
  | none, T => do
    let T ← match T with
      | some T => .ok T
      | none => retOf (Config.Defaults.defT E.c)
    let a ← convArg T (mpConversions E B.mw "T")
    if a.xs.any (fun T => decide (T < B.Tt)) || a.xs.any (fun T => decide (T > B.Tc)) then
      .error .param
    else .ok (a.xs.map (fun T => (some T, some (B.dsl T), some (B.dsv T))))
  | some p, none => do
    let a ← convArg p (mpConversions E B.mw "p")
    if a.xs.any (fun p => decide (p < B.pt)) || a.xs.any (fun p => decide (p > B.pc)) then
      .error .param
    else do
      let Ts ← S.Ts (a.xs.map (fun p => some (some p)))
      .ok (a.xs.mapIdx (fun n _ => (Ts n, onCurve B.dsl (Ts n), onCurve B.dsv (Ts n))))
  | some _, some _ => .error .param

end PyroMat.Mp
