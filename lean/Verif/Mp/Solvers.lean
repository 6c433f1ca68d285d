import Verif.Mp.State

/-!
# The numerical inversions of the multiphase class

Model of `_Ts`, `_d`, `_tditer`, `_tpiter`, the iteration of `_T` and those of `_argparse` in
`/repo/src/pyromat/registry/mp1.py`, in the form `Sol` that `Verif/Mp/State.lean` takes as a parameter.
Each returns also whether it printed a warning for lack of convergence.  Numbers are exact; `none` is
NaN.  Divisions by zero outside the solver's own steps are not modelled: `1/0` is 0.
-/

namespace PyroMat.Mp

open PyroMat PyroMat.Gas

/-- The inner method of an inverse property with its derivatives (`mp1.py:2400`). -/
noncomputable def Sub.invQ (B : Sub) : Inv → ℝ → ℝ → Q3
  | .e => B.F.e
  | .h => B.F.h
  | .s => B.F.s

/-! ## Saturation temperature -/

/-- The midpoint every element of `_Ts` starts from (`mp1.py:2046-2047`). -/
noncomputable def Sub.Tmid (B : Sub) : ℝ := 0.5 * (B.Tt + B.Tc)

open Classical in
/-- An element of `_Ts` (`mp1.py:2046-2053`): only pressures from triple to critical are iterated; all
others, NaN included, stay at the midpoint. -/
noncomputable def tsEl (B : Sub) : Option Nan → El
  | some (some p) => ⟨fun T => some (B.ps T, B.psT T), p, some B.Tmid, decide (p ≥ B.pt ∧ p ≤ B.pc)⟩
  | _ => ⟨fun T => some (B.ps T, B.psT T), 0, some B.Tmid, false⟩

/-- `_Ts` (`mp1.py:2043-2063`): `_iter1` (`mp1.py:978-1080`, the text of the ideal-gas classes) within
`0.99 Tt` and `Tc`. -/
noncomputable def codeTs (B : Sub) (q : List (Option Nan)) : Except Err ((Nat → Nan) × Bool) := do
  let r ← iterLoop 1e-6 (B.Tt * 0.99) B.Tc 20 20 (q.map (tsEl B))
  .ok (fun n => (r.1[n]?).bind (·.x), r.2)

/-! ## Elementwise uses of the bracketed solver -/

/-- An element whose target or arguments are NaN: every comparison is false, so it is not bracketed
(`mp1.py:1198`, `1210`). -/
noncomputable def nanIn : HIn := ⟨⟨fun _ => 0, fun _ => 0, 1⟩, 0, 1, true, none⟩

/-- An element that is not selected. -/
noncomputable def offIn : HIn := ⟨⟨fun _ => 0, fun _ => 0, 1⟩, 0, 1, false, none⟩

/-- `_hybrid1` with its default tolerance (`mp1.py:1083-1085`); results by position. -/
noncomputable def runHybrid (Nmax : Nat) (l : List HIn) : Except Err ((Nat → Nan) × Bool) := do
  let r ← hybrid1 1e-6 Nmax l
  .ok (fun n => (r.1[n]?).getD none, r.2)

open Classical in
/-- The density limits to start from (`mp1.py:2112-2143`): supercritical, vapor, liquid. -/
noncomputable def dStart (B : Sub) (T p : ℝ) : ℝ × ℝ :=
  if T ≥ B.Tc then (0.1 * p / (B.F.R * T), B.dhi)
  else if p < B.ps T then (0.5 * p / (B.F.R * T), B.dsv T * 1.01)
  else (B.dsl T * 0.99, B.dhi)

open Classical in
/-- `while p(T,da) > p: da /= 2` (`mp1.py:2145-2149`).  If no number of halvings ends the loop,
floating-point halving ends at 0. -/
noncomputable def dLower (B : Sub) (T p da : ℝ) : ℝ :=
  if h : ∃ n : Nat, ¬ (B.F.p T (da / 2 ^ n)).v > p then da / 2 ^ Nat.find h else 0

/-- An element of `_d`. -/
noncomputable def dIn (B : Sub) : Option (Nan × Nan) → HIn
  | none => offIn
  | some (some T, some p) =>
    ⟨⟨fun d => (B.F.p T d).v, fun d => (B.F.p T d).vd, p⟩, dLower B T p (dStart B T p).1,
      (dStart B T p).2, true, some 0⟩
  | some _ => nanIn

/-- `_d` (`mp1.py:2093-2164`). -/
noncomputable def codeD (B : Sub) (q : List (Option (Nan × Nan))) : Except Err ((Nat → Nan) × Bool) :=
  runHybrid 50 (q.map (dIn B))

open Classical in
/-- `_tditer` (`mp1.py:1332-1407`): a property at given temperature and density, under the dome the
mixture of its saturated values.  The derivative by temperature under the dome leaves out the change
of the saturated densities (`mp1.py:1398-1399`). -/
noncomputable def tditer (B : Sub) (f : ℝ → ℝ → Q3) (T d : ℝ) : Q3 :=
  if T < B.Tc ∧ d ≤ B.dsl T ∧ d ≥ B.dsv T then
    let l := B.dsl T
    let w := B.dsv T
    let xd := 1 / (l / w - 1)
    let x := (l / d - 1) * xd
    let xt := x * xd * (l / w) * (B.dsvT T / w - B.dslT T / l) + xd * B.dslT T / d
    let xd' := xd * (-l / d / d)
    let V := f T w
    let L := f T l
    ⟨x * V.v + (1 - x) * L.v, x * V.vT + xt * V.v + (1 - x) * L.vT - xt * L.v,
      x * V.vd + xd' * V.v + (1 - x) * L.vd - xd' * L.v⟩
  else f T d

open Classical in
/-- The temperature limits of an element `(d, p)` of `_T` that is not saturated, given the saturation
temperature found for it (`mp1.py:2208-2240`).  With NaN for that temperature the limits are NaN. -/
noncomputable def tdpLimits (B : Sub) (d : ℝ) (p : ℝ) (Ts : Nan) : Option (ℝ × ℝ) :=
  if p ≥ B.pc then some (B.Tlo, B.Thi)
  else Ts.map (fun Ts =>
    if d < B.dsv Ts then (max (0.99 * Ts) B.Tlo, B.Thi) else (B.Tlo, Ts * 1.01))

/-- The solver's element for a property `f` at density `d` with target `y`. -/
noncomputable def tdProb (B : Sub) (f : ℝ → ℝ → Q3) (d y : ℝ) : Prob :=
  ⟨fun T => (tditer B f T d).v, fun T => (tditer B f T d).vT, y⟩

/-- An element of the iteration of `_T`. -/
noncomputable def tdpIn (B : Sub) : Option (ℝ × Nan × Nan) → HIn
  | none => offIn
  | some (d, some p, Ts) =>
    match tdpLimits B d p Ts with
    | some l => ⟨tdProb B B.F.p d p, l.1, l.2, true, some 0⟩
    | none => nanIn
  | some (_, none, _) => nanIn

/-- The iteration of `_T` (`mp1.py:2262-2270`). -/
noncomputable def codeTdp (B : Sub) (q : List (Option (ℝ × Nan × Nan))) :
    Except Err ((Nat → Nan) × Bool) :=
  runHybrid 20 (q.map (tdpIn B))

/-- An inverse property with density (`mp1.py:2628-2652`). -/
noncomputable def codeThd (B : Sub) (i : Inv) (q : List (ℝ × ℝ)) : Except Err ((Nat → Nan) × Bool) :=
  runHybrid 50 (q.map (fun e => ⟨tdProb B (B.invQ i) e.2 e.1, B.Tlo, B.Thi, true, none⟩))

/-! ### An inverse property with temperature -/

open Classical in
/-- The density limits of an element that is not saturated (`mp1.py:2696-2728`). -/
noncomputable def dhtStart (B : Sub) (i : Inv) (y T : ℝ) : ℝ × ℝ :=
  if T < B.Tc then
    if y > B.inv i T (B.dsv T) then (B.dlo, 1.01 * B.dsv T)
    else (0.99 * B.dsl T, B.dhi)
  else (0, B.dhi)

open Classical in
/-- The search for a lower limit (`mp1.py:2750-2760`): `k` more halvings of the distance to the
smallest density. -/
noncomputable def dhtSearch (B : Sub) (i : Inv) (y T : ℝ) : Nat → ℝ → Except Err ℝ
  | k, da =>
    if B.inv i T da < y then
      match k with
      | 0 => .error .analysis
      | k + 1 => dhtSearch B i y T k (0.5 * (B.dlo + da))
    else .ok da

open Classical in
/-- The lower limit: searched for when it is 0 (`mp1.py:2740-2760`). -/
noncomputable def dhtLower (B : Sub) (i : Inv) (y T da : ℝ) : Except Err ℝ :=
  if da = 0 then dhtSearch B i y T 20 (0.9999 * B.dlo + 0.0001 * B.dhi) else .ok da

/-- An element of the iteration. -/
noncomputable def dhtIn (B : Sub) (i : Inv) : Option (ℝ × Nan) → Except Err HIn
  | none => .ok offIn
  | some (y, some T) => do
    let da ← dhtLower B i y T (dhtStart B i y T).1
    .ok ⟨⟨fun d => (B.invQ i T d).v, fun d => (B.invQ i T d).vd, y⟩, da, (dhtStart B i y T).2, true,
      none⟩
  | some (_, none) => .ok nanIn

/-- An inverse property with temperature (`mp1.py:2691-2773`). -/
noncomputable def codeDhT (B : Sub) (i : Inv) (q : List (Option (ℝ × Nan))) :
    Except Err ((Nat → Nan) × Bool) := do
  let l ← q.mapM (dhtIn B i)
  runHybrid 50 l

/-! ## The bracketed solver on a routine that may raise

`_tpiter` inverts the pressure for every temperature it is given, so it acts on the whole array, may
raise, and may return NaN. -/

/-- The routine under iteration: one entry per element, `none` where it is not evaluated; value and
slope by position. -/
abbrev Batch := List (Option Nan) → Except Err (Nat → Nan × Nan)

open Classical in
/-- Newton's next guess from a value and a slope that may be NaN (`mp1.py:1193`, `1205`, `1298`). -/
noncomputable def newtonB (y : ℝ) (x : Nan) : Nan × Nan → Cand
  | (some v, some k) =>
    match x with
    | some x => if k = 0 then (if v < y then .pinf else if y < v then .ninf else .nan)
        else .fin (x + (y - v) / k)
    | none => .nan
  | _ => .nan

/-- An element passed to the solver: target, limits (possibly NaN) and the down-select bit. -/
structure BIn where
  y : ℝ
  xmin : Nan
  xmax : Nan
  ids : Bool

/-- `yy >= y`. -/
def geB (y : ℝ) : Nan → Prop
  | some v => v ≥ y
  | none => False

open Classical in
/-- The limits do not bracket a solution (`mp1.py:1210`). -/
noncomputable def unbracketedB (e : BIn) (a b : Nan × Nan) : Bool :=
  decide (geB e.y a.1 ↔ geB e.y b.1)

open Classical in
/-- The start for one element (`mp1.py:1186-1235`).  An element with a NaN limit is not bracketed. -/
noncomputable def hinitB (e : BIn) (a b : Nan × Nan) : HSt :=
  match e.xmin, e.xmax with
  | some lo, some hi =>
    ⟨e.ids && !unbracketedB e a b, decide (geB e.y a.1), lo, hi, newtonB e.y (some lo) a,
      newtonB e.y (some hi) b, 1 / 2 * (lo + hi), none⟩
  | _, _ => ⟨false, false, 0, 0, .nan, .nan, 0, none⟩

open Classical in
/-- The update after evaluating at `x` (`mp1.py:1292-1323`). -/
noncomputable def updateB (y ep : ℝ) (s : HSt) (x : ℝ) (v : Nan × Nan) : HSt :=
  let low : Prop := match v.1 with
    | some yy => if s.swap then y < yy else yy ≤ y
    | none => s.swap = true
  let xmin := if low then x else s.xmin
  let xmax := if low then s.xmax else x
  { active := decide (relGt (xmax - xmin) x ep) &&
      (match v.1 with | some yy => decide (relGt (yy - y) y ep) | none => false)
    swap := s.swap
    xmin := xmin
    xmax := xmax
    xa := if low then newtonB y (some x) v else s.xa
    xb := if low then s.xb else newtonB y (some x) v
    xc := 1 / 2 * (xmax + xmin)
    x := some x }

/-- Where a pass evaluates the element, if it is still active (`mp1.py:1258-1290`). -/
noncomputable def askB (s : HSt) : Option Nan := if s.active then some (guess s).toOption else none

/-- One pass for one element, given the evaluation. -/
noncomputable def hstepB (y ep : ℝ) (s : HSt) (v : Nan × Nan) : HSt :=
  match askB s with
  | none => s
  | some none => { s with active := false, x := none }
  | some (some x) => updateB y ep s x v

/-- The loop (`mp1.py:1240-1326`). -/
noncomputable def hloopB (F : Batch) (ep : ℝ) :
    Nat → List (ℝ × HSt) → Except Err (List (ℝ × HSt) × Bool)
  | 0, l => .ok (l, l.any (·.2.active))
  | n + 1, l =>
    if l.any (·.2.active) then do
      let v ← F (l.map (fun e => askB e.2))
      hloopB F ep n (l.mapIdx (fun n e => (e.1, hstepB e.1 ep e.2 (v n))))
    else .ok (l, false)

/-- `_hybrid1` (`mp1.py:1083-1329`). -/
noncomputable def hybridB (F : Batch) (ep : ℝ) (Nmax : Nat) (l : List BIn) :
    Except Err ((Nat → Nan) × Bool) := do
  let a ← F (l.map (fun e => if e.ids then some e.xmin else none))
  let b ← F (l.map (fun e => if e.ids then some e.xmax else none))
  if l.any (·.ids) && (l.mapIdx (fun n e => !e.ids || unbracketedB e (a n) (b n))).all id then
    .error .param
  else do
    let r ← hloopB F ep (Nmax + 1) (l.mapIdx (fun n e => (e.y, hinitB e (a n) (b n))))
    .ok (fun n => (r.1[n]?).bind (·.2.x), r.2)

/-- The value and the isobaric slope of a property, given temperature and density
(`mp1.py:1452-1476`).  Where pressure does not change with density the slope is NaN here. -/
noncomputable def tpSlope (B : Sub) (f : ℝ → ℝ → Q3) (T d : Nan) : Nan × Nan :=
  match T, d with
  | some T, some d =>
    let y := f T d
    let p := B.F.p T d
    (some y.v, (quot (y.vd * p.vT) p.vd).map (fun c => y.vT - c))
  | _, _ => (none, none)

/-- `_tpiter` (`mp1.py:1410-1480`) at pressures `p`, given the inversion `_d` it calls. -/
noncomputable def tpiter (D : List (Option (Nan × Nan)) → Except Err (Nat → Nan)) (B : Sub)
    (f : ℝ → ℝ → Q3) (p : List (Option Nan)) : Batch := fun T => do
  let d ← D (List.zipWith (fun T p => T.bind (fun T => p.map (fun p => (T, p)))) T p)
  .ok (fun n => tpSlope B f ((T[n]?).bind (·.bind id)) (d n))

open Classical in
/-- The temperature limits of an element `(y, p)` that is not saturated, given the saturation
temperature found for it (`mp1.py:2553-2584`).  With NaN for that temperature the code leaves them
uninitialized; here they are NaN. -/
noncomputable def thpLimits (B : Sub) (i : Inv) (y : ℝ) (p Ts : Nan) : Nan × Nan :=
  if betweenP B p then
    match Ts with
    | some Ts =>
      if y > B.inv i Ts (B.dsv Ts) then (some (Ts * (1 + 1e-6)), some B.Thi)
      else (some B.Tlo, some (Ts * (1 - 1e-6)))
    | none => (none, none)
  else (some B.Tlo, some B.Thi)

/-- An element of the iteration. -/
noncomputable def thpIn (B : Sub) (i : Inv) : Option (ℝ × Nan × Nan) → BIn
  | none => ⟨0, none, none, false⟩
  | some (y, p, Ts) => ⟨y, (thpLimits B i y p Ts).1, (thpLimits B i y p Ts).2, true⟩

/-- An inverse property with pressure (`mp1.py:2532-2607`), given the inversion `_d` that `_tpiter`
calls. -/
noncomputable def codeThp (D : List (Option (Nan × Nan)) → Except Err (Nat → Nan)) (B : Sub) (i : Inv)
    (q : List (Option (ℝ × Nan × Nan))) : Except Err ((Nat → Nan) × Bool) :=
  hybridB (tpiter D B (B.invQ i) (q.map (Option.map (fun e => e.2.1)))) 1e-6 50 (q.map (thpIn B i))

/-- The inversions of the code; the warnings are dropped. -/
noncomputable def codeSol (B : Sub) : Sol where
  Ts := fun q => (codeTs B q).map (·.1)
  d := fun q => (codeD B q).map (·.1)
  Tdp := fun q => (codeTdp B q).map (·.1)
  Thp := fun i q => (codeThp (fun q => (codeD B q).map (·.1)) B i q).map (·.1)
  Thd := fun i q => (codeThd B i q).map (·.1)
  dhT := fun i q => (codeDhT B i q).map (·.1)

/-- The result of an inversion, with its warning turned into an exception. -/
def noWarning {α : Type} : Except Err (α × Bool) → Except Err α
  | .ok (f, false) => .ok f
  | .ok (_, true) => .error .exception
  | .error e => .error e

/-- The inversions of the code, with their warnings turned into exceptions: a call that succeeds with
these is one that printed no warning. -/
noncomputable def quietSol (B : Sub) : Sol where
  Ts := fun q => noWarning (codeTs B q)
  d := fun q => noWarning (codeD B q)
  Tdp := fun q => noWarning (codeTdp B q)
  Thp := fun i q => noWarning (codeThp (fun q => noWarning (codeD B q)) B i q)
  Thd := fun i q => noWarning (codeThd B i q)
  dhT := fun i q => noWarning (codeDhT B i q)

end PyroMat.Mp
