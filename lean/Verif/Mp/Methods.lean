import Verif.Mp.State

/-!
# Property methods of the multiphase class

Model of the user routines of `/repo/src/pyromat/registry/mp1.py`.  The optional `quality=True`
returns the array `x` beside the property; it is the `x` of the same `_argparse` call.
-/

namespace PyroMat.Mp

open PyroMat PyroMat.Units PyroMat.Gas

/-- A property of temperature and density at an element, NaN if either is. -/
def Pt.at (f : ℝ → ℝ → ℝ) (T d : Nan) : Nan := nan2 f T d

/-- The mixture value of a property: `y(d1)`, and under the dome `y(d1) (1-x) + y(d2) x`
(`mp1.py:3930-3933`, `3969-3972`, `4008-4011`, `4047-4050`, `4088-4091`). -/
noncomputable def Pt.mix (f : ℝ → ℝ → ℝ) (q : Pt) : Nan :=
  if q.I then
    (Pt.at f q.T q.d1).bind (fun l => (Pt.at f q.T q.d2).bind (fun v =>
      q.x.map (fun x => l * (1 - x) + v * x)))
  else Pt.at f q.T q.d1

/-- The density of an element (`mp1.py:3635-3638`). -/
noncomputable def Pt.density (q : Pt) : Nan :=
  if q.I then
    q.d1.bind (fun l => q.d2.bind (fun v => q.x.map (fun x => 1 / ((1 - x) / l + x / v))))
  else q.d1

/-- Chain of unit conversions of an output array. -/
noncomputable def convOut (fs : List (Val ℝ → Except Err (Res ℝ))) (xs : List Nan) :
    Except Err (List Nan) := fs.foldlM (fun xs f => convNan f xs) xs

section
variable (E : Env) (mw : ℝ)

/-- Energy per matter, from J/kg (`mp1.py:3935-3937`). -/
noncomputable def outEnergy (ip : Bool) : List (Val ℝ → Except Err (Res ℝ)) :=
  [fun v => (energy : Conv ℝ).call E.c.str v (some "J") none none ip,
   fun v => matter E.a E.c.str v mw (some "kg") none (some (-1)) ip]

/-- Energy per matter and temperature, from J/kg/K (`mp1.py:4093-4097`). -/
noncomputable def outEntropy (ip : Bool) : List (Val ℝ → Except Err (Res ℝ)) :=
  outEnergy E mw ip ++
    [fun v => (temperature : Conv ℝ).call E.c.str v (some "K") none (some (-1)) ip]

/-- Matter per volume, from kg/m3 (`mp1.py:3640-3641`). -/
noncomputable def outDensity (ip : Bool) : List (Val ℝ → Except Err (Res ℝ)) :=
  [fun v => matter E.a E.c.str v mw (some "kg") none none ip,
   fun v => (volume : Conv ℝ).call E.c.str v (some "m3") none (some (-1)) ip]

/-- Pressure from Pa (`mp1.py:3601`). -/
noncomputable def outPressure : List (Val ℝ → Except Err (Res ℝ)) :=
  [fun v => (Units.pressure E.a).call E.c.str v (some "Pa") none none false]

/-- Temperature from K (`mp1.py:3709`). -/
noncomputable def outTemperature : List (Val ℝ → Except Err (Res ℝ)) :=
  [fun v => temperatureScale E.c.str v (some "K") none false]

/-- Speed from m/s (`mp1.py:4140-4141`). -/
noncomputable def outSpeed : List (Val ℝ → Except Err (Res ℝ)) :=
  [fun v => (length : Conv ℝ).call E.c.str v (some "m") none none true,
   fun v => (time : Conv ℝ).call E.c.str v (some "s") none (some (-1)) true]

/-- A conversion factor: the chain applied to 1. -/
noncomputable def factor (fs : List (Val ℝ → Except Err (Res ℝ))) : Except Err ℝ :=
  fs.foldlM (fun x f => scalarOf (f (.scalar x))) 1

end

/-! ## Methods of two arguments -/

section
variable (E : Env) (B : Sub) (S : Sol) (varg : List (Val ℝ)) (kw : Kw)

/-- `T(...)` (`mp1.py:3678-3712`). -/
noncomputable def mpT : Except Err (List Nan) := do
  let r ← mpArgparse E B S varg kw
  convOut (outTemperature E) (r.pts.map (·.T))

/-- `x(...)` (`mp1.py:3714-3742`). -/
noncomputable def mpX : Except Err (List Nan) := do
  let r ← mpArgparse E B S varg kw
  .ok (r.pts.map (·.x))

/-- `p(...)` (`mp1.py:3568-3605`): the vapor density is used. -/
noncomputable def mpP : Except Err (List Nan) := do
  let r ← mpArgparse E B S varg kw
  convOut (outPressure E) (r.pts.map (fun q => Pt.at (fun T d => (B.F.p T d).v) q.T q.d2))

/-- `d(...)` (`mp1.py:3608-3643`). -/
noncomputable def mpD : Except Err (List Nan) := do
  let r ← mpArgparse E B S varg kw
  convOut (outDensity E B.mw false) (r.pts.map Pt.density)

/-- `v(...)` (`mp1.py:3647-3676`). -/
noncomputable def mpV : Except Err (List Nan) := do
  let d ← mpD E B S varg kw
  .ok (d.map (Option.map (fun x => 1 / x)))

/-- `e(...)` (`mp1.py:3903-3940`). -/
noncomputable def mpE : Except Err (List Nan) := do
  let r ← mpArgparse E B S varg kw
  convOut (outEnergy E B.mw true) (r.pts.map (Pt.mix (fun T d => (B.F.e T d).v)))

/-- `f(...)` (`mp1.py:3942-3979`). -/
noncomputable def mpF : Except Err (List Nan) := do
  let r ← mpArgparse E B S varg kw
  convOut (outEnergy E B.mw true) (r.pts.map (Pt.mix (fun T d => (B.F.f T d).v)))

/-- `g(...)` (`mp1.py:3981-4018`). -/
noncomputable def mpG : Except Err (List Nan) := do
  let r ← mpArgparse E B S varg kw
  convOut (outEnergy E B.mw true) (r.pts.map (Pt.mix (fun T d => (B.F.g T d).v)))

/-- `h(...)` (`mp1.py:4020-4057`). -/
noncomputable def mpH : Except Err (List Nan) := do
  let r ← mpArgparse E B S varg kw
  convOut (outEnergy E B.mw true) (r.pts.map (Pt.mix (fun T d => (B.F.h T d).v)))

/-- `s(...)` (`mp1.py:4060-4100`). -/
noncomputable def mpS : Except Err (List Nan) := do
  let r ← mpArgparse E B S varg kw
  convOut (outEntropy E B.mw true) (r.pts.map (Pt.mix (fun T d => (B.F.s T d).v)))

/-- `a(...)` (`mp1.py:4103-4144`): NaN under the dome. -/
noncomputable def mpA : Except Err (List Nan) := do
  let r ← mpArgparse E B S varg kw
  convOut (outSpeed E) (r.pts.map (fun q => if q.I then none else Pt.at B.F.a q.T q.d1))

/-- A number that may be NaN as a floating number. -/
def Cand.ofNan : Nan → Cand
  | some x => .fin x
  | none => .nan

/-- `cp(...)` (`mp1.py:4248-4291`): infinite under the dome (unit factors are positive, so infinity
stays infinity). -/
noncomputable def mpCp : Except Err (List Cand) := do
  let r ← mpArgparse E B S varg kw
  let c ← convOut (outEntropy E B.mw true) (r.pts.map (fun q => Pt.at B.F.cp q.T q.d1))
  .ok (List.zipWith (fun (q : Pt) c => if q.I then .pinf else Cand.ofNan c) r.pts c)

/-- The heat capacity of a saturated mixture (`mp1.py:4333-4343`). -/
noncomputable def satCv (B : Sub) (T d1 d2 x : ℝ) : ℝ :=
  let dVT := B.dsvT T
  let dLT := B.dslT T
  let temp := d1 / d2
  let xT := (dLT / d1 * (1 - x) + temp * dVT / d2 * x) / (temp - 1)
  let eL := B.F.e T d1
  let eV := B.F.e T d2
  (eL.vT + eL.vd * dLT) * (1 - x) + (eV.vT + eV.vd * dVT) * x + (eV.v - eL.v) * xT

/-- The heat capacity of an element. -/
noncomputable def Pt.cv (B : Sub) (q : Pt) : Nan :=
  if q.I then
    q.T.bind (fun T => q.d1.bind (fun d1 => q.d2.bind (fun d2 => q.x.map (satCv B T d1 d2))))
  else Pt.at B.F.cv q.T q.d1

/-- `cv(...)` (`mp1.py:4294-4353`).  `x` is not down-selected like the other arrays
(`mp1.py:4337`, `4343`), so NumPy raises `ValueError` when some but not all elements are
saturated. -/
noncomputable def mpCv : Except Err (List Nan) := do
  let r ← mpArgparse E B S varg kw
  if r.pts.any (·.I) && !r.pts.all (·.I) then .error .value
  else convOut (outEntropy E B.mw true) (r.pts.map (Pt.cv B))

open Classical in
/-- `inf / cv`. -/
noncomputable def infOver : Nan → Cand
  | none => .nan
  | some c => if c < 0 then .ninf else .pinf

/-- `gam(...)` (`mp1.py:4356-4391`): infinite under the dome.  Off the dome a `cv` of 0 gives 0 here, in
Python infinity or NaN. -/
noncomputable def mpGam : Except Err (List Cand) := do
  let r ← mpArgparse E B S varg kw
  .ok (r.pts.map (fun q =>
    if q.I then infOver (Pt.at B.F.cv q.T q.d1)
    else Cand.ofNan (nan2 (fun a b => a / b) (Pt.at B.F.cp q.T q.d1) (Pt.at B.F.cv q.T q.d1))))

/-- The dictionary returned by `state(...)`. -/
structure MState where
  T : List Nan
  p : List Nan
  d : List Nan
  v : List Nan
  x : List Nan
  e : List Nan
  f : List Nan
  g : List Nan
  h : List Nan
  s : List Nan
  cp : List Cand
  cv : List Nan
  gam : List Cand

/-- The mixture value as `state` forms it: the vapor value times `x` plus the liquid value times
`1-x` under the dome, and the value at `d2` elsewhere (`mp1.py:3872-3874`). -/
noncomputable def Pt.mix' (f : ℝ → ℝ → ℝ) (q : Pt) : Nan :=
  if q.I then
    (Pt.at f q.T q.d2).bind (fun v => (Pt.at f q.T q.d1).bind (fun l =>
      q.x.map (fun x => v * x + l * (1 - x))))
  else Pt.at f q.T q.d2

/-- `state(...)` (`mp1.py:3748-3900`).  The formulas written out in it (`mp1.py:3785-3866`) are those
of `_p`, `_e`, `_h`, `_s`, `_cp`, `_cv`. -/
noncomputable def mpState : Except Err MState := do
  let r ← mpArgparse E B S varg kw
  let e := r.pts.map (Pt.mix' (fun T d => (B.F.e T d).v))
  let h := r.pts.map (Pt.mix' (fun T d => (B.F.h T d).v))
  let s := r.pts.map (Pt.mix' (fun T d => (B.F.s T d).v))
  let T := r.pts.map (·.T)
  let f := List.zipWith (nan2 (fun e Ts => e - Ts)) e (List.zipWith (nan2 (fun T s => T * s)) T s)
  let g := List.zipWith (nan2 (fun f h => f + h)) (List.zipWith (nan2 (fun f e => f - e)) f e) h
  let c1 ← factor (outEnergy E B.mw false)
  let c2 ← scalarOf ((temperature : Conv ℝ).call E.c.str (.scalar c1) (some "K") none (some (-1)) false)
  let cp := scaleBy c2 (r.pts.map (fun q => Pt.at B.F.cp q.T q.d2))
  let cv := scaleBy c2 (r.pts.map (fun q => if q.I then none else Pt.at B.F.cv q.T q.d2))
  let p ← convOut (outPressure E) (r.pts.map (fun q => Pt.at (fun T d => (B.F.p T d).v) q.T q.d2))
  let oT ← convOut (outTemperature E) T
  let c3 ← scalarOf ((volume : Conv ℝ).call E.c.str (.scalar 1) (some "m3") none (some (-1)) false)
  let c3 ← scalarOf (matter E.a E.c.str (.scalar c3) B.mw (some "kg") none none false)
  let d := scaleBy c3 (r.pts.map Pt.density)
  .ok { T := oT, p := p, d := d, v := d.map (Option.map (fun x => 1 / x)), x := r.pts.map (·.x)
        e := scaleBy c1 e, f := scaleBy c1 f, g := scaleBy c1 g, h := scaleBy c1 h
        s := scaleBy c2 s
        cp := List.zipWith (fun (q : Pt) c => if q.I then .pinf else Cand.ofNan c) r.pts cp
        cv := cv
        gam := List.zipWith (fun (q : Pt) c => if q.I then .pinf else Cand.ofNan c) r.pts
          (List.zipWith (nan2 (fun a b => a / b)) cp cv) }

/-- `hsd(...)` (`mp1.py:4147-4245`).  The conversion of `h` and `s` takes matter and temperature
without `exponent=-1` (`mp1.py:4235-4239`). -/
noncomputable def mpHsd : Except Err (List Nan × List Nan × List Nan) := do
  let r ← mpArgparse E B S varg kw
  let c ← scalarOf ((energy : Conv ℝ).call E.c.str (.scalar 1) (some "J") none none false)
  let c ← scalarOf (matter E.a E.c.str (.scalar c) B.mw (some "kg") none none false)
  let h := scaleBy c (r.pts.map (Pt.mix (fun T d => (B.F.h T d).v)))
  let c ← scalarOf ((temperature : Conv ℝ).call E.c.str (.scalar c) (some "K") none none false)
  let s := scaleBy c (r.pts.map (Pt.mix (fun T d => (B.F.s T d).v)))
  let d ← convOut (outDensity E B.mw true) (r.pts.map Pt.density)
  .ok (h, s, d)

/-- `T_s(s, p=None, d=None)` and `T_h(h, p=None, d=None)` (`mp1.py:4394-4415`, `4437-4459`): without
`p` and `d` the raw stored number `config['def_p']` is used. -/
noncomputable def mpT_inv (name : String) (y : Val ℝ) (p d : Option (Val ℝ)) : Except Err (List Nan) :=
  match p, d with
  | some p, _ => mpT E B S [] [(name, y), ("p", p)]
  | none, some d => mpT E B S [] [(name, y), ("d", d)]
  | none, none => mpT E B S [] [(name, y), ("p", .scalar E.c.defp)]

/-- `d_s(s, T=None)` (`mp1.py:4418-4433`). -/
noncomputable def mpD_s (s : Val ℝ) (T : Option (Val ℝ)) : Except Err (List Nan) :=
  match T with
  | some T => mpD E B S [] [("s", s), ("T", T)]
  | none => mpD E B S [] [("s", s)]

end

/-! ## Saturation properties -/

section
variable (E : Env) (B : Sub) (S : Sol)

open Classical in
/-- `ps(T)` (`mp1.py:3386-3415`). -/
noncomputable def satPs (T : Option (Val ℝ)) : Except Err (List Nan) := do
  let T ← match T with
    | some T => .ok T
    | none => retOf (Config.Defaults.defT E.c)
  let a ← convArg T (mpConversions E B.mw "T")
  if a.xs.any (fun T => decide (T < B.Tt ∨ T > B.Tc)) then .error .param
  else convOut (outPressure E) (a.xs.map (fun T => some (B.ps T)))

open Classical in
/-- `Ts(p)` (`mp1.py:3418-3447`). -/
noncomputable def satTs (p : Option (Val ℝ)) : Except Err (List Nan) := do
  let p ← match p with
    | some p => .ok p
    | none => retOf (Config.Defaults.defp E.a E.c)
  let a ← convArg p (mpConversions E B.mw "p")
  if a.xs.any (fun p => decide (p < B.pt ∨ p > B.pc)) then .error .param
  else do
    let Ts ← S.Ts (a.xs.map (fun p => some (some p)))
    convOut (outTemperature E) (a.xs.mapIdx (fun n _ => Ts n))

/-- `ds(...)` (`mp1.py:3450-3469`). -/
noncomputable def satDs (T p : Option (Val ℝ)) : Except Err (List Nan × List Nan) := do
  let r ← satArgparse E B S T p
  let c ← factor (outDensity E B.mw false)
  .ok (scaleBy c (r.map (·.2.1)), scaleBy c (r.map (·.2.2)))

/-- `vs(...)` (`mp1.py:3471-3485`). -/
noncomputable def satVs (T p : Option (Val ℝ)) : Except Err (List Nan × List Nan) := do
  let r ← satDs E B S T p
  .ok (r.1.map (Option.map (fun x => 1 / x)), r.2.map (Option.map (fun x => 1 / x)))

/-- The common text of `es`, `hs`, `ss` (`mp1.py:3487-3561`). -/
noncomputable def satOf (f : ℝ → ℝ → ℝ) (c : Except Err ℝ) (T p : Option (Val ℝ)) :
    Except Err (List Nan × List Nan) := do
  let r ← satArgparse E B S T p
  let c ← c
  .ok (scaleBy c (r.map (fun q => Pt.at f q.1 q.2.1)), scaleBy c (r.map (fun q => Pt.at f q.1 q.2.2)))

/-- `es(...)` (`mp1.py:3487-3510`). -/
noncomputable def satEs (T p : Option (Val ℝ)) : Except Err (List Nan × List Nan) :=
  satOf E B S (fun T d => (B.F.e T d).v) (factor (outEnergy E B.mw false)) T p

/-- `hs(...)` (`mp1.py:3512-3535`). -/
noncomputable def satHs (T p : Option (Val ℝ)) : Except Err (List Nan × List Nan) :=
  satOf E B S (fun T d => (B.F.h T d).v) (factor (outEnergy E B.mw false)) T p

/-- `ss(...)` (`mp1.py:3537-3561`). -/
noncomputable def satSs (T p : Option (Val ℝ)) : Except Err (List Nan × List Nan) :=
  satOf E B S (fun T d => (B.F.s T d).v) (factor (outEntropy E B.mw false)) T p

end

end PyroMat.Mp
