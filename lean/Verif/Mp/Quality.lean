import Verif.Mp.Methods

/-!
# The keyword `quality` and the deprecated inversions (`/repo/src/pyromat/registry/mp1.py`)

Every property method but `x` takes the keyword `quality`; when it is true the method returns its
property together with the quality.
-/

set_option linter.unusedVariables false

namespace PyroMat.Mp

open PyroMat PyroMat.Units PyroMat.Gas PyroMat.Config.Defaults

/-- What a method returns: the property, and the quality if the result is a pair. -/
structure Ret (α : Type) where
  val : α
  quality : Option (List Nan)

/-- `if quality: return val, x` and otherwise `return val`, the last lines of the methods. -/
def give {α : Type} (quality : Bool) (val : α) (x : List Nan) : Except Err (Ret α) :=
  if quality then .ok ⟨val, some x⟩ else .ok ⟨val, none⟩

section
variable (E : Env) (B : Sub) (S : Sol) (varg : List (Val ℝ)) (kw : Kw) (quality : Bool)

/-- `T(..., quality)` (`mp1.py:3678-3712`). -/
noncomputable def mpTq : Except Err (Ret (List Nan)) := do
  let r ← mpArgparse E B S varg kw
  let T ← convOut (outTemperature E) (r.pts.map (·.T))
  give quality T (r.pts.map (·.x))

/-- `p(..., quality)` (`mp1.py:3568-3605`). -/
noncomputable def mpPq : Except Err (Ret (List Nan)) := do
  let r ← mpArgparse E B S varg kw
  let p ← convOut (outPressure E) (r.pts.map (fun q => Pt.at (fun T d => (B.F.p T d).v) q.T q.d2))
  give quality p (r.pts.map (·.x))

/-- `d(..., quality)` (`mp1.py:3608-3643`). -/
noncomputable def mpDq : Except Err (Ret (List Nan)) := do
  let r ← mpArgparse E B S varg kw
  let d ← convOut (outDensity E B.mw false) (r.pts.map Pt.density)
  give quality d (r.pts.map (·.x))

/-- `v(..., quality)` (`mp1.py:3647-3676`): `d` is always asked for the quality too. -/
noncomputable def mpVq : Except Err (Ret (List Nan)) := do
  let d ← mpDq E B S varg kw true
  match d.quality with
  | some x => give quality (d.val.map (Option.map (fun x => 1 / x))) x
  | none => .error .value

/-- `e(..., quality)` (`mp1.py:3903-3940`). -/
noncomputable def mpEq : Except Err (Ret (List Nan)) := do
  let r ← mpArgparse E B S varg kw
  let y ← convOut (outEnergy E B.mw true) (r.pts.map (Pt.mix (fun T d => (B.F.e T d).v)))
  give quality y (r.pts.map (·.x))

/-- `f(..., quality)` (`mp1.py:3942-3979`). -/
noncomputable def mpFq : Except Err (Ret (List Nan)) := do
  let r ← mpArgparse E B S varg kw
  let y ← convOut (outEnergy E B.mw true) (r.pts.map (Pt.mix (fun T d => (B.F.f T d).v)))
  give quality y (r.pts.map (·.x))

/-- `g(..., quality)` (`mp1.py:3981-4018`). -/
noncomputable def mpGq : Except Err (Ret (List Nan)) := do
  let r ← mpArgparse E B S varg kw
  let y ← convOut (outEnergy E B.mw true) (r.pts.map (Pt.mix (fun T d => (B.F.g T d).v)))
  give quality y (r.pts.map (·.x))

/-- `h(..., quality)` (`mp1.py:4020-4057`). -/
noncomputable def mpHq : Except Err (Ret (List Nan)) := do
  let r ← mpArgparse E B S varg kw
  let y ← convOut (outEnergy E B.mw true) (r.pts.map (Pt.mix (fun T d => (B.F.h T d).v)))
  give quality y (r.pts.map (·.x))

/-- `s(..., quality)` (`mp1.py:4060-4100`). -/
noncomputable def mpSq : Except Err (Ret (List Nan)) := do
  let r ← mpArgparse E B S varg kw
  let y ← convOut (outEntropy E B.mw true) (r.pts.map (Pt.mix (fun T d => (B.F.s T d).v)))
  give quality y (r.pts.map (·.x))

/-- `a(..., quality)` (`mp1.py:4103-4144`). -/
noncomputable def mpAq : Except Err (Ret (List Nan)) := do
  let r ← mpArgparse E B S varg kw
  let y ← convOut (outSpeed E) (r.pts.map (fun q => if q.I then none else Pt.at B.F.a q.T q.d1))
  give quality y (r.pts.map (·.x))

/-- `cp(..., quality)` (`mp1.py:4248-4291`). -/
noncomputable def mpCpq : Except Err (Ret (List Cand)) := do
  let r ← mpArgparse E B S varg kw
  let c ← convOut (outEntropy E B.mw true) (r.pts.map (fun q => Pt.at B.F.cp q.T q.d1))
  give quality (List.zipWith (fun (q : Pt) c => if q.I then .pinf else Cand.ofNan c) r.pts c)
    (r.pts.map (·.x))

/-- `cv(..., quality)` (`mp1.py:4294-4353`). -/
noncomputable def mpCvq : Except Err (Ret (List Nan)) := do
  let r ← mpArgparse E B S varg kw
  if r.pts.any (·.I) && !r.pts.all (·.I) then .error .value
  else do
    let c ← convOut (outEntropy E B.mw true) (r.pts.map (Pt.cv B))
    give quality c (r.pts.map (·.x))

/-- `gam(..., quality)` (`mp1.py:4356-4391`). -/
noncomputable def mpGamq : Except Err (Ret (List Cand)) := do
  let r ← mpArgparse E B S varg kw
  give quality (r.pts.map (fun q =>
    if q.I then infOver (Pt.at B.F.cv q.T q.d1)
    else Cand.ofNan (nan2 (fun a b => a / b) (Pt.at B.F.cp q.T q.d1) (Pt.at B.F.cv q.T q.d1))))
    (r.pts.map (·.x))

end

section
variable (E : Env) (B : Sub) (S : Sol)

/-- `T_s(s, p=None, d=None, quality=False)` and `T_h(h, ...)` (`mp1.py:4394-4415`, `4437-4459`): without
`p` and `d` neither the unit of `config['def_p']` nor `quality` is passed on (`mp1.py:4414-4415`,
`4457-4458`). -/
noncomputable def mpT_invq (name : String) (y : Val ℝ) (p d : Option (Val ℝ)) (quality : Bool) :
    Except Err (Ret (List Nan)) :=
  match p, d with
  | some p, _ => mpTq E B S [] [(name, y), ("p", p)] quality
  | none, some d => mpTq E B S [] [(name, y), ("d", d)] quality
  | none, none => mpTq E B S [] [(name, y), ("p", .scalar E.c.defp)] false

/-- `d_s(s, T=None, quality=False)` (`mp1.py:4418-4433`). -/
noncomputable def mpD_sq (s : Val ℝ) (T : Option (Val ℝ)) (quality : Bool) : Except Err (Ret (List Nan)) :=
  match T with
  | some T => mpDq E B S [] [("s", s), ("T", T)] quality
  | none => mpDq E B S [] [("s", s)] quality

end

end PyroMat.Mp
