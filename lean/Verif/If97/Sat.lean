import Verif.If97.Model

/-!
# Steam: the saturation properties

Model of `hs`, `es`, `ds` and `ss` (`/repo/src/pyromat/registry/if97.py:970-1258`).  A `scalar` is a Python
number, an `arr` a one-dimensional numpy array.  The warning above 623.15 K is not modelled.
-/

namespace PyroMat.If97

open PyroMat PyroMat.Mp PyroMat.Units PyroMat.Gas

/-- The four methods. -/
inductive SatQ where
  | h | e | d | s
  deriving DecidableEq

/-- The property a method is about. -/
def SatQ.q : SatQ → Q
  | .h => .h
  | .e => .e
  | .d => .d
  | .s => .s

/-- A Python number. -/
def isNumber : Val ℝ → Bool
  | .scalar _ => true
  | .arr _ => false

section
variable (E : Env) (W : Water)

/-- The temperature argument (`if97.py:1001-1008`, and the same lines of the other methods).  A conversion
between equal units returns its argument, and the comparison of a Python number is a `bool`, which has no
`any`. -/
noncomputable def satT (T : Val ℝ) : Except Err (List ℝ) := do
  let u ← E.c.str "unit_temperature"
  let TT ← (Val.elems T).mapM (toK E)
  if isNumber T ∧ u = "K" then .error .attribute
  else if TT.any (fun t => decide (t < W.Tt)) then .error .param
  else if TT.any (fun t => decide (t > W.Tc)) then .error .param
  else .ok TT

/-- The pressure argument (`if97.py:1010-1017`). -/
noncomputable def satP (p : Val ℝ) : Except Err (List ℝ) := do
  let u ← E.c.str "unit_pressure"
  let pp ← (Val.elems p).mapM (fun p =>
    scalarOf ((Units.pressure E.a).call E.c.str (.scalar p) none (some "bar") none false))
  if isNumber p ∧ u = "bar" then .error .attribute
  else if pp.any (fun p => decide (p < W.pt)) then .error .param
  else if pp.any (fun p => decide (p > W.pc)) then .error .param
  else .ok pp

/-- Temperatures in K and pressures in bar (`if97.py:997-1024`). -/
noncomputable def satState (T p : Option (Val ℝ)) : Except Err (List Nan × List Nan) :=
  match T, p with
  | some T, some p => do
    let TT ← satT E W T
    let pp ← satP E W p
    .ok (TT.map some, pp.map some)
  | some T, none => do
    let TT ← satT E W T
    .ok (TT.map some, TT.map (ps W))
  | none, p => do
    let pp ← satP E W (p.getD (.scalar E.c.defp))
    .ok (pp.map (Ts W), pp.map some)

/-- The factor of the results (`if97.py:1031-1032` h, `1105-1106` e, `1179-1180` d, `1251-1252` s): no
temperature factor for the entropy. -/
noncomputable def SatQ.scale (q : SatQ) : Except Err ℝ :=
  match q with
  | .d => Q.d.scale E W
  | _ => energyScale E W

/-- One element of one phase (`if97.py:1034-1037`, and the same lines of the other methods). -/
noncomputable def satElement (g : ℝ → ℝ → Nat → Except Err Dimless) (q : Q) (a : Nan × Nan) : Except Err Nan :=
  match a with
  | (some T, some p) => (g T p 1).map (fun r => some (q.gibbs W.R T p r))
  | _ => .ok none

/-- `hs`, `es`, `ds`, `ss` without `tp` (`if97.py:970-1258`): liquid, vapour. -/
noncomputable def mSat (q : SatQ) (T p : Option (Val ℝ)) : Except Err (List Nan × List Nan) := do
  let st ← satState E W T p
  let c ← q.scale E W
  let b ← broadcast st.1 st.2
  let L ← (b.1.zip b.2).mapM (satElement W (g1 W) q.q)
  let V ← (b.1.zip b.2).mapM (satElement W (g2 W) q.q)
  .ok (scaleBy c L, scaleBy c V)

/-- The temperatures returned with `tp=True` (`if97.py:1021-1024`, `1038-1039`): the argument itself, or the
saturation temperatures. -/
noncomputable def satOutT (T p : Option (Val ℝ)) : Except Err (List Nan) := do
  let st ← satState E W T p
  match T with
  | some T => .ok ((Val.elems T).map some)
  | none => convNan (fun v => temperatureScale E.c.str v (some "K") none false) st.1

/-- The pressures returned with `tp=True` (`if97.py:1010-1020`). -/
noncomputable def satOutP (T p : Option (Val ℝ)) : Except Err (List Nan) := do
  let st ← satState E W T p
  match T, p with
  | _, some p => .ok ((Val.elems p).map some)
  | none, none => .ok [some E.c.defp]
  | some _, none =>
    convNan (fun v => (Units.pressure E.a).call E.c.str v (some "bar") none none false) st.2

/-- The four methods with `tp=True`: temperature, pressure, liquid, vapour. -/
noncomputable def mSatTp (q : SatQ) (T p : Option (Val ℝ)) :
    Except Err (List Nan × List Nan × List Nan × List Nan) := do
  let t ← satOutT E W T p
  let x ← satOutP E W T p
  let r ← mSat E W q T p
  .ok (t, x, r.1, r.2)

/-- `gam(T,p,x)` (`if97.py:1957`): `cp` and `cv` are looked up as global names, which do not exist. -/
def mGam (_T _p _x : Option (Val ℝ)) : Except Err (List Nan) := .error .name

end

end PyroMat.If97
