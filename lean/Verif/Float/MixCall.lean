import Verif.Float.Mix

/-!
# Model of the property methods of ideal-gas mixtures with rounded arithmetic

`cp`, `cv`, `h`, `e`, `s`, `g` and `f` of `/repo/src/pyromat/registry/igmix.py`, called with one temperature and one pressure.
Exponentials are rounded by a function `ex` that is given beside the `Arith`.
-/

namespace PyroMat.Float

open PyroMat PyroMat.Units PyroMat.Gas

/-- `self._pref_pa += np.log(spec_pref) * spec_x`, then `np.exp(self._pref_pa / total_x)` (`igmix.py:115`, `152`, `159`). -/
noncomputable def prefF (A : Arith) (ex : ℝ → ℝ) (bymass : Bool) (ps : List Part) : ℝ :=
  ex (A.div (totalF A (fun p => A.mul (A.log (p.forms.pref.eval A)) (molesF A bymass p)) ps)
    (totalF A (molesF A bymass) ps))

/-- The methods treated here. -/
inductive MC
  | cp | cv | h | e | s | g | f

/-- What a method computes before the conversion, from the temperature in K and the pressure in Pa: `cp`
(`igmix.py:887`), `cv` (`igmix.py:921`), `h` (`igmix.py:953`), `e` (`igmix.py:1016`), `s` (`igmix.py:1113`), `g`
(`igmix.py:987`) and `f` (`igmix.py:1049`). -/
noncomputable def mixInner (A : Arith) (ex : ℝ → ℝ) (bymass : Bool) (ps : List Part) (q : MC) (T p : ℝ) : Nan :=
  let Ru := RuE.eval A
  let L := A.log (A.div p (prefF A ex bymass ps))
  match q with
  | .cp => mixF A bymass ps .cp T
  | .cv => (mixF A bymass ps .cp T).map fun y => A.sub y Ru
  | .h => mixF A bymass ps .h T
  | .e => mixF A bymass ps .e T
  | .s => (mixF A bymass ps .s T).map fun y => A.sub y (A.mul Ru L)
  | .g => (mixF A bymass ps .g T).map fun y => A.add y (A.mul (A.mul T Ru) L)
  | .f => (mixF A bymass ps .f T).map fun y => A.add y (A.mul (A.mul T Ru) L)

/-- The conversion to the units of the user, in place: `energy`, then `matter` with exponent -1, and for `cp`, `cv` and
`s` `temperature` with exponent -1 (`igmix.py:890-892`, `924-926`, `955-956`, `990-991`, `1018-1019`, `1051-1052`, `1114-1116`). -/
noncomputable def mixOut (A : Arith) (E : Env) (mw : ℝ) (q : MC) (y : ℝ) : Except Err ℝ := do
  let y ← scalarOf (callF A (energyT.build A) E.c.str (.scalar y) (some "kJ") none none true)
  let y ← scalarOf (matterF A E.a E.c.str (.scalar y) mw (some "kmol") none (some (-1)) true)
  match q with
  | .cp | .cv | .s => scalarOf (callF A (temperatureT.build A) E.c.str (.scalar y) (some "K") none (some (-1)) true)
  | .h | .e | .g | .f => .ok y

open Classical in
/-- A method called with one temperature and one pressure (`igmix.py:174-398` for the arguments: `temperature_scale` to K,
`pressure` to Pa, the test against the limits).  Simplification: the limits of the mixture are the largest lower and the
smallest upper limit of the constituents (`igmix.py:153-154`), so comparing with them is comparing with each.  A NaN
stays a NaN. -/
noncomputable def mixMethodF (A : Arith) (ex : ℝ → ℝ) (E : Env) (bymass : Bool) (ps : List Part) (q : MC) (t p : ℝ) :
    Except Err Nan := do
  let T ← scalarOf (temperatureScaleF A E.c.str (.scalar t) none (some "K") false)
  let p ← scalarOf (callF A ((pressureT E.a).build A) E.c.str (.scalar p) none (some "Pa") none false)
  if ∃ c ∈ ps, T < A.lit (c.data.Tlim.headD 0) ∨ A.lit (c.data.Tlim.getLastD 0) < T then .error .param
  else
    match mixInner A ex bymass ps q T p with
    | none => .ok none
    | some y => do
      let z ← mixOut A E (mwF A bymass ps) q y
      .ok (some z)

end PyroMat.Float
