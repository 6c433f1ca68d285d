import Verif.Float.Gas
import Verif.Gas.Mix

/-!
# Model of ideal-gas mixtures with rounded arithmetic

The fractions, the molecular weight and the inner routines of `/repo/src/pyromat/registry/igmix.py` once more (see
`Verif/Gas/Mix.lean`), each arithmetic operation of the code being one operation of an `Arith`, for mixtures whose
constituents are all in the collection, and for one temperature.
-/

namespace PyroMat.Float

open PyroMat PyroMat.Units PyroMat.Gas

/-- A constituent: its amount as the data file of the mixture gives it, its own data and the formulas of its class. -/
structure Part where
  qty : ℝ
  data : Data
  forms : Forms

/-- `spec_x` (`igmix.py:138-143`). -/
noncomputable def molesF (A : Arith) (bymass : Bool) (p : Part) : ℝ :=
  if bymass then A.div (A.lit p.qty) (A.lit p.data.mw) else A.lit p.qty

/-- `spec_y` (`igmix.py:138-142`). -/
noncomputable def massF (A : Arith) (bymass : Bool) (p : Part) : ℝ :=
  if bymass then A.lit p.qty else A.mul (A.lit p.qty) (A.lit p.data.mw)

/-- `total_x += spec_x` over the contents (`igmix.py:110`, `146`), and the same for masses (`igmix.py:111`, `145`). -/
noncomputable def totalF (A : Arith) (f : Part → ℝ) (ps : List Part) : ℝ := ps.foldl (fun t p => A.add t (f p)) 0

/-- A mole fraction, `self._x[ss] /= total_x` (`igmix.py:165`). -/
noncomputable def xF (A : Arith) (bymass : Bool) (ps : List Part) (p : Part) : ℝ :=
  A.div (molesF A bymass p) (totalF A (molesF A bymass) ps)

/-- A mass fraction, `self._y[ss] /= total_y` (`igmix.py:166`). -/
noncomputable def yF (A : Arith) (bymass : Bool) (ps : List Part) (p : Part) : ℝ :=
  A.div (massF A bymass p) (totalF A (massF A bymass) ps)

/-- The molecular weight: `self._mw += spec_mw * spec_x`, then `self._mw /= total_x` (`igmix.py:151`, `157`). -/
noncomputable def mwF (A : Arith) (bymass : Bool) (ps : List Part) : ℝ :=
  A.div (totalF A (fun p => A.mul (A.lit p.data.mw) (molesF A bymass p)) ps) (totalF A (molesF A bymass) ps)

/-- The entropy of mixing: `self._smix -= x * np.log(x)`, then `self._smix *= Ru` (`igmix.py:163-169`). -/
noncomputable def smixF (A : Arith) (bymass : Bool) (ps : List Part) : ℝ :=
  A.mul (ps.foldl (fun s p => A.sub s (A.mul (xF A bymass ps p) (A.log (xF A bymass ps p)))) 0) (RuE.eval A)

/-- A routine of a constituent (`_cp`, `_h`, `_s`, `_g` or `_f`) at one temperature; the limits of its data file are decimals
read as doubles. -/
noncomputable def partF (A : Arith) (form : Forms → Coef → ℝ → Sm) (p : Part) (T : ℝ) : Nan :=
  piecewise (p.data.Tlim.map A.lit) p.data.C (fun C T => (form p.forms C T).eval A) T

/-- `out += x * spec._cp(T)` over the contents, and the same for the other routines (`igmix.py:514`, `539`, `567`,
`595`, `623`). -/
noncomputable def sumF (A : Arith) (bymass : Bool) (ps : List Part) (form : Forms → Coef → ℝ → Sm) (T : ℝ) : Nan :=
  ps.foldl (fun a p => a.bind fun a => (partF A form p T).map fun v => A.add a (A.mul (xF A bymass ps p) v)) (some 0)

/-- `_f` of a constituent: `_g(T) - const_Ru*T` (`ig.py:542-555`, `ig2.py:830-844`). -/
noncomputable def freeForm (F : Forms) (C : Coef) (T : ℝ) : Sm := .sub (F.g C T) (.ex (.mul RuE (.num T)))

/-- The inner routines of a mixture. -/
inductive MQ
  | cp | h | e | s | g | f

/-- `_cp` (`igmix.py:501-516`), `_h` (`igmix.py:602-627`), `_e` (`igmix.py:629-643`), `_s` (`igmix.py:519-544`), `_g`
(`igmix.py:547-572`) and `_f` (`igmix.py:575-600`), the values. -/
noncomputable def mixF (A : Arith) (bymass : Bool) (ps : List Part) (q : MQ) (T : ℝ) : Nan :=
  match q with
  | .cp => sumF A bymass ps Forms.cp T
  | .h => sumF A bymass ps Forms.h T
  | .e => (sumF A bymass ps Forms.h T).map fun h => A.sub h (A.mul (RuE.eval A) T)
  | .s => (sumF A bymass ps Forms.s T).map fun s => A.add s (smixF A bymass ps)
  | .g => (sumF A bymass ps Forms.g T).map fun g => A.sub g (A.mul T (smixF A bymass ps))
  | .f => (sumF A bymass ps freeForm T).map fun f => A.sub f (A.mul T (smixF A bymass ps))

end PyroMat.Float
