import Verif.Igt.SpecThermo
import Verif.Igt.Static
import Verif.Gas.MixSpec

/-!
# Specification vocabulary for the conversion between dynamic and static mixtures
-/

namespace PyroMat.Igt.Spec

open PyroMat PyroMat.Gas PyroMat.Igt PyroMat.Units PyroMat.Units.Spec PyroMat.Gas.Spec
open scoped BigOperators

variable {σ : Type} [DecidableEq σ]

/-- The number of a position when the last axis runs fastest. -/
def number : List Nat → List Nat → Nat
  | _ :: s, k :: i => k * s.prod + number s i
  | _, _ => 0

/-- Every constituent is an ordinary gas which the collection lists under its identifier
(`collection.name`), and no constituent is listed twice in the mixture. -/
structure Collected (L : Lib σ) (coll : Gas.Mix.Coll) (m : Mix σ) : Prop where
  once : m.c.Nodup
  gas : ∀ s ∈ m.c, ∃ as, coll (L.sid s) = some (.gas (L.gas s) as)
  find : ∀ s ∈ m.c, L.find (L.sid s) = some s
  dotted : ∀ s ∈ m.c, '.' ∈ (L.sid s).toList

/-- Mass fraction of a substance at position `i` of a result. -/
noncomputable def massFraction (L : Lib σ) (m : Mix σ) (s : σ) (i : List Nat) : ℝ :=
  amount m s (place m i) * (L.gas s).mw / weigh (fun s => (L.gas s).mw) m (place m i)

/-- The amount of matter at position `i` of a result, in the working unit of matter. -/
noncomputable def matterAt (E : Env) (S : Sys) (L : Lib σ) (m : Mix σ) (i : List Nat) : ℝ :=
  ∑ s ∈ m.c.toFinset, holds E S L m s i

/-- The property methods of a dynamic mixture by name. -/
noncomputable def dynamic (q : Quantity) (E : Env) (L : Lib σ) (m : Mix σ) (varg : List Arr) (kw : KwM) :
    Except Err NArr :=
  match q with
  | .T => iT E L m varg kw
  | .p => iP E L m varg kw
  | .d => iD E L m varg kw
  | .v => iV E L m varg kw
  | .h => iH E L m varg kw
  | .e => iE E L m varg kw
  | .s => iS E L m varg kw
  | .g => iG E L m varg kw
  | .f => iF E L m varg kw
  | .cp => iCp E L m varg kw
  | .cv => iCv E L m varg kw
  | .gam => iGam E L m varg kw

/-- A static mixture lists the substances `subs` under their identifiers in the amounts `a` (by mass or
by mole): ordinary gases of the collection with positive molecular weight, each listed once, amounts
not negative and not all zero. -/
structure Lists (L : Lib σ) (coll : Gas.Mix.Coll) (D : Gas.Mix.Entry) (subs : List σ) (a : σ → ℝ) :
    Prop where
  once : subs.Nodup
  contents : D.contents = subs.map (fun s => (L.sid s, a s))
  gas : ∀ s ∈ subs, ∃ as, coll (L.sid s) = some (.gas (L.gas s) as)
  find : ∀ s ∈ subs, L.find (L.sid s) = some s
  dotted : ∀ s ∈ subs, '.' ∈ (L.sid s).toList
  nonneg : ∀ s ∈ subs, 0 ≤ a s
  positive : ∃ s ∈ subs, 0 < a s
  mw : ∀ s ∈ subs, 0 < (L.gas s).mw

end PyroMat.Igt.Spec
