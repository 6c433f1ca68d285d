import Verif.Gas.Spec
import Verif.Gas.Mix

/-!
# Specification vocabulary for ideal-gas mixtures
-/

namespace PyroMat.Gas.Spec

open PyroMat PyroMat.Units PyroMat.Units.Spec PyroMat.Units.Props PyroMat.Gas PyroMat.Gas.Mix

/-- One constituent of a mixture: its name, the listed amount, and the gas of that name. -/
structure Comp where
  name : String
  qty : ℝ
  gas : Gas

/-- Amount of substance of a constituent; amounts are listed by mass or by mole. -/
noncomputable def moles (bymass : Bool) (c : Comp) : ℝ := if bymass then c.qty / c.gas.mw else c.qty

/-- Its mass. -/
noncomputable def grams (bymass : Bool) (c : Comp) : ℝ := if bymass then c.qty else c.qty * c.gas.mw

/-- Mole fraction and mass fraction of a constituent. -/
noncomputable def moleFrac (bymass : Bool) (cs : List Comp) (c : Comp) : ℝ :=
  moles bymass c / (cs.map (moles bymass)).sum
noncomputable def massFrac (bymass : Bool) (cs : List Comp) (c : Comp) : ℝ :=
  grams bymass c / (cs.map (grams bymass)).sum

/-- The mixture entry `D` lists the constituents `cs`, all in the collection, in positive amounts. -/
structure Sound (coll : Coll) (D : Entry) (cs : List Comp) : Prop where
  listed : D.contents = cs.map (fun c => (c.name, c.qty))
  distinct : (cs.map (·.name)).Nodup
  nonempty : cs ≠ []
  found : ∀ c ∈ cs, ∃ as, coll c.name = some (.gas c.gas as)
  qty : ∀ c ∈ cs, 0 < c.qty
  mw : ∀ c ∈ cs, 0 < c.gas.mw
  pref : ∀ c ∈ cs, 0 < c.gas.pref

/-- The same with amounts that may be zero, but not all. -/
structure Listed (coll : Coll) (D : Entry) (cs : List Comp) : Prop where
  listed : D.contents = cs.map (fun c => (c.name, c.qty))
  found : ∀ c ∈ cs, ∃ as, coll c.name = some (.gas c.gas as)
  qty : ∀ c ∈ cs, 0 ≤ c.qty
  positive : ∃ c ∈ cs, 0 < c.qty
  mw : ∀ c ∈ cs, 0 < c.gas.mw

/-- The states of a mixture object: new, or after any sequence of method calls. -/
inductive Used (coll : Coll) (D : Entry) : Obj → Prop
  | new : Used coll D {}
  | call (o : Obj) (α : Type) (u : Bool) (f : Gas → Except Err α) : Used coll D o → Used coll D (call coll D o u f).2
  | X (o : Obj) : Used coll D o → Used coll D (mX coll D o).2
  | Y (o : Obj) : Used coll D o → Used coll D (mY coll D o).2
  | atoms (o : Obj) : Used coll D o → Used coll D (mAtoms coll D o).2

/-- `M` is what the mixture behaves like: on the object in any state, every property method gives
what it gives for `M`. -/
def IsMixture (coll : Coll) (D : Entry) (M : Gas) : Prop :=
  ∀ o, Used coll D o → ∀ (α : Type) (u : Bool) (f : Gas → Except Err α), (call coll D o u f).1 = some (f M)

/-- The weight of a constituent in a mean of specific properties: its mass fraction when the
working unit of matter is a mass, its mole fraction otherwise. -/
noncomputable def weight (a : SetupArgs ℝ) (S : Sys) (bymass : Bool) (cs : List Comp) (c : Comp) : ℝ :=
  if (mass a).contains S.m then massFrac bymass cs c else moleFrac bymass cs c

end PyroMat.Gas.Spec
