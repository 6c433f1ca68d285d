import Verif.Data.RepairSpec
import Verif.Data.Crash

/-!
# Specification vocabulary for interrupted updates
-/

namespace PyroMat.Data.Spec

open PyroMat PyroMat.Data

/-- The file at `p` holds a record whose identifier is not in the collection, or is read from an
earlier file. -/
def Obsolete (pl : Places) (data : Coll) (fs : Flat) (p : String) : Prop :=
  ∃ f ∈ onFile pl fs, f.fromfile = p ∧
    (data.lookup f.id = none ∨ (withId f.id (onFile pl fs)).head? ≠ some f)

/-- The entry `r` of the collection is not what its identifier is read as. -/
def Unsaved (pl : Places) (data : Coll) (fs : Flat) (r : Rec) : Prop :=
  data.lookup r.id = some r ∧ (withId r.id (onFile pl fs)).head? ≠ some r

/-- Each entry of the collection has a data file of its own - the one it was read from, or the one
a new entry will be put in - that holds no other entry. -/
structure Apart (pl : Places) (fs : Flat) (dest : String) (data : Coll) : Prop where
  free : ∀ k r, data.lookup k = some r → place dest r ∈ paths pl ∧
    ∀ x, recordAt fs (place dest r) = some x → x.id = k
  own : ∀ k r k' r', data.lookup k = some r → data.lookup k' = some r' → place dest r = place dest r' → k = k'

end PyroMat.Data.Spec
