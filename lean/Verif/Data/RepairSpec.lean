import Verif.Data.Spec
import Verif.Data.Repair

/-!
# Specification vocabulary for repairing and updating data files
-/

namespace PyroMat.Data.Spec

open PyroMat PyroMat.Data

open Classical in
/-- The paths of the data files that may exist: a directory and a name with extension `.hpd`, in
the order in which they are read. -/
noncomputable def paths (pl : Places) : List String :=
  pl.dirs.flatMap fun d => (pl.names.filter fun n => decide (HasExt n ".hpd")).map fun n => d ++ "/" ++ n

/-- The record in the file at a path, when there is a readable one: it carries the path. -/
def recordAt (fs : Flat) (p : String) : Option Rec :=
  match fs p with
  | some (.json (some i) (some c) (some d) r) => some ⟨i, c, d, r, p⟩
  | _ => none

/-- The readable records, in the order in which they are read. -/
noncomputable def onFile (pl : Places) (fs : Flat) : List Rec := (paths pl).filterMap (recordAt fs)

/-- The names are in ascending order and no two places are the same. -/
structure Tidy (pl : Places) : Prop where
  sorted : pl.names.Pairwise (· ≤ ·)
  distinct : (paths pl).Nodup

/-- `q` is a file of the list, but not the one with index `select`. -/
def NotSelected (select : Int) (files : List String) (q : String) : Prop :=
  ∃ i : Nat, files[i]? = some q ∧ (i : Int) ≠ select

/-- The files `vs` have been suppressed: each is found under its name with `~` appended, and nothing
else has happened. -/
structure Suppressed (vs : String → Prop) (fs fs' : Flat) : Prop where
  gone : ∀ p, vs p → fs' p = none
  kept : ∀ p c, vs p → fs p = some c → fs' (p ++ "~") = some c
  rest : ∀ q, ¬ vs q → (∀ p, vs p → fs p ≠ none → q ≠ p ++ "~") → fs' q = fs q

/-- The files `vs` have been deleted and nothing else has happened. -/
structure Deleted (vs : String → Prop) (fs fs' : Flat) : Prop where
  gone : ∀ p, vs p → fs' p = none
  rest : ∀ q, ¬ vs q → fs' q = fs q

/-- The file for a new entry: the one it names itself, or one named after its identifier in the
directory `dest`. -/
def place (dest : String) (r : Rec) : String :=
  if r.fromfile = "" then dest ++ "/" ++ r.id ++ ".hpd" else r.fromfile

/-- The file an entry belongs in: the first one that carries its identifier, or else the file for
a new entry. -/
noncomputable def home (pl : Places) (fs : Flat) (dest : String) (r : Rec) : String :=
  match (withId r.id (onFile pl fs)).head? with
  | some f => f.fromfile
  | none => place dest r

/-- The directory for new entries: the one given, or else the first data directory; with or without
a slash at the end. -/
def NewIn (u : Update) (dest : String) : Prop :=
  dest ≠ "" ∧ dest.toList.getLast? ≠ some '/' ∧
    (u.dest.or u.places.dirs.head? = some dest ∨ u.dest.or u.places.dirs.head? = some (dest ++ "/"))

/-- New entries can be written without harm: each has a data file of its own that no readable
record occupies. -/
structure Room (pl : Places) (fs : Flat) (dest : String) (data : Coll) : Prop where
  free : ∀ k r, data.lookup k = some r → withId k (onFile pl fs) = [] →
    place dest r ∈ paths pl ∧ recordAt fs (place dest r) = none
  own : ∀ k r k' r', data.lookup k = some r → data.lookup k' = some r' →
    withId k (onFile pl fs) = [] → withId k' (onFile pl fs) = [] → place dest r = place dest r' → k = k'

/-- A collection as `load` and `new` build it: distinct keys, each the identifier of its record. -/
structure Keyed (data : Coll) : Prop where
  distinct : (data.map Prod.fst).Nodup
  own : ∀ k r, data.lookup k = some r → r.id = k

/-- What a record says, wherever it comes from. -/
def Rec.says (r : Rec) : String × String × String × Payload := (r.id, r.cls, r.doc, r.rest)

end PyroMat.Data.Spec
