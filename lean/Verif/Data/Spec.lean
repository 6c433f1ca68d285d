import Verif.Data.Model

/-!
# Specification vocabulary for data loading
-/

namespace PyroMat.Data.Spec

open PyroMat PyroMat.Data

/-- A name is a stem (at least one character) followed by an extension. -/
def HasExt (name ext : String) : Prop := ∃ stem : String, stem ≠ "" ∧ name = stem ++ ext

/-- What a traversal meets: a file to be read, or a suppressed file. -/
inductive Visit where
  | file (path : String) (c : Content)
  | sup (path : String)

open Classical in
mutual
/-- Depth-first traversal, names in ascending order: sub-directories are entered when recursion
is on, files with extension `.hpd` are read, files with extension `.hpd~` are suppressed.
(A *directory* named `x.hpd` is entered even without recursion.) -/
noncomputable def visits (recursive : Bool) (path : String) : Node → List Visit
  | .file c => [.file path c]
  | .dir entries => (sortNames (visitEntries recursive path entries)).flatMap Prod.snd
/-- The visits below each entry, tagged with the entry's name. -/
noncomputable def visitEntries (recursive : Bool) (path : String) :
    List (String × Node) → List (String × List Visit)
  | [] => []
  | (name, n) :: rest =>
    (name,
      if (recursive = true ∧ n.isDir = true) ∨ HasExt name ".hpd" then
        visits recursive (path ++ "/" ++ name) n
      else if HasExt name ".hpd~" then [.sup (path ++ "/" ++ name)]
      else []) :: visitEntries recursive path rest
end

/-- Everything visited below the configured directories, in order. -/
noncomputable def allVisits (recursive : Bool) (fs : Resolve) (dirs : List String) : List Visit :=
  dirs.flatMap fun d =>
    match fs d with
    | none => []
    | some n => visits recursive d n

/-- The record in a readable file: JSON with `id`, `class` and `doc`. -/
def Visit.record? : Visit → Option Rec
  | .file path (.json (some i) (some c) (some d) r) => some ⟨i, c, d, r, path⟩
  | _ => none

/-- The readable records in order of visit. -/
def records (vs : List Visit) : List Rec := vs.filterMap Visit.record?

/-- Those carrying identifier `k`. -/
def withId (k : String) (rs : List Rec) : List Rec := rs.filter (fun r => r.id = k)

/-- The record that must be in memory under an identifier, given the one there before and the
records loaded for it in order. -/
def winner (overwrite : Bool) (old : Option Rec) (rs : List Rec) : Option Rec :=
  if overwrite then rs.getLast?.or old else old.or rs.head?

/-- The paths of unreadable files. -/
def unreadable (vs : List Visit) : List String :=
  vs.filterMap fun v => match v with
    | .file p c => if (Visit.record? (.file p c)).isSome then none else some p
    | .sup _ => none

/-- The paths of suppressed files. -/
def suppressedIn (vs : List Visit) : List String :=
  vs.filterMap fun v => match v with
    | .file _ _ => none
    | .sup p => some p

/-- The record can be turned into a substance object: its class is registered and the
constructor does not raise. -/
def Loadable (reg : Registry) (r : Rec) : Prop := ∃ mk, reg r.cls = some mk ∧ mk r = none

/-- Two trees that differ only in the order in which the operating system lists directories. -/
inductive ListingEq : Node → Node → Prop where
  | refl (n) : ListingEq n n
  | trans {a b c} : ListingEq a b → ListingEq b c → ListingEq a c
  | perm {es es' : List (String × Node)} : (es.map Prod.fst).Nodup → es.Perm es' →
      ListingEq (.dir es) (.dir es')
  | child {es1 es2 name n n'} : ListingEq n n' →
      ListingEq (.dir (es1 ++ (name, n) :: es2)) (.dir (es1 ++ (name, n') :: es2))

/-- Two trees that differ only in what is inside suppressed files. -/
inductive SuppressedEq : Node → Node → Prop where
  | refl (n) : SuppressedEq n n
  | trans {a b c} : SuppressedEq a b → SuppressedEq b c → SuppressedEq a c
  | content {es1 es2 name c c'} : HasExt name ".hpd~" →
      SuppressedEq (.dir (es1 ++ (name, .file c) :: es2)) (.dir (es1 ++ (name, .file c') :: es2))
  | child {es1 es2 name n n'} : SuppressedEq n n' →
      SuppressedEq (.dir (es1 ++ (name, n) :: es2)) (.dir (es1 ++ (name, n') :: es2))

/-- Two trees that differ only in what is below ordinary sub-directories (those whose name does not
look like a data file). -/
inductive SubdirEq : Node → Node → Prop where
  | refl (n) : SubdirEq n n
  | trans {a b c} : SubdirEq a b → SubdirEq b c → SubdirEq a c
  | inside {es1 es2 name es es'} : ¬ HasExt name ".hpd" → ¬ HasExt name ".hpd~" →
      SubdirEq (.dir (es1 ++ (name, .dir es) :: es2)) (.dir (es1 ++ (name, .dir es') :: es2))

/-- The same paths exist in both file systems, with trees related by `r`. -/
def FsRel (r : Node → Node → Prop) (fs fs' : Resolve) : Prop :=
  ∀ d, (fs d = none ∧ fs' d = none) ∨ ∃ n n', fs d = some n ∧ fs' d = some n' ∧ r n n'

end PyroMat.Data.Spec
