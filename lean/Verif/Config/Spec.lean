import Verif.Config.Model

/-!
# Specification vocabulary for the configuration properties
-/

namespace PyroMat.Config.Spec

open PyroMat PyroMat.Config

/-- The scalars contained in an assigned value: nested lists and tuples are flattened. -/
def leaves : PyVal → List PyVal
  | .list xs => leavesAll xs
  | .tuple xs => leavesAll xs
  | v => [v]
where
  leavesAll : List PyVal → List PyVal
    | [] => []
    | v :: vs => leaves v ++ leavesAll vs

/-- `v` is of the declared type. -/
def HasType (t : EType) : TVal → Prop
  | .str _ => t = .str
  | .float _ => t = .float
  | .bool _ => t = .bool

/-- What a parameter is documented to hold: one value of its type, or a list of them. -/
def Holds (append : Bool) (t : EType) : EVal → Prop
  | .one v => append = false ∧ HasType t v
  | .many vs => append = true ∧ ∀ v ∈ vs, HasType t v

/-- The successive castable values that a sequence of assignments gives to parameter `k`. -/
def assigned (c : Casts) (t : EType) (k : String) (d : List (String × PyVal)) : List TVal :=
  (d.filter (fun p => p.1 = k)).filterMap (fun p => c.cast t p.2)

/-- First occurrences, in order. -/
def firstOccurrences : List String → List String
  | [] => []
  | x :: xs => x :: (firstOccurrences xs).filter (· ≠ x)

/-- The local variables defined by the file at `p` (nothing if it does not exist). -/
def fileVars (fs : FS) (p : String) : List (String × PyVal) :=
  match fs.lookup p with
  | some (.ok d) => d
  | _ => []

end PyroMat.Config.Spec
