import Verif.Data.Repair

/-!
# The file operations of a quiet `updatefiles`, one by one
(`/repo/src/pyromat/dat.py:368-571`, `/repo/src/pyromat/utility.py:742-768`)

`Verif.Data.Repair` models `updatefiles` as a function from the files before to the files after.
Here the same call is a list of operations on single files, in the order in which they are carried
out, so that it can be interrupted between any two of them or in the middle of a write.
`C110_operations` says that carrying all of them out is what `updatefiles` does.
-/

namespace PyroMat.Data

/-- One operation on a file: `open(fil,'w')`, `json.dump`, `close` (`dat.py:489-491`, `530-532`);
`os.remove` (`dat.py:456`, `563`); `suppress_file`, that is `os.rename` (`utility.py:588`, `762`,
`dat.py:568`). -/
inductive Op where
  | write (p : String) (r : Rec)
  | remove (p : String)
  | hide (p : String)

/-- What the operation does when it is carried out. -/
def Op.run (can : String → Bool) (fs : Flat) : Op → Flat
  | .write p r => writeFile can fs p r
  | .remove p => (removeFile can fs p).1
  | .hide p => (suppressFile fs p).1

/-- All operations of a list. -/
def runOps (can : String → Bool) (ops : List Op) (fs : Flat) : Flat := ops.foldl (Op.run can) fs

/-- `red_repair(status['redundant'], verbose=False)` (`dat.py:418`, `utility.py:757-768`): in every
conflict, all files but the first are suppressed. -/
def repairOps (rep : Report) : List Op := rep.redundant.flatMap fun e => e.2.tail.map .hide

/-- The unreadable files, quietly (`dat.py:451-464`). -/
def badOps (u : Update) (rep : Report) : List Op := if u.deletefiles then rep.bad.map .remove else []

/-- The added entries (`dat.py:476-500`). -/
def addOps (u : Update) (data : Coll) : List String → List Op
  | [] => []
  | k :: ks =>
    match data.lookup k with
    | none => []
    | some r =>
      match newTarget u r with
      | .error _ => []
      | .ok fil => .write fil r :: addOps u data ks

/-- The changed entries (`dat.py:508-539`), quietly. -/
def changeOps (data found : Coll) : List String → List Op
  | [] => []
  | k :: ks =>
    match data.lookup k, found.lookup k with
    | some r, some f => .write f.fromfile r :: changeOps data found ks
    | _, _ => []

/-- The removed entries (`dat.py:549-571`), quietly. -/
def removeOps (u : Update) (found : Coll) : List String → List Op
  | [] => []
  | k :: ks =>
    match found.lookup k with
    | none => []
    | some f => (if u.deletefiles then .remove f.fromfile else .hide f.fromfile) :: removeOps u found ks

/-- The operations after the checks (`dat.py:472-571`). -/
def recordOps (u : Update) (data : Coll) (rep : Report) : List Op :=
  addOps u data rep.added ++ changeOps data rep.data rep.changed ++ removeOps u rep.data rep.removed

/-- All operations of `updatefiles(dest, verbose=False, deletefiles)` (`dat.py:410-571`). -/
def updateOps (u : Update) (data : Coll) (fs : Flat) : List Op :=
  match checkFiles u.cfg u.reg u.places data fs with
  | .error _ => []
  | .ok rep =>
    let first := repairOps rep ++ badOps u rep
    if rep.bad ≠ [] ∨ rep.redundant ≠ [] then
      match checkFiles u.cfg u.reg u.places data (runOps u.can first fs) with
      | .error _ => first
      | .ok rep => first ++ recordOps u data rep
    else first ++ recordOps u data rep

/-- What may become of a list of operations.  The process may end before any of them (`stop`).  A
write that has begun has emptied the file, and may leave only a part of the text: no such part is a
JSON object, so the file is unreadable (`torn`).  A write may also fail without touching the file,
like one without permission (`failed`).  After an incomplete write the process may have ended, or -
`except:` only prints a warning (`dat.py:493-497`, `536-539`) - may continue.
Renaming and deleting a file are taken to be atomic. -/
inductive Interrupted (can : String → Bool) : List Op → Flat → Flat → Prop where
  | stop (ops fs) : Interrupted can ops fs fs
  | next {op ops fs g} : Interrupted can ops (op.run can fs) g → Interrupted can (op :: ops) fs g
  | torn {p r ops fs g} : Interrupted can ops (fun q => if q = p then some .bad else fs q) g →
      Interrupted can (.write p r :: ops) fs g
  | failed {p r ops fs g} : Interrupted can ops fs g → Interrupted can (.write p r :: ops) fs g

/-- The files after any number of interrupted calls of `updatefiles` with the same collection in
memory. -/
inductive Attempts (u : Update) (data : Coll) : Flat → Flat → Prop where
  | none (fs) : Attempts u data fs fs
  | more {fs g g'} : Attempts u data fs g → Interrupted u.can (updateOps u data g) g g' → Attempts u data fs g'

end PyroMat.Data
