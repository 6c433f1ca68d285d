import Verif.Data.Model

/-!
# Model of `red_repair` (`/repo/src/pyromat/utility.py:630-769`) and `updatefiles`
(`/repo/src/pyromat/dat.py:368-571`)

Both change files, so the file system is the flat view `Flat` (absolute path ↦ content); what
`load(check=True)` sees of it is `view`.  Printing is not modelled.
Paths are absolute and normalised, so that `abspath` (`dat.py:485`) is the identity.
-/

namespace PyroMat.Data

/-! ## What `load` sees -/

/-- The data directories `config['dat_dir']` and the names that files in them may have, in
ascending order.  Simplification: the directories have no sub-directories. -/
structure Places where
  dirs : List String
  names : List String

/-- The entries of a directory (`os.listdir`, `dat.py:138`): the names under which a file exists. -/
def listing (pl : Places) (fs : Flat) (d : String) : List (String × Node) :=
  pl.names.filterMap fun n => (fs (join d n)).map fun c => (n, Node.file c)

/-- The directory trees `load` walks through (`dat.py:136-162`). -/
def view (pl : Places) (fs : Flat) : Resolve := fun d =>
  if d ∈ pl.dirs then some (.dir (listing pl fs d)) else none

/-- `load(check=True)` on the files (`dat.py:410`, `469`). -/
def checkFiles (cfg : Cfg) (reg : Registry) (pl : Places) (data : Coll) (fs : Flat) :
    Except Err Report :=
  (check cfg reg (view pl fs) pl.dirs data).2

/-! ## System calls -/

/-- `os.remove`: raises when there is no such file; `can` says whether the permissions
suffice. -/
def removeFile (can : String → Bool) (fs : Flat) (path : String) : Flat × Option Err :=
  match fs path with
  | none => (fs, some .file)
  | some _ => if can path then (fun p => if p = path then none else fs p, none) else (fs, some .file)

/-- What `json.dump(this.data, ...)` leaves in a file (`dat.py:490`, `531`).  `'fromfile'` is
written as well, but `load` replaces it (`dat.py:190`). -/
def contentOf (r : Rec) : Content := .json (some r.id) (some r.cls) (some r.doc) r.rest

/-- `open(fil,'w')`, `json.dump`, `close` (`dat.py:487-496`, `529-539`): when the file cannot be
opened there is only a warning. -/
def writeFile (can : String → Bool) (fs : Flat) (path : String) (r : Rec) : Flat :=
  if can path then fun p => if p = path then some (contentOf r) else fs p else fs

/-! ## `red_repair` -/

/-- The loop over the files of one conflict (`utility.py:745-756`, `760-768`): `act` on every file
but the selected one; failures only warn. -/
def sweep (act : Flat → String → Flat × Option Err) (select : Int) :
    Nat → List String → Flat → Flat
  | _, [], fs => fs
  | i, f :: files, fs =>
    sweep act select (i + 1) files (if (i : Int) ≠ select then (act fs f).1 else fs)

/-- `.lower()` (`utility.py:700`, `721`), on ASCII letters. -/
def lower (s : String) : String := String.ofList (s.toList.map Char.toLower)

/-- `action in 'ids'` (`utility.py:702`): a substring test. -/
def inIds (a : String) : Bool := a ∈ ["", "i", "d", "s", "id", "ds", "ids"]

/-- `action in 'ds'` (`utility.py:710`). -/
def inDs (a : String) : Bool := a ∈ ["", "d", "s", "ds"]

/-- The two nested menus (`utility.py:689-740`), reading the user's answers one by one.
The first argument is `none` in the menu that asks for an action, and the action in the menu that
asks for the file to keep.  `parse` is Python's `int` on strings; `n` is the number of files.
Without further answers `input` raises `EOFError`. -/
def menu (parse : String → Option Int) (n : Nat) :
    Option String → List String → Except Err ((String × Int) × List String)
  | _, [] => .error .exception
  | none, x :: rest =>
    let a := lower x
    if inIds a then
      if inDs a then menu parse n (some a) rest else .ok ((a, 0), rest)
    else menu parse n none rest
  | some a, x :: rest =>
    let s := lower x
    if s = "b" then menu parse n none rest
    else
      match parse s with
      | none => menu parse n (some a) rest
      | some i => if i < 0 ∨ (n : Int) ≤ i then menu parse n (some a) rest else .ok ((a, i), rest)

/-- One conflict (`utility.py:742-768`).  `bound` says whether the variable `N` has a value: it
gets one in the menu (`utility.py:680`) and under `action == 's'` (`utility.py:758`) only. -/
def repairOne (can : String → Bool) (bound : Bool) (action : String) (select : Int)
    (files : List String) (fs : Flat) : Flat × Option Err :=
  if action = "d" then
    if bound then (sweep (removeFile can) select 0 files fs, none) else (fs, some .unboundLocal)
  else if action = "s" then (sweep suppressFile select 0 files fs, none)
  else (fs, none)

/-- `red_repair(RED, verbose=False, action, select)` (`utility.py:671-768`). -/
def redRepairQuiet (can : String → Bool) (action : String) (select : Int) :
    List (String × List String) → Flat → Flat × Option Err
  | [], fs => (fs, none)
  | (_, files) :: red, fs =>
    match repairOne can false action select files fs with
    | (fs', some e) => (fs', some e)
    | (fs', none) => redRepairQuiet can action select red fs'

/-- `red_repair(RED)` (`utility.py:671-768`) with the answers the user gives. -/
def redRepairVerbose (can : String → Bool) (parse : String → Option Int) :
    List (String × List String) → List String → Flat → Flat × Option Err
  | [], _, fs => (fs, none)
  | (_, files) :: red, inputs, fs =>
    match menu parse files.length none inputs with
    | .error e => (fs, some e)
    | .ok ((action, select), rest) =>
      match repairOne can true action select files fs with
      | (fs', some e) => (fs', some e)
      | (fs', none) => redRepairVerbose can parse red rest fs'

/-! ## `updatefiles` -/

/-- What `updatefiles` is called with, and what it uses: `ask` is `verbose`, `inputs` the answers
of the user. -/
structure Update where
  cfg : Cfg
  reg : Registry
  places : Places
  can : String → Bool
  parse : String → Option Int
  dest : Option String
  verbose : Bool
  deletefiles : Bool
  inputs : List String

/-- `red_repair(status['redundant'], verbose=verbose)` (`dat.py:416-418`). -/
def repairStep (u : Update) (rep : Report) (fs : Flat) : Flat × Option Err :=
  if u.verbose then redRepairVerbose u.can u.parse rep.redundant u.inputs fs
  else redRepairQuiet u.can "s" 0 rep.redundant fs

/-- The unreadable files (`dat.py:423-464`).  Verbosely the first prompt calls `raw_input`, which
Python 3 does not have.  Quietly they are removed, or handed to `pm.utility.suppress_files`, which
does not exist: the `AttributeError` is swallowed. -/
def badStep (u : Update) (rep : Report) (fs : Flat) : Flat × Option Err :=
  if u.verbose then (if rep.bad = [] then (fs, none) else (fs, some .name))
  else if u.deletefiles then (rep.bad.foldl (fun fs p => (removeFile u.can fs p).1) fs, none)
  else (fs, none)

/-- `fil` of an added entry (`dat.py:407-408`, `478-485`). -/
def newTarget (u : Update) (r : Rec) : Except Err String :=
  if r.fromfile ≠ "" then .ok r.fromfile
  else
    match u.dest.or u.places.dirs.head? with
    | none => .error .index
    | some dest =>
      match dest.toList.getLast? with
      | none => .error .index
      | some c => .ok ((if c ≠ '/' then dest ++ "/" else dest) ++ r.id ++ ".hpd")

/-- The added entries (`dat.py:476-500`). -/
def addStep (u : Update) (data : Coll) : List String → Flat → Flat × Option Err
  | [], fs => (fs, none)
  | k :: ks, fs =>
    match data.lookup k with
    | none => (fs, some .key)
    | some r =>
      match newTarget u r with
      | .error e => (fs, some e)
      | .ok fil => addStep u data ks (writeFile u.can fs fil r)

/-- The changed entries (`dat.py:508-539`).  Verbosely, when the two file names differ, the prompt
calls `raw_input`. -/
def changeStep (u : Update) (data found : Coll) : List String → Flat → Flat × Option Err
  | [], fs => (fs, none)
  | k :: ks, fs =>
    match data.lookup k, found.lookup k with
    | some r, some f =>
      if f.fromfile ≠ r.fromfile ∧ u.verbose = true then (fs, some .name)
      else changeStep u data found ks (writeFile u.can fs f.fromfile r)
    | _, _ => (fs, some .key)

/-- The removed entries (`dat.py:549-571`).  With `deletefiles`, verbosely, the prompt calls
`raw_input`. -/
def removeStep (u : Update) (found : Coll) : List String → Flat → Flat × Option Err
  | [], fs => (fs, none)
  | k :: ks, fs =>
    match found.lookup k with
    | none => (fs, some .key)
    | some f =>
      if u.deletefiles then
        if u.verbose then (fs, some .name)
        else removeStep u found ks (removeFile u.can fs f.fromfile).1
      else removeStep u found ks (suppressFile fs f.fromfile).1

/-- The steps after the checks (`dat.py:472-571`). -/
def recordStep (u : Update) (data : Coll) (rep : Report) (fs : Flat) : Flat × Option Err :=
  match addStep u data rep.added fs with
  | (fs, some e) => (fs, some e)
  | (fs, none) =>
    match changeStep u data rep.data rep.changed fs with
    | (fs, some e) => (fs, some e)
    | (fs, none) => removeStep u rep.data rep.removed fs

/-- `updatefiles(dest, verbose, deletefiles)` (`dat.py:368-571`): the files afterwards, and the
exception if one is raised. -/
def updatefiles (u : Update) (data : Coll) (fs : Flat) : Flat × Option Err :=
  if u.dest = none ∧ u.places.dirs = [] then (fs, some .index)
  else
    match checkFiles u.cfg u.reg u.places data fs with
    | .error e => (fs, some e)
    | .ok rep =>
      match repairStep u rep fs with
      | (fs, some e) => (fs, some e)
      | (fs, none) =>
        match badStep u rep fs with
        | (fs, some e) => (fs, some e)
        | (fs, none) =>
          if rep.bad ≠ [] ∨ rep.redundant ≠ [] then
            match checkFiles u.cfg u.reg u.places data fs with
            | .error e => (fs, some e)
            | .ok rep => recordStep u data rep fs
          else recordStep u data rep fs

end PyroMat.Data
