import Mathlib.Data.String.Basic
import Verif.Basic

/-!
# Model of data files: `/repo/src/pyromat/utility.py:513-620` and `/repo/src/pyromat/dat.py:37-356`

The part of the file system below a data directory is a finite tree (no symbolic links).  File
contents are what `json.load` makes of them.  Printing is not modelled.  `expanduser`,
`expandvars` and `abspath` are applied to the argument of `load` by the caller's `resolve`
function and are the identity on the absolute paths of the recursion.
-/

namespace PyroMat.Data

/-! ## Files -/

/-- A JSON value that may stand in a data file, as far as this model looks: `Nat` codes. -/
abbrev Payload := Nat

/-- Content of a file: unreadable / not JSON, or a JSON object with optional `id`, `class`,
`doc` and the rest.  Simplification: top-level JSON values other than objects and non-string
identifiers are not modelled. -/
inductive Content where
  | bad
  | json (id cls doc : Option String) (rest : Payload)

/-- The dictionary built from a file: what `load_file` returns plus `'fromfile'`
(`dat.py:186`). -/
structure Rec where
  id : String
  cls : String
  doc : String
  rest : Payload
  fromfile : String
  deriving DecidableEq

/-- `utility.load_file` (`utility.py:513-557`) followed by `temp['fromfile'] = datasource`
(`dat.py:186`): `none` when it raises `PMFileError`. -/
def loadFile (path : String) : Content → Option Rec
  | .bad => none
  | .json (some i) (some c) (some d) r => some ⟨i, c, d, r, path⟩
  | .json _ _ _ _ => none

/-! ## Names -/

/-- `s[-n:]` for `n > 0`. -/
def lastChars (n : Nat) (s : String) : List Char := s.toList.drop (s.toList.length - n)

/-- `len(this)>4 and this[-4:]=='.hpd'` (`dat.py:149`, `utility.py:583`). -/
def isHpd (s : String) : Bool := 4 < s.toList.length && lastChars 4 s == ".hpd".toList

/-- `len(this)>5 and this[-5:]=='.hpd~'` (`dat.py:158`, `utility.py:611`). -/
def isSup (s : String) : Bool := 5 < s.toList.length && lastChars 5 s == ".hpd~".toList

/-! ## Directory trees -/

/-- A file or a directory with its entries in the order the operating system lists them. -/
inductive Node where
  | file (c : Content)
  | dir (entries : List (String × Node))

/-- `os.path.join(datasource, this)` (`dat.py:142`). -/
def join (path name : String) : String := path ++ "/" ++ name

/-- `contents.sort()` (`dat.py:139`) on entries tagged with their names. -/
def sortNames {α : Type} (l : List (String × α)) : List (String × α) :=
  l.mergeSort (fun a b => decide (a.1 ≤ b.1))

/-- A statement that updates a state and may raise. -/
abbrev Act (σ : Type) := σ → σ × Option Err

/-- Run statements one after the other until one raises. -/
def runActs {σ : Type} : List (Act σ) → Act σ
  | [], s => (s, none)
  | a :: as, s =>
    match a s with
    | (s', none) => runActs as s'
    | (s', some e) => (s', some e)

/-- What is done with one directory entry (`dat.py:143-162`): descend, load, note as suppressed,
or nothing.  `sub` is the recursive call `load(this_long, ...)`. -/
def entryAct {σ : Type} (recursive : Bool) (onSup : String → Act σ) (path : String)
    (name : String) (isDir : Bool) (sub : Act σ) : Act σ :=
  if recursive && isDir then sub
  else if isHpd name then sub
  else if isSup name then onSup (join path name)
  else fun s => (s, none)

/-- `os.path.isdir` (`dat.py:136`, `145`). -/
def Node.isDir : Node → Bool
  | .file _ => false
  | .dir _ => true

mutual
/-- `load(datasource)` with an existing path (`dat.py:135-245`): a directory runs over its sorted
contents, a file is handled by `onFile` (`dat.py:170-245`). -/
def loadNode {σ : Type} (recursive : Bool) (onFile : String → Content → Act σ)
    (onSup : String → Act σ) (path : String) : Node → Act σ
  | .file c => onFile path c
  | .dir entries =>
    runActs ((sortNames (entryActs recursive onFile onSup path entries)).map Prod.snd)
/-- The loop body for every entry, tagged with the entry's name (`dat.py:141-162`). -/
def entryActs {σ : Type} (recursive : Bool) (onFile : String → Content → Act σ)
    (onSup : String → Act σ) (path : String) : List (String × Node) → List (String × Act σ)
  | [] => []
  | (name, n) :: rest =>
    (name, entryAct recursive onSup path name n.isDir
      (loadNode recursive onFile onSup (join path name) n)) ::
      entryActs recursive onFile onSup path rest
end

/-! ## Collections -/

/-- `pm.dat.data`: a dictionary from identifiers to substance objects; an object is its `.data`
dictionary. -/
abbrev Coll := List (String × Rec)

/-- `d[k] = r`: replaces in place or appends. -/
def Coll.set : Coll → String → Rec → Coll
  | [], k, r => [(k, r)]
  | (k', r') :: c, k, r => if k' = k then (k', r) :: c else (k', r') :: Coll.set c k r

/-- `k in d`. -/
def Coll.has (c : Coll) (k : String) : Bool := (c.lookup k).isSome

/-- The class registry: the constructor of each class, which may raise (`reg.py:96`). -/
abbrev Registry := String → Option (Rec → Option Err)

/-- The configuration parameters `load` reads (`dat.py:99-101`). -/
structure Cfg where
  fatal : Bool
  overwrite : Bool
  recursive : Bool

/-- The report dictionary of check mode (`dat.py:110`). -/
structure Report where
  changed : List String
  added : List String
  removed : List String
  redundant : List (String × List String)
  suppressed : List String
  bad : List String
  data : Coll

/-- Interpreter state of a load: the collection, and the report in check mode. -/
structure St where
  data : Coll
  check : Option Report

/-- The dictionary written to: `loadto` (`dat.py:112`, `121`). -/
def St.loadto (s : St) : Coll :=
  match s.check with
  | none => s.data
  | some r => r.data

/-- `loadto[k] = obj` (`dat.py:245`). -/
def St.store (s : St) (k : String) (x : Rec) : St :=
  match s.check with
  | none => { s with data := s.data.set k x }
  | some r => { s with check := some { r with data := r.data.set k x } }

/-- `RED[id].append(file)` or `RED[id] = [first, file]` (`dat.py:196-203`). -/
def addRedundant (red : List (String × List String)) (id first file : String) :
    List (String × List String) :=
  match red with
  | [] => [(id, [first, file])]
  | (k, fs) :: rest =>
    if k = id then (k, fs ++ [file]) :: rest else (k, fs) :: addRedundant rest id first file

/-- Registry look-up, construction and storage (`dat.py:237-245`). -/
def construct (reg : Registry) (s : St) (t : Rec) : St × Option Err :=
  match reg t.cls with
  | none => (s, some .data)
  | some mk =>
    match mk t with
    | some e => (s, some e)
    | none => (s.store t.id t, none)

/-- The notes check mode takes about a file whose id is new to this check
(`dat.py:224-233`). -/
def noteNew (data : Coll) (r : Report) (t : Rec) : Report :=
  let r := { r with added := r.added.erase t.id }
  match data.lookup t.id with
  | none => { r with removed := r.removed ++ [t.id] }
  | some old => if old ≠ t then { r with changed := r.changed ++ [t.id] } else r

/-- One data file (`dat.py:166-245`). -/
def fileAct (cfg : Cfg) (reg : Registry) (path : String) (c : Content) : Act St := fun s =>
  match loadFile path c with
  | none =>
    (match s.check with
      | none => s
      | some r => { s with check := some { r with bad := r.bad ++ [path] } }, none)
  | some t =>
    match s.loadto.lookup t.id with
    | some old =>
      let s := match s.check with
        | none => s
        | some r =>
          let red := addRedundant r.redundant t.id old.fromfile path
          { s with check := some { r with redundant := red } }
      if cfg.fatal then (s, some .data)
      else if !cfg.overwrite then (s, none)
      else construct reg s t
    | none =>
      let s := match s.check with
        | none => s
        | some r => { s with check := some (noteNew s.data r t) }
      construct reg s t

/-- `SUP.append(this_long)` in check mode, nothing otherwise (`dat.py:158-162`). -/
def supAct (path : String) : Act St := fun s =>
  match s.check with
  | none => (s, none)
  | some r => ({ s with check := some { r with suppressed := r.suppressed ++ [path] } }, none)

/-- What a path denotes. -/
abbrev Resolve := String → Option Node

/-- `load(datasource)` for one path (`dat.py:130-250`); a path that does not exist only warns. -/
def loadPath (cfg : Cfg) (reg : Registry) (fs : Resolve) (path : String) : Act St :=
  match fs path with
  | none => fun s => (s, none)
  | some n => loadNode cfg.recursive (fileAct cfg reg) supAct path n

/-- `load()` in normal mode (`dat.py:252-256`): every configured directory in order. -/
def load (cfg : Cfg) (reg : Registry) (fs : Resolve) (dirs : List String) (data : Coll) :
    Coll × Option Err :=
  let r := runActs (dirs.map (loadPath cfg reg fs)) ⟨data, none⟩
  (r.1.data, r.2)

/-- The report a check starts with (`dat.py:110`). -/
def Report.start (data : Coll) : Report := ⟨[], data.map Prod.fst, [], [], [], [], []⟩

/-- `load(check=True)` (`dat.py:107-119`, `252-256`, `300`): collection afterwards and the report or the
exception. -/
def check (cfg : Cfg) (reg : Registry) (fs : Resolve) (dirs : List String) (data : Coll) :
    Coll × Except Err Report :=
  let r := runActs (dirs.map (loadPath cfg reg fs)) ⟨data, some (Report.start data)⟩
  (r.1.data,
    match r.2, r.1.check with
    | some e, _ => .error e
    | none, some rep => .ok rep
    | none, none => .error .analysis)

/-- `clear` (`dat.py:314-316`). -/
def clear (_ : Coll) : Coll := []

/-- A dictionary handed to `new` (`dat.py:327`): optional entries. -/
structure NewData where
  id : Option String
  cls : Option String
  doc : Option String
  fromfile : Option String
  rest : Payload

/-- Constructor applied to a user dictionary: `__init__` (`reg.py:87-94`) and `__basetest__` (`reg.py:101-132`) demands all four
mandatory entries. -/
def mkNew (d : NewData) : Option Rec :=
  match d.id, d.cls, d.doc, d.fromfile with
  | some i, some c, some o, some f => some ⟨i, c, o, d.rest, f⟩
  | _, _, _, _ => none

/-- `new` (`dat.py:327-356`).  For an unknown class the call `print_error(text, lead)` itself
raises `TypeError` (`print_error` takes one argument, `utility.py:495`). -/
def new (reg : Registry) (d : NewData) (data : Coll) : Coll × Option Err :=
  match d.id, d.cls with
  | some i, some c =>
    match reg c with
    | none => (data, some .type)
    | some mk =>
      match mkNew d with
      | none => (data, some .data)
      | some r =>
        match mk r with
        | some e => (data, some e)
        | none => (data.set i r, none)
  | _, _ => (data, some .data)

/-- `pm.get` (`__init__.py:71-82`). -/
def get (data : Coll) (k : String) : Except Err Rec :=
  match data.lookup k with
  | none => .error .param
  | some r => .ok r

/-! ## Suppressing and reviving (`utility.py:570-620`) -/

/-- A flat view of the file system: absolute path ↦ content. -/
abbrev Flat := String → Option Content

/-- `os.rename` on POSIX: fails when the source is missing, silently replaces the target. -/
def rename (fs : Flat) (src dst : String) : Option Flat :=
  match fs src with
  | none => none
  | some c => some fun p => if p = dst then some c else if p = src then none else fs p

/-- `suppress_file` (`utility.py:570-592`). -/
def suppressFile (fs : Flat) (path : String) : Flat × Option Err :=
  if isHpd path then
    match rename fs path (path ++ "~") with
    | none => (fs, some .file)
    | some fs' => (fs', none)
  else (fs, some .file)

/-- `path[:-1]` (`utility.py:615`). -/
def dropLastChar (s : String) : String := String.ofList s.toList.dropLast

/-- `revive_file` (`utility.py:602-620`). -/
def reviveFile (fs : Flat) (path : String) : Flat × Option Err :=
  if isSup path then
    match rename fs path (dropLastChar path) with
    | none => (fs, some .file)
    | some fs' => (fs', none)
  else (fs, some .file)

end PyroMat.Data
