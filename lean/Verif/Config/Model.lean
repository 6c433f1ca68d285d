import Verif.Basic

/-!
# Model of the configuration system, `/repo/src/pyromat/utility.py:61-421`

The configuration object is a finite dictionary of entries.  Python values that a user can
assign are `PyVal`; the built-in casts `str`, `float`, `bool` are external functions (`Casts`).
Printing is not modelled, except that the error/warning printers read `pm.config`
(`utility.py:495-501`) and therefore raise `AttributeError` while `pm.config` is still being
constructed (`__init__.py:49`); the flag `bound` says whether `pm.config` exists.
-/

namespace PyroMat.Config

/-- Abstract floating point values (`float`, including `nan`).  Only their identity matters
here. -/
abbrev Fl := Int

/-- Python values that may be assigned to a parameter.  `obj` stands for any other object. -/
inductive PyVal where
  | none
  | bool (b : Bool)
  | int (i : Int)
  | float (f : Fl)
  | str (s : String)
  | list (xs : List PyVal)
  | tuple (xs : List PyVal)
  | obj (n : Nat)

/-- Entry types: `etype` of `PMConfigEntry` (`utility.py:79-83`).  The shipped entries use only
these three (`utility.py:203-234`). -/
inductive EType | str | float | bool
  deriving DecidableEq, Repr

/-- A value after the type cast. -/
inductive TVal where
  | str (s : String)
  | float (f : Fl)
  | bool (b : Bool)
  deriving DecidableEq, Repr

/-- What a configuration entry holds: one value, or a list for appended entries. -/
inductive EVal where
  | one (v : TVal)
  | many (vs : List TVal)
  deriving DecidableEq, Repr

/-- The Python built-in casts; `none` means the cast raises. -/
structure Casts where
  toStr : PyVal → Option String
  toFloat : PyVal → Option Fl
  toBool : PyVal → Option Bool

/-- `self.etype(value)` (`utility.py:115`, `162`). -/
def Casts.cast (c : Casts) (t : EType) (v : PyVal) : Option TVal :=
  match t with
  | .str => (c.toStr v).map .str
  | .float => (c.toFloat v).map .float
  | .bool => (c.toBool v).map .bool

/-- `PMConfigEntry` (`utility.py:61-166`). -/
structure Entry where
  writeAllowed : Bool
  etype : EType
  append : Bool
  default : TVal
  value : EVal
  deriving DecidableEq, Repr

/-- The overwrite/append at the end of `write` (`utility.py:122-125`).  `self.value.append`
on a non-list would raise `AttributeError`. -/
def Entry.store (e : Entry) (v : TVal) : Entry × Option Err :=
  if e.append then
    match e.value with
    | .many vs => ({ e with value := .many (vs ++ [v]) }, none)
    | .one _ => (e, some .attribute)
  else ({ e with value := .one v }, none)

/-- Writing one value that is not an appended list/tuple (`utility.py:102-104`, `112-125`). -/
def Entry.writeScalar (c : Casts) (e : Entry) (v : PyVal) : Entry × Option Err :=
  if e.writeAllowed then
    match c.cast e.etype v with
    | none => (e, some .param)
    | some t => e.store t
  else (e, some .param)

mutual
/-- `PMConfigEntry.write` (`utility.py:98-125`): entry afterwards, and the exception if any. -/
def Entry.write (c : Casts) (e : Entry) : PyVal → Entry × Option Err
  | .list xs =>
    if e.writeAllowed && e.append then Entry.writeAll c e xs
    else Entry.writeScalar c e (.list xs)
  | .tuple xs =>
    if e.writeAllowed && e.append then Entry.writeAll c e xs
    else Entry.writeScalar c e (.tuple xs)
  | v => Entry.writeScalar c e v
/-- `for vv in value: self.write(vv)` (`utility.py:108-109`): stops at the first exception,
keeping what was already appended. -/
def Entry.writeAll (c : Casts) (e : Entry) : List PyVal → Entry × Option Err
  | [] => (e, none)
  | v :: vs =>
    match Entry.write c e v with
    | (e', none) => Entry.writeAll c e' vs
    | (e', some err) => (e', some err)
end

/-- `PMConfigEntry.restore_default` (`utility.py:138-147`). -/
def Entry.restoreDefault (e : Entry) : Entry :=
  if e.writeAllowed then
    { e with value := if e.append then .many [e.default] else .one e.default }
  else e

/-- `PMConfigEntry.set_default` with an `etype` (`utility.py:150-164`).  The branch without an
`etype` (`utility.py:166`) raises `NameError` and is `mkEntry`'s `none` case. -/
def Entry.setDefault (c : Casts) (e : Entry) (v : PyVal) : Entry × Option Err :=
  if e.writeAllowed then
    match c.cast e.etype v with
    | none => (e, some .param)
    | some t => ({ e with default := t }, none)
  else (e, some .param)

/-- `PMConfigEntry.__init__` (`utility.py:84-93`). -/
def mkEntry (c : Casts) (default : PyVal) (append write : Bool) (etype : Option EType) :
    Except Err Entry :=
  match etype with
  | none => .error .name
  | some t =>
    match c.cast t default with
    | none => .error .param
    | some d =>
      .ok { writeAllowed := write, etype := t, append := append, default := d,
            value := if append then .many [d] else .one d }

/-- `PMConfig.entries` (`utility.py:203`): a dictionary. -/
abbrev State := List (String × Entry)

/-- `self.entries[k]`. -/
def State.find (s : State) (k : String) : Option Entry := s.lookup k

/-- Update of the entry object stored under `k` (entries are mutable objects; the dictionary
itself is never rebound). -/
def State.modify : State → String → (Entry → Entry) → State
  | [], _, _ => []
  | (k', e) :: s, k, f => if k' = k then (k', f e) :: s else (k', e) :: State.modify s k f

/-- `PMConfig.__getitem__` (`utility.py:363-369`). -/
def getItem (s : State) (k : String) : Except Err EVal :=
  match s.find k with
  | none => .error .param
  | some e => .ok e.value

/-- `PMConfig.__setitem__` (`utility.py:372-382`): unknown names raise `PMParamError`; a failing
write is printed and swallowed - except that printing itself raises `AttributeError` while
`pm.config` is not bound. -/
def setItem (c : Casts) (bound : Bool) (s : State) (k : String) (v : PyVal) :
    State × Option Err :=
  match s.find k with
  | none => (s, some .param)
  | some e =>
    let w := Entry.write c e v
    (s.modify k (fun _ => w.1),
      match w.2 with
      | none => none
      | some _ => if bound then none else some .attribute)

/-- `PMConfig.update` (`utility.py:332-341`): assignments in dictionary order, stopping at the
first exception. -/
def update (c : Casts) (bound : Bool) (s : State) : List (String × PyVal) → State × Option Err
  | [] => (s, none)
  | (k, v) :: rest =>
    match setItem c bound s k v with
    | (s', none) => update c bound s' rest
    | (s', some err) => (s', some err)

/-- `PMConfig.restore_default` (`utility.py:343-360`).  Without an argument the code calls the
Python-2 method `iteritems`, which raises `AttributeError` under Python 3 before anything is
restored. -/
def restoreDefault (s : State) : Option String → State × Option Err
  | none => (s, some .attribute)
  | some k =>
    match s.find k with
    | none => (s, some .key)
    | some _ => (s.modify k Entry.restoreDefault, none)

/-- Result of executing a configuration file (`utility.py:287-289`): the local variables it
defines, in order, or the exception it raises.  Simplification: a file only defines variables. -/
abbrev FileResult := Except Err (List (String × PyVal))

/-- The file system as seen by `load`: absolute path ↦ content of a regular file. -/
abbrev FS := List (String × FileResult)

/-- `PMConfig.load(filename)` with a non-empty name (`utility.py:272-300`). -/
def loadFile (c : Casts) (bound : Bool) (fs : FS) (s : State) (path : String) :
    State × Option Err :=
  match fs.lookup path with
  | none => (s, none)
  | some (.error e) => (s, some e)
  | some (.ok d) => update c bound s d

/-- `self.entries['config_file'].value` as a list (`utility.py:313`). -/
def configFiles (s : State) : List String :=
  match s.find "config_file" with
  | some e =>
    match e.value with
    | .many vs => vs.map fun v => match v with | .str p => p | _ => ""
    | .one _ => []
  | none => []

theorem filter_found_lt {fs : FS} {found : List String} {p : String} {r : FileResult}
    (hl : fs.lookup p = some r) (hp : p ∉ found) :
    ((fs.map Prod.fst).filter (fun q => q ∉ found ++ [p])).length <
      ((fs.map Prod.fst).filter (fun q => q ∉ found)).length := by
  have hmem : p ∈ fs.map Prod.fst := by
    clear hp
    induction fs with
    | nil => simp at hl
    | cons x fs ih =>
      obtain ⟨k, y⟩ := x
      simp only [List.lookup_cons] at hl
      by_cases hk : (p == k) = true
      · have : p = k := by simpa using hk
        simp [this]
      · have hk' : (p == k) = false := by simpa using hk
        rw [hk'] at hl
        exact List.mem_cons_of_mem _ (ih hl)
  generalize fs.map Prod.fst = l at hmem
  induction l with
  | nil => simp at hmem
  | cons x l ih =>
    have hle : (l.filter (fun q => q ∉ found ++ [p])).length ≤
        (l.filter (fun q => q ∉ found)).length := by
      clear ih hmem
      induction l with
      | nil => simp
      | cons y l ih =>
        by_cases h1 : y ∈ found
        · simp [h1] at ih ⊢; exact ih
        · by_cases h2 : y = p
          · simp [h1, h2, hp] at ih ⊢; omega
          · simp [h1, h2] at ih ⊢; exact ih
    by_cases hx : x = p
    · subst hx
      simp [hp] at hle ⊢
      omega
    · have hmem' : p ∈ l := by
        rcases List.mem_cons.mp hmem with h | h
        · exact absurd h.symm hx
        · exact h
      have := ih hmem'
      by_cases h1 : x ∈ found
      · simp [h1] at this ⊢; exact this
      · simp [h1, hx] at this ⊢; exact this

theorem filter_found_le {fs : FS} {found : List String} {p : String} :
    ((fs.map Prod.fst).filter (fun q => q ∉ found ++ [p])).length ≤
      ((fs.map Prod.fst).filter (fun q => q ∉ found)).length := by
  generalize fs.map Prod.fst = l
  induction l with
  | nil => simp
  | cons y l ih =>
    by_cases h1 : y ∈ found
    · simp [h1] at ih ⊢; exact ih
    · by_cases h2 : y = p
      · simp [h1, h2] at ih ⊢
        by_cases h3 : p ∈ found
        · simp [h3]; omega
        · simp [h3]; omega
      · simp [h1, h2] at ih ⊢; exact ih

/-- The worklist loop of `PMConfig.load()` (`utility.py:302-329`).  `expand` is
`expanduser`/`expandvars`/`abspath` (`utility.py:317-319`).  Returns the configuration, the list
of files loaded (`found`) and the exception, if any.  That this definition is accepted *is* the
termination proof: either an existing file is loaded for the first time, or the position in
`config_file` advances while the list stays the same. -/
def loadLoop (c : Casts) (bound : Bool) (fs : FS) (expand : String → String) (s : State) (k : Nat)
    (found : List String) : State × List String × Option Err :=
  match hk : (configFiles s)[k]? with
  | none => (s, found, none)
  | some raw =>
    let path := expand raw
    if hf : path ∈ found then
      if bound then loadLoop c bound fs expand s (k + 1) found
      else (s, found, some .attribute)
    else
      match hl : fs.lookup path with
      | none => loadLoop c bound fs expand s (k + 1) (found ++ [path])
      | some r =>
        match loadFile c bound fs s path with
        | (s', some err) => (s', found, some err)
        | (s', none) => loadLoop c bound fs expand s' (k + 1) (found ++ [path])
termination_by (((fs.map Prod.fst).filter (fun q => q ∉ found)).length, (configFiles s).length - k)
decreasing_by
  · apply Prod.Lex.right
    have := (List.getElem?_eq_some_iff.mp hk).1
    omega
  · have h1 := filter_found_le (fs := fs) (found := found) (p := expand raw)
    have h2 := (List.getElem?_eq_some_iff.mp hk).1
    rcases Nat.lt_or_eq_of_le h1 with h | h
    · exact Prod.Lex.left _ _ h
    · rw [h]
      apply Prod.Lex.right
      omega
  · apply Prod.Lex.left
    exact filter_found_lt hl hf

/-- `PMConfig.load()` (`utility.py:302-329`). -/
def loadRoot (c : Casts) (bound : Bool) (fs : FS) (expand : String → String) (s : State) :
    State × List String × Option Err :=
  match s.find "config_file" with
  | none => (s, [], some .key)
  | some _ => loadLoop c bound fs expand s 0 []

/-- The entry table of `PMConfig.__init__` (`utility.py:203-234`).  `nan` and the float literals
are passed in as `Fl` values; the cast of each default to its own type is the identity. -/
def initState (installDir version configPy dataDir regDir : String) (T p nan : Fl) : State :=
  let ro (d : String) : Entry := ⟨false, .str, false, .str d, .one (.str d)⟩
  let app (d : String) : Entry := ⟨true, .str, true, .str d, .many [.str d]⟩
  let b (d : Bool) : Entry := ⟨true, .bool, false, .bool d, .one (.bool d)⟩
  let f (d : Fl) : Entry := ⟨true, .float, false, .float d, .one (.float d)⟩
  let st (d : String) : Entry := ⟨true, .str, false, .str d, .one (.str d)⟩
  [("install_dir", ro installDir), ("version", ro version), ("config_file", app configPy),
   ("config_verbose", b false), ("warning_verbose", b true), ("error_verbose", b true),
   ("dat_dir", app dataDir), ("dat_verbose", b true), ("dat_overwrite", b true),
   ("dat_exist_fatal", b false), ("dat_recursive", b true), ("reg_dir", app regDir),
   ("reg_verbose", b true), ("reg_overwrite", b true), ("reg_exist_fatal", b false),
   ("def_T", f T), ("def_T_unit", st "K"), ("def_p", f p), ("def_p_unit", st "bar"),
   ("def_oob", f nan), ("unit_force", st "N"), ("unit_energy", st "kJ"),
   ("unit_temperature", st "K"), ("unit_pressure", st "bar"), ("unit_molar", st "kmol"),
   ("unit_volume", st "m3"), ("unit_length", st "m"), ("unit_mass", st "kg"),
   ("unit_time", st "s"), ("unit_matter", st "kg")]

/-- Operations a program can perform on the configuration object (or on one of its entries
through `config.entries[k]`). -/
inductive Op where
  /-- `config[k] = v` (`utility.py:372`) -/
  | set (k : String) (v : PyVal)
  /-- `config.update(d)` (`utility.py:332`) -/
  | update (d : List (String × PyVal))
  /-- `config.restore_default(k)` or `config.restore_default()` (`utility.py:343`) -/
  | restore (k : Option String)
  /-- `config.load()`, or `config.load(path)` (`utility.py:259`) -/
  | load (path : Option String)
  /-- `config.entries[k].write(v)` (`utility.py:98`) -/
  | entryWrite (k : String) (v : PyVal)
  /-- `config.entries[k].set_default(v)` (`utility.py:150`) -/
  | entrySetDefault (k : String) (v : PyVal)
  /-- `config[k]` (`utility.py:363`): reading is an operation too -/
  | get (k : String)

/-- Everything external an operation depends on. -/
structure Env where
  casts : Casts
  bound : Bool
  fs : FS
  expand : String → String

/-- One operation: configuration afterwards and the exception raised, if any. -/
def step (env : Env) (s : State) : Op → State × Option Err
  | .set k v => setItem env.casts env.bound s k v
  | .update d => update env.casts env.bound s d
  | .restore k => restoreDefault s k
  | .load none => let r := loadRoot env.casts env.bound env.fs env.expand s; (r.1, r.2.2)
  | .load (some "") => let r := loadRoot env.casts env.bound env.fs env.expand s; (r.1, r.2.2)
  | .load (some p) => loadFile env.casts env.bound env.fs s p
  | .entryWrite k v =>
    match s.find k with
    | none => (s, some .key)
    | some e => let w := Entry.write env.casts e v; (s.modify k (fun _ => w.1), w.2)
  | .entrySetDefault k v =>
    match s.find k with
    | none => (s, some .key)
    | some e => let w := Entry.setDefault env.casts e v; (s.modify k (fun _ => w.1), w.2)
  | .get k =>
    match getItem s k with
    | .ok _ => (s, none)
    | .error e => (s, some e)

/-- A history: each operation may see a different environment (files change between calls).
An operation that raises leaves its partial effect, and the program continues. -/
def run (s : State) : List (Env × Op) → State
  | [] => s
  | (env, op) :: rest => run (step env s op).1 rest

end PyroMat.Config
