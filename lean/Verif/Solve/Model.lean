import Mathlib.Data.Real.Basic
import Verif.Basic

/-!
# The general one-dimensional solver

Model of `/repo/src/pyromat/solve.py`: the argument iterator `_vectorize_args` and the solver
`solve1n`.  Numbers are reals (no NaN, no infinity, no rounding); a quotient by zero is 0 where numpy
gives an infinity.  The property functions are parameters that return numbers and raise nothing.
-/

namespace PyroMat.Solve

open PyroMat

/-- A keyword value: something without a length, or something with one
(`hasattr(x,'__len__') and hasattr(x,'__iter__')`). -/
inductive Arg where
  | one (x : ℝ)
  | many (l : List ℝ)

/-- A keyword dictionary.  Python dictionaries have distinct keys; the order is the insertion
order. -/
abbrev Args := List (String × Arg)

/-- `d[k] = v`. -/
def put : Args → String → Arg → Args
  | [], k, v => [(k, v)]
  | (j, w) :: d, k, v => if j = k then (j, v) :: d else (j, w) :: put d k v

/-- `d.update(e)`. -/
def update (d e : Args) : Args := e.foldl (fun acc p => put acc p.1 p.2) d

/-- The iterator object after construction (`solve.py:41-83`): length, whether the target is
iterated, the keys that are iterated, and the dictionary that is handed out. -/
structure Iter where
  n : Nat
  itery : Bool
  keys : List String
  copy : Args

/-- The length of the target and whether it is iterated (`solve.py:55-65`). -/
def startLen : Arg → Nat × Bool
  | .many l => if l.length = 1 then (1, false) else (l.length, true)
  | .one _ => (1, false)

/-- The loop over the keys (`solve.py:67-79`); `keys` is the order in which Python happens to walk
the set.  Returns the length and the keys found not to be iterated. -/
def checkKeys : Args → Nat → List String → Except Err (Nat × List String)
  | [], n, ign => .ok (n, ign)
  | (k, .many l) :: rest, n, ign =>
    if l.length = 1 then checkKeys rest n (ign ++ [k])
    else if n = 1 then checkKeys rest l.length ign
    else if n ≠ l.length then .error .param
    else checkKeys rest n ign
  | (k, .one _) :: rest, n, ign => checkKeys rest n (ign ++ [k])

/-- `_vectorize_args.__init__` (`solve.py:41-87`) with the default `ignore=[]`, which is how the
solver calls it.  `order` is the walk over the set of keys: a permutation of `args`. -/
def vectorize (y : Arg) (args order : Args) : Except Err Iter :=
  match checkKeys order (startLen y).1 [] with
  | .error e => .error e
  | .ok (n, ign) =>
    .ok ⟨n, (startLen y).2, (args.map Prod.fst).filter (fun k => !ign.contains k),
      args.filter (fun p => ign.contains p.1)⟩

/-- `len(...)` and subscript `x[k]` of a keyword value; `none` is an exception. -/
def Arg.at : Arg → Nat → Option ℝ
  | .one _, _ => none
  | .many l, k => l[k]?

/-- `for key in self.iterkeys: self.copy[key] = self.args[key][self.index]` (`solve.py:101-102`). -/
def fill (args : Args) (k : Nat) : List String → Args → Except Err Args
  | [], d => .ok d
  | key :: ks, d =>
    match (args.lookup key).bind (fun a => a.at k) with
    | none => .error .index
    | some x => fill args k ks (put d key (.one x))

/-- `__next__` at index `k` with the dictionary as the previous pass left it (`solve.py:97-106`). -/
def next (it : Iter) (y : Arg) (args : Args) (k : Nat) (d : Args) : Except Err (Arg × Args) :=
  match fill args k it.keys d with
  | .error e => .error e
  | .ok d' =>
    if it.itery then
      match y.at k with
      | none => .error .index
      | some v => .ok (.one v, d')
    else .ok (y, d')

/-! ## The solver -/

/-- How the property was given to the solver (`solve.py:276-308`). -/
inductive Fn where
  | fdf (g : Args → ℝ × ℝ)
  | fAndDf (f df : Args → ℝ)
  | fOnly (f : Args → ℝ)

/-- A configured solver (`solve.py:125-134`, `250-346`). -/
structure Solver where
  param : String
  propName : String
  eps : ℝ
  small : ℝ
  maxIter : Nat
  defaults : Args
  fn : Fn
  init : Option (Args → ℝ)
  lim : Option (Args → ℝ × ℝ)

/-- What the user's callables are asked, in order. -/
inductive Event where
  | limits (a : Args)
  | start (a : Args)
  | value (a : Args)

/-- The number under a key, as the solver put it there. -/
def num (a : Args) (k : String) : ℝ :=
  match a.lookup k with
  | some (.one x) => x
  | _ => 0

/-- The constructor's checks on fixed limits and on the start (`solve.py:310-346`): at least one of
start and limits, and the limits in increasing order. -/
noncomputable def construct (init : Option ℝ) (lim : Option (ℝ × ℝ)) : Except Err Unit :=
  match init, lim with
  | none, none => .error .analysis
  | _, some l => open Classical in if l.1 ≥ l.2 then .error .analysis else .ok ()
  | some _, none => .ok ()

/-- `self._fdf` (`solve.py:468-494`): value, slope, and the arguments of the calls made. -/
noncomputable def evalFn (S : Solver) (a : Args) : (ℝ × ℝ) × List Event :=
  match S.fn with
  | .fdf g => (g a, [.value a])
  | .fAndDf f df => ((f a, df a), [.value a, .value a])
  | .fOnly f =>
    let x0 := num a S.param
    let dx := max |x0 * S.eps| S.small
    let a1 := put a S.param (.one (x0 + dx))
    ((f a, (f a1 - f a) / dx), [.value a, .value a1])

/-- The variables of the iteration.  `old = none` is the initial `float('inf')`. -/
structure St where
  x : ℝ
  xOld : ℝ
  dx : ℝ
  old : Option ℝ
  args : Args

/-- Keep `x` within the limits (`solve.py:454-456`). -/
noncomputable def clamp (limits : Option (ℝ × ℝ)) (x : ℝ) : ℝ :=
  match limits with
  | none => x
  | some l => max (min x l.2) l.1

/-- `aerror < aerror_old` (`solve.py:441`). -/
def better (old : Option ℝ) (e : ℝ) : Prop :=
  match old with
  | none => True
  | some o => e < o

open Classical in
/-- One pass after the convergence test failed (`solve.py:437-456`). -/
noncomputable def advance (limits : Option (ℝ × ℝ)) (st : St) (a : Args) (error df : ℝ) : St :=
  if better st.old |error| then
    ⟨clamp limits (st.x + -error / df), st.x, -error / df, some |error|, a⟩
  else ⟨st.xOld + st.dx / 2, st.xOld, st.dx / 2, st.old, a⟩

open Classical in
/-- The iteration (`solve.py:414-456`), `k` passes left out of `maxIter`.  Returns the converged
value if any, the last value of `count`, the dictionary, and the calls made. -/
noncomputable def loop (S : Solver) (y thr : ℝ) (limits : Option (ℝ × ℝ)) :
    Nat → Nat → Option Nat → St → (Option ℝ × Option Nat × Args) × List Event
  | 0, _, cnt, st => ((none, cnt, st.args), [])
  | k + 1, i, _, st =>
    let a := put st.args S.param (.one st.x)
    let r := evalFn S a
    let error := r.1.1 - y
    if |error| < thr then ((some st.x, some i, a), r.2)
    else
      let out := loop S y thr limits k (i + 1) (some i) (advance limits st a error r.1.2)
      (out.1, r.2 ++ out.2)

/-- The limits of one element (`solve.py:391-398`). -/
def limitsOf (S : Solver) (a : Args) : Option (ℝ × ℝ) × List Event :=
  match S.lim with
  | none => (none, [])
  | some l => (some (l a), [.limits a])

/-- The start of one element (`solve.py:400-407`). -/
noncomputable def startOf (S : Solver) (limits : Option (ℝ × ℝ)) (a : Args) : ℝ × List Event :=
  match S.init with
  | some f => (f a, [.start a])
  | none =>
    match limits with
    | some l => ((l.1 + l.2) / 2, [])
    | none => (0, [])

/-- `if count>=self.max_iter: raise` (`solve.py:457-459`).  `none` is a `count` never assigned. -/
def afterLoop (S : Solver) (cnt : Option Nat) : Except Err Unit :=
  match cnt with
  | none => .error .unboundLocal
  | some c => if c ≥ S.maxIter then .error .analysis else .ok ()

/-- One element (`solve.py:389-459`): the number stored in the result (0 if the iteration ended
without convergence, `solve.py:387`), the dictionary left behind, and the calls made. -/
noncomputable def element (S : Solver) (y : ℝ) (a : Args) :
    Except Err (ℝ × Args) × List Event :=
  let lim := limitsOf S a
  let st := startOf S lim.1 a
  let thr := max S.small |S.eps * y|
  let out := loop S y thr lim.1 S.maxIter 0 none ⟨st.1, st.1, 0, none, a⟩
  match afterLoop S out.1.2.1 with
  | .error e => (.error e, lim.2 ++ st.2 ++ out.2)
  | .ok _ => (.ok (out.1.1.getD 0, out.1.2.2), lim.2 ++ st.2 ++ out.2)

/-- A target as a number: a length-1 numpy array behaves as its element. -/
def scalar : Arg → Except Err ℝ
  | .one x => .ok x
  | .many [x] => .ok x
  | .many _ => .error .value

/-- The loop over the elements (`solve.py:389-459`). -/
noncomputable def elements (S : Solver) (it : Iter) (y : Arg) (args : Args) :
    Nat → Nat → Args → Except Err (List ℝ) × List Event
  | 0, _, _ => (.ok [], [])
  | k + 1, i, d =>
    match next it y args i d with
    | .error e => (.error e, [])
    | .ok (ty, d') =>
      match scalar ty with
      | .error e => (.error e, [])
      | .ok v =>
        let r := element S v d'
        match r.1 with
        | .error e => (.error e, r.2)
        | .ok (x, d'') =>
          let rest := elements S it y args k (i + 1) d''
          match rest.1 with
          | .error e => (.error e, r.2 ++ rest.2)
          | .ok xs => (.ok (x :: xs), r.2 ++ rest.2)

/-- The target of a call (`solve.py:370-382`): positional, or under the property's own name, but
not both. -/
def target (S : Solver) (y : Option Arg) (kwargs : Args) : Except Err (Arg × Args) :=
  let args := update S.defaults kwargs
  match args.lookup S.propName, y with
  | some _, some _ => .error .analysis
  | some v, none => .ok (v, args.filter (fun p => p.1 ≠ S.propName))
  | none, none => .error .analysis
  | none, some v => .ok (v, args)

/-- `solve1n.__call__` (`solve.py:366-466`).  `npFloat` says whether this numpy still has
`np.float`, which is called when there is one element (`solve.py:461-462`); numpy 1.24 and later do
not. -/
noncomputable def call (npFloat : Bool) (S : Solver) (y : Option Arg) (kwargs : Args) :
    Except Err (List ℝ) × List Event :=
  match target S y kwargs with
  | .error e => (.error e, [])
  | .ok (v, args) =>
    match vectorize v args args with
    | .error e => (.error e, [])
    | .ok it =>
      let r := elements S it v args it.n 0 it.copy
      match r.1 with
      | .error e => (.error e, r.2)
      | .ok xs => if it.n = 1 ∧ npFloat = false then (.error .attribute, r.2) else (.ok xs, r.2)

end PyroMat.Solve
