import Mathlib.Algebra.BigOperators.Group.Finset.Basic
import Verif.Gas.Model

/-!
# Dynamic ideal-gas mixtures: `igtools.py`, class `IgtMix`

A NumPy array is its shape and a function from index lists to numbers; only indices within the
shape mean anything.  Substances are Python objects compared by identity (`reg.py` defines no
`__eq__`).  Views and shared memory are not modelled: an operation is a function from the old
contents to the new contents.
-/

namespace PyroMat.Igt

open PyroMat PyroMat.Units PyroMat.Gas

/-! ## NumPy arrays -/

/-- An `ndarray`: shape and contents. -/
structure Arr where
  shape : List Nat
  val : List Nat → ℝ

/-- Index of the source element for a target element: axes of length 1 are read at 0. -/
def clip (shape idx : List Nat) : List Nat :=
  List.zipWith (fun n i => if n = 1 then 0 else i) shape idx

/-- Axis by axis, the source axis has length 1 or that of the target. -/
def fits : List Nat → List Nat → Bool
  | [], [] => true
  | n :: ns, m :: ms => (n == 1 || n == m) && fits ns ms
  | _, _ => false

/-- `np.broadcast_to(a, target)`: axes are matched from the right; `ValueError` otherwise. -/
def Arr.bto (a : Arr) (target : List Nat) : Except Err Arr :=
  if a.shape.length ≤ target.length ∧
      fits a.shape (target.drop (target.length - a.shape.length)) = true then
    .ok ⟨target, fun i => a.val (clip a.shape (i.drop (target.length - a.shape.length)))⟩
  else .error .value

/-- NumPy's shape of an elementwise operation: axes matched from the right, `ValueError` when two
axes differ and neither has length 1.  Written on reversed shapes. -/
def npShapeRev : List Nat → List Nat → Except Err (List Nat)
  | [], t => .ok t
  | s, [] => .ok s
  | n :: s, m :: t =>
    if n = m ∨ m = 1 then (npShapeRev s t).map (n :: ·)
    else if n = 1 then (npShapeRev s t).map (m :: ·)
    else .error .value

/-- `np.broadcast_shapes(s, t)`. -/
def npShape (s t : List Nat) : Except Err (List Nat) :=
  (npShapeRev s.reverse t.reverse).map List.reverse

/-- `a * b` with NumPy broadcasting. -/
noncomputable def Arr.mul (a b : Arr) : Except Err Arr := do
  let sh ← npShape a.shape b.shape
  let x ← a.bto sh
  let y ← b.bto sh
  .ok ⟨sh, fun i => x.val i * y.val i⟩

/-- `np.atleast_1d`. -/
def Arr.atleast1 (a : Arr) : Arr :=
  match a.shape with
  | [] => ⟨[1], fun _ => a.val []⟩
  | _ => a

/-- An array given row by row (the first axis is the row). -/
def tab (shape : List Nat) (f : Nat → List Nat → ℝ) : Arr :=
  ⟨shape, fun i => match i with
    | [] => 0
    | r :: i => f r i⟩

/-! ## The class -/

/-- Which registered class a constituent belongs to (`igtools.py:891-899`). -/
inductive Cls | ig | ig2 | igmix | other
  deriving DecidableEq

/-- What is read from substance objects and from the collection.  `find` is `pm.get`. -/
structure Lib (σ : Type) where
  sid : σ → String
  cls : σ → Cls
  inIg : σ → Bool
  gas : σ → Gas
  atoms : σ → List (String × ℝ)
  find : String → Option σ

/-- An `IgtMix`: the list `_c` and the array `_q` of amounts in kmol (`igtools.py:320-327`). -/
structure Mix (σ : Type) where
  c : List σ
  q : Arr

variable {σ : Type} [DecidableEq σ]

/-- `shape()` (`igtools.py:1025-1033`): `self._q.shape[1:]`. -/
def Mix.shape (m : Mix σ) : List Nat := m.q.shape.tail

/-- `subst.mw()` in the configured units (`ig.py:1539-1548`, `igmix.py:1055-1070`). -/
noncomputable def userMw (E : Env) (L : Lib σ) (s : σ) : Except Err ℝ :=
  match L.cls s with
  | .igmix => mMw E (L.gas s) "kg" "kmol"
  | _ => mMw E (L.gas s) "g" "mol"

/-- The factor `pm.units.matter(·, subst.mw(), from_units, to_units)` multiplies by.
Simplification: NumPy multiplies every element by the same factor. -/
noncomputable def matterFactor (E : Env) (L : Lib σ) (s : σ) (fromU toU : Option String) :
    Except Err ℝ := do
  let mw ← userMw E L s
  scalarOf (matter E.a E.c.str (.scalar 1) mw fromU toU none false)

/-- `a * k`. -/
noncomputable def Arr.scale (a : Arr) (k : ℝ) : Arr := ⟨a.shape, fun i => a.val i * k⟩

/-! ### Shapes (`igtools.py:563-611`) -/

/-- Pad with unity axes on the right (`igtools.py:594-597`). -/
def padR (n : Nat) (s : List Nat) : List Nat := s ++ List.replicate (n - s.length) 1

/-- The loop over the axes (`igtools.py:600-609`). -/
def joinDims : List Nat → List Nat → Except Err (List Nat)
  | s :: ss, q :: qs =>
    if s = q ∨ s = 1 then (joinDims ss qs).map (q :: ·)
    else if q = 1 then (joinDims ss qs).map (s :: ·)
    else .error .param
  | _, _ => .ok []

/-- `_broadcast_shape(qshape, sshape)` (`igtools.py:563-611`). -/
def broadcastShape (qshape sshape : List Nat) : Except Err (List Nat) :=
  if sshape.length = 0 ∧ qshape.length = 0 then .ok [0]
  else joinDims (padR qshape.length sshape) (padR sshape.length qshape)

/-! ### Construction (`igtools.py:329-397`) -/

/-- Keys of a contents dictionary. -/
inductive Key (σ : Type)
  | str (s : List Char)
  | subst (s : σ)
  | other

/-- `if '.' not in sid: sid = 'ig.' + sid` (`igtools.py:366-367`). -/
def fullId (s : List Char) : List Char := if '.' ∈ s then s else "ig.".toList ++ s

/-- The substance a key denotes (`igtools.py:365-382`). -/
def Key.resolve (L : Lib σ) : Key σ → Except Err σ
  | .str s =>
    match L.find (String.ofList (fullId s)) with
    | some x => .ok x
    | none => .error .param
  | .subst s => if L.inIg s then .ok s else .error .param
  | .other => .error .param

/-- The first loop (`igtools.py:362-386`): substances and the common shape. -/
def gather (L : Lib σ) : List (Key σ × Arr) → List σ → List Nat → Except Err (List σ × List Nat)
  | [], c, sh => .ok (c, sh)
  | (k, a) :: rest, c, sh => do
    let s ← k.resolve L
    let sh' ← broadcastShape a.shape sh
    gather L rest (c ++ [s]) sh'

/-- The second loop (`igtools.py:388-395`): every quantity converted to kmol and written to its
row. -/
noncomputable def fillRows (E : Env) (L : Lib σ) (units : Option String) (sh : List Nat) :
    List σ → List Arr → Except Err (List Arr)
  | s :: ss, a :: as => do
    let k ← matterFactor E L s units (some "kmol")
    let r ← (a.scale k).bto sh
    let rs ← fillRows E L units sh ss as
    .ok (r :: rs)
  | _, _ => .ok []

/-- Rows stacked to one array. -/
def stack (sh : List Nat) (rows : List Arr) : Arr :=
  tab (rows.length :: sh) fun r i => match rows[r]? with
    | some a => a.val i
    | none => 0

/-- `IgtMix(contents, units)` with a dictionary (`igtools.py:353-395`). -/
noncomputable def init (E : Env) (L : Lib σ) (contents : List (Key σ × Arr))
    (units : Option String) : Except Err (Mix σ) := do
  let r ← gather L contents [] [1]
  let rows ← fillRows E L units r.2 r.1 (contents.map Prod.snd)
  .ok ⟨r.1, stack r.2 rows⟩

/-! ### Arithmetic (`igtools.py:403-516`) -/

/-- `for bc in b._c: if bc not in self._c: self._c.append(bc)` (`igtools.py:415-419`). -/
def extend (c : List σ) : List σ → List σ
  | [] => c
  | b :: bs => if b ∈ c then extend c bs else extend (c ++ [b]) bs

/-- `q = np.zeros((NN,) + shape); q[:N] = self._q` (`igtools.py:427-430`). -/
noncomputable def grow (a : Arr) (N NN : Nat) (sh : List Nat) : Except Err Arr := do
  let x ← a.bto (N :: sh)
  .ok (tab (NN :: sh) fun r i => if r < N then x.val (r :: i) else 0)

/-- Row `r` of an array. -/
def Arr.row (a : Arr) (r : Nat) : Arr := ⟨a.shape.tail, fun i => a.val (r :: i)⟩

/-- `self._q[ai,:] += row` (`igtools.py:434`). -/
noncomputable def addRow (q : Arr) (ai : Nat) (row : Arr) : Except Err Arr := do
  let x ← row.bto q.shape.tail
  .ok (tab q.shape fun r i => if r = ai then q.val (r :: i) + x.val i else q.val (r :: i))

/-- The loop over the substances of `b` (`igtools.py:432-434`); `bi` counts the rows. -/
noncomputable def addRows (c : List σ) (bq : Arr) : List σ → Nat → Arr → Except Err Arr
  | [], _, q => .ok q
  | s :: ss, bi, q => do
    let q' ← addRow q (c.idxOf s) (bq.row bi)
    addRows c bq ss (bi + 1) q'

/-- The array before the rows are added: enlarged when the number of substances or the shape
changes (`igtools.py:427-430`). -/
noncomputable def grown (a : Mix σ) (NN : Nat) (sh : List Nat) : Except Err Arr :=
  if NN ≠ a.c.length ∨ a.shape ≠ sh then grow a.q a.c.length NN sh else .ok a.q

/-- The part of `__iadd__` after the substance list has been extended (`igtools.py:420-436`). -/
noncomputable def iaddQ (a b : Mix σ) (c : List σ) : Except Err Arr := do
  let sh ← broadcastShape b.shape a.shape
  let q ← grown a c.length sh
  addRows c b.q b.c 0 q

/-- `a += b` for two mixtures (`igtools.py:403-437`): `a` afterwards and the exception, if any.
The substance list is extended before anything can fail.  Simplification: when a row addition
fails, rows already added are not shown. -/
noncomputable def iadd (a b : Mix σ) : Mix σ × Option Err :=
  let c := extend a.c b.c
  match iaddQ a b c with
  | .ok q => (⟨c, q⟩, none)
  | .error e => (⟨c, a.q⟩, some e)

/-- `a + b` (`igtools.py:440-448`): a copy of `a` is extended. -/
noncomputable def add (a b : Mix σ) : Except Err (Mix σ) :=
  match iadd a b with
  | (m, none) => .ok m
  | (_, some e) => .error e

/-- `-a` (`igtools.py:456-464`). -/
noncomputable def neg (a : Mix σ) : Mix σ := ⟨a.c, ⟨a.q.shape, fun i => - a.q.val i⟩⟩

/-- `a - b` for two mixtures (`igtools.py:467-475`). -/
noncomputable def sub (a b : Mix σ) : Except Err (Mix σ) := add (neg b) a

/-- `a -= b` (`igtools.py:477-479`). -/
noncomputable def isub (a b : Mix σ) : Mix σ × Option Err := iadd a (neg b)

/-- `b - a` when `b` is not a mixture and is converted to one (`igtools.py:481-484`). -/
noncomputable def rsub (a b : Mix σ) : Except Err (Mix σ) := add (neg a) b

/-- `a *= b` (`igtools.py:487-502`).  Elementwise product with NumPy broadcasting over the whole
array `_q`, whose first axis is the substance axis. -/
noncomputable def imul (a : Mix σ) (b : Arr) : Except Err (Mix σ) := do
  let q ← b.atleast1.mul a.q
  .ok ⟨a.c, q⟩

/-- `a / k` for a number (`igtools.py:512-516`). -/
noncomputable def divBy (a : Mix σ) (k : ℝ) : Except Err (Mix σ) :=
  if k = 0 then .error .zeroDivision else imul a ⟨[], fun _ => 1 / k⟩

/-! ### Element access (`igtools.py:518-561`, `916-1134`) -/

/-- Index arguments: an integer, a string, a substance object, the full slice `:`, or a tuple of a
substance index and integer positions.  Simplification: only the full slice, and non-negative
integers. -/
inductive Idx (σ : Type)
  | int (n : Nat)
  | str (s : List Char)
  | obj (s : σ)
  | all
  | tup (i : Idx σ) (rest : List Nat)

/-- A resolved index. -/
inductive Pos
  | row (n : Nat)
  | all
  | tup (i : Pos) (rest : List Nat)
  deriving DecidableEq

/-- Position of the first substance with this identifier (`igtools.py:545-550`). -/
def findSid (L : Lib σ) (s : String) : List σ → Nat → Option Nat
  | [], _ => none
  | x :: xs, i => if L.sid x = s then some i else findSid L s xs (i + 1)

/-- `_sindex` (`igtools.py:518-561`). -/
def sindex (L : Lib σ) (m : Mix σ) : Idx σ → Option Pos
  | .int n => some (.row n)
  | .all => some .all
  | .str s => (findSid L (String.ofList (fullId s)) m.c 0).map .row
  | .obj s => if s ∈ m.c then some (.row (m.c.idxOf s)) else none
  | .tup i rest => (sindex L m i).map (fun p => .tup p rest)

/-- What `m[index]` gives: an array of amounts, or a mixture. -/
inductive Got (σ : Type)
  | arr (a : Arr)
  | mix (m : Mix σ)

/-- `m[index]` (`igtools.py:916-942`).  Python's `IndexError` for a row beyond the last.  The
shape of a tuple-indexed sub-mixture drops the axes indexed by integers.  Simplification: nested
tuples, too many and out-of-range positions are `IndexError`. -/
noncomputable def getItem (E : Env) (L : Lib σ) (m : Mix σ) (i : Idx σ) : Except Err (Got σ) :=
  match sindex L m i with
  | none => .error .param
  | some .all => .ok (.mix m)
  | some (.row n) =>
    match m.c[n]? with
    | none => .error .index
    | some s => do
      let k ← matterFactor E L s (some "kmol") none
      .ok (.arr ((m.q.row n).scale k))
  | some (.tup (.row n) rest) =>
    match m.c[n]? with
    | none => .error .index
    | some s =>
      if rest.length ≤ m.shape.length ∧ (List.zipWith (fun i d => decide (i < d)) rest m.shape).all id then do
        let k ← matterFactor E L s (some "kmol") none
        .ok (.arr (Arr.scale ⟨m.shape.drop rest.length, fun i => m.q.val (n :: (rest ++ i))⟩ k))
      else .error .index
  | some (.tup .all rest) =>
    if rest.length ≤ m.shape.length ∧ (List.zipWith (fun i d => decide (i < d)) rest m.shape).all id then
      .ok (.mix ⟨m.c, tab (m.c.length :: m.shape.drop rest.length) fun r i => m.q.val (r :: (rest ++ i))⟩)
    else .error .index
  | some (.tup (.tup _ _) _) => .error .index

/-- `_q[:] = self._q` into an array with the new shape (`igtools.py:970-975`), if it differs. -/
noncomputable def reshapeTo (m : Mix σ) (sh : List Nat) : Except Err Arr :=
  if sh ≠ m.shape then m.q.bto (m.q.shape.headD 0 :: sh) else .ok m.q

/-- The last branch of `__setitem__` (`igtools.py:965-978`) for an integer row. -/
noncomputable def setRow (E : Env) (L : Lib σ) (m : Mix σ) (n : Nat) (v : Arr) :
    Except Err (Mix σ) := do
  let v := v.atleast1
  let sh ← broadcastShape v.shape m.shape
  let q ← reshapeTo m sh
  match m.c[n]? with
  | none => .error .index
  | some s => do
    let k ← matterFactor E L s none (some "kmol")
    let r ← (v.scale k).bto sh
    .ok ⟨m.c, tab q.shape fun j i => if j = n then r.val i else q.val (j :: i)⟩

/-- The last branch of `__setitem__` for a tuple index: `self._c[index]` is a list indexed with a
tuple, a `TypeError` (`igtools.py:978`). -/
noncomputable def setTuple (m : Mix σ) (v : Arr) : Except Err (Mix σ) := do
  let sh ← broadcastShape v.atleast1.shape m.shape
  let _ ← reshapeTo m sh
  .error .type

/-- The loop of a slice assignment (`igtools.py:957-963`): row after row through `__setitem__`,
with the amounts of `value` in kmol. -/
noncomputable def setRows (E : Env) (L : Lib σ) (vq : Arr) (rest : Option (List Nat)) :
    List σ → Nat → Mix σ → Except Err (Mix σ)
  | [], _, m => .ok m
  | s :: ss, k, m => do
    let i ← match rest with
      | none => pure (Idx.obj s)
      | some r => pure (Idx.tup (.obj s) r)
    match sindex L m i with
    | none => .error .param
    | some (.row n) => do
      let m' ← setRow E L m n (vq.row k)
      setRows E L vq rest ss (k + 1) m'
    | some _ => do
      let m' ← setTuple m (vq.row k)
      setRows E L vq rest ss (k + 1) m'

/-- What may be assigned. -/
inductive Assigned (σ : Type)
  | arr (a : Arr)
  | mix (m : Mix σ)

/-- `m[index] = value` (`igtools.py:945-978`).  Simplification: a value assigned to a slice is a
mixture already, a value assigned to a substance an array. -/
noncomputable def setItem (E : Env) (L : Lib σ) (m : Mix σ) (i : Idx σ) (v : Assigned σ) :
    Except Err (Mix σ) :=
  match sindex L m i, v with
  | none, _ => .error .param
  | some (.row n), .arr a => setRow E L m n a
  | some .all, .mix b => setRows E L b.q none b.c 0 m
  | some (.tup .all rest), .mix b => setRows E L b.q (some rest) b.c 0 m
  | some (.tup _ _), .arr a => setTuple m a
  | some _, _ => .error .param

/-- `insert(sid, qty, units)` (`igtools.py:1062-1117`). -/
noncomputable def insert (E : Env) (L : Lib σ) (m : Mix σ) (key : Key σ) (qty : Arr)
    (units : Option String) : Except Err (Mix σ) := do
  let s ← key.resolve L
  if s ∈ m.c then .error .param
  else do
    let qty := qty.atleast1
    let qty ← match units with
      | some u => do
        let k ← matterFactor E L s (some u) (some "kmol")
        .ok (qty.scale k)
      | none => .ok qty
    let sh ← broadcastShape qty.shape m.shape
    let last ← qty.bto sh
    let old ← m.q.bto (m.c.length :: sh)
    .ok ⟨m.c ++ [s], tab ((m.c.length + 1) :: sh) fun r i => if r = m.c.length then last.val i else old.val (r :: i)⟩

/-- `remove(sid)` (`igtools.py:1119-1131`) for a substance index. -/
def remove (L : Lib σ) (m : Mix σ) (i : Idx σ) : Except Err (Mix σ) :=
  match sindex L m i with
  | none => .error .param
  | some (.row n) =>
    if n < m.c.length then
      .ok ⟨m.c.eraseIdx n, tab ((m.c.length - 1) :: m.shape) fun r i => m.q.val ((if r < n then r else r + 1) :: i)⟩
    else .error .index
  | some _ => .error .type

/-! ### Measures (`igtools.py:865-874`, `1216-1325`) -/

/-- `todict(units)` (`igtools.py:1216-1231`). -/
noncomputable def todict (E : Env) (L : Lib σ) (m : Mix σ) (units : Option String) :
    Except Err (List (Key σ × Arr)) :=
  (m.c.zip (List.range m.c.length)).mapM (fun p => do
    let k ← matterFactor E L p.1 (some "kmol") units
    .ok (.str (L.sid p.1).toList, (m.q.row p.2).scale k))

open scoped BigOperators in
/-- `np.sum(self._q, axis=0)` at one position. -/
noncomputable def total (m : Mix σ) (i : List Nat) : ℝ :=
  ∑ r ∈ Finset.range m.c.length, m.q.val (r :: i)

/-- `X()` as an array (`igtools.py:1260-1273`).  Simplification: a zero total gives NaN in
NumPy. -/
noncomputable def mX (m : Mix σ) : Arr :=
  tab m.q.shape fun r i => m.q.val (r :: i) / total m i

/-- The factors `subst.mw()` as a list (`igtools.py:1287`). -/
noncomputable def userMws (E : Env) (L : Lib σ) (m : Mix σ) : Except Err (List ℝ) :=
  m.c.mapM (userMw E L)

open scoped BigOperators in
/-- `Y()` as an array (`igtools.py:1276-1294`). -/
noncomputable def mY (E : Env) (L : Lib σ) (m : Mix σ) : Except Err Arr := do
  let w ← userMws E L m
  .ok (tab m.q.shape fun r i => m.q.val (r :: i) * w.getD r 0 /
    ∑ r ∈ Finset.range m.c.length, m.q.val (r :: i) * w.getD r 0)

open scoped BigOperators in
/-- `mass()` (`igtools.py:1297-1309`). -/
noncomputable def mMass (E : Env) (L : Lib σ) (m : Mix σ) : Except Err Arr := do
  let u ← E.c.str "unit_mass"
  let k ← m.c.mapM (fun s => matterFactor E L s (some "kmol") (some u))
  .ok ⟨m.shape, fun i => ∑ r ∈ Finset.range m.c.length, m.q.val (r :: i) * k.getD r 0⟩

/-- `molar()` (`igtools.py:1312-1323`). -/
noncomputable def mMolar (E : Env) (m : Mix σ) : Except Err Arr := do
  let u ← E.c.str "unit_molar"
  let k ← scalarOf ((molar E.a).call E.c.str (.scalar 1) (some "kmol") (some u) none false)
  .ok ⟨m.shape, fun i => total m i * k⟩

open scoped BigOperators in
/-- `_mw()` (`igtools.py:865-873`), kg/kmol. -/
noncomputable def mwI (L : Lib σ) (m : Mix σ) (i : List Nat) : ℝ :=
  (∑ r ∈ Finset.range m.c.length, (m.c[r]?.map (fun s => (L.gas s).mw)).getD 0 * m.q.val (r :: i)) /
    total m i

/-- `subst.data['mw']` for every substance (`igtools.py:872`): an `igmix` entry has no such key. -/
def mwKeys (L : Lib σ) (m : Mix σ) : Except Err Unit :=
  if m.c.any (fun s => L.cls s = .igmix) then .error .key else .ok ()

/-- `mw()` (`igtools.py:1486-1496`). -/
noncomputable def mMwMix (E : Env) (L : Lib σ) (m : Mix σ) : Except Err Arr := do
  mwKeys L m
  let k ← scalarOf ((mass E.a).call E.c.str (.scalar 1) (some "kg") none none true)
  let k ← scalarOf ((molar E.a).call E.c.str (.scalar k) (some "kmol") none (some (-1)) true)
  .ok ⟨m.shape, fun i => mwI L m i * k⟩

/-- `working += qty * aq` on the dictionary of atoms (`igtools.py:1249-1257`). -/
noncomputable def addAtomAt (out : List (String × (List Nat → ℝ))) (a : String) (f : List Nat → ℝ) :
    List (String × (List Nat → ℝ)) :=
  match out with
  | [] => [(a, fun i => 0 + f i)]
  | (b, g) :: out => if b = a then (b, fun i => g i + f i) :: out else (b, g) :: addAtomAt out a f

/-- The atoms of one substance (`igtools.py:1252-1257`). -/
noncomputable def addAtoms (q : List Nat → ℝ) :
    List (String × ℝ) → List (String × (List Nat → ℝ)) → List (String × (List Nat → ℝ))
  | [], out => out
  | (a, n) :: as, out => addAtoms q as (addAtomAt out a (fun i => q i * n))

/-- The loop of `atoms()` (`igtools.py:1250-1257`). -/
noncomputable def atomsRows (L : Lib σ) (q : Arr) (k : ℝ) :
    List σ → Nat → List (String × (List Nat → ℝ)) → List (String × (List Nat → ℝ))
  | [], _, out => out
  | s :: ss, r, out => atomsRows L q k ss (r + 1) (addAtoms (fun i => q.val (r :: i) * k) (L.atoms s) out)

/-- `atoms()` (`igtools.py:1237-1258`). -/
noncomputable def mAtoms (E : Env) (L : Lib σ) (m : Mix σ) :
    Except Err (List (String × (List Nat → ℝ))) := do
  let u ← E.c.str "unit_molar"
  let k ← scalarOf ((molar E.a).call E.c.str (.scalar 1) (some "kmol") (some u) none false)
  .ok (atomsRows L m.q k m.c 0 [])

/-- The loop of `Tlim()` (`igtools.py:1518-1526`), in the configured temperature scale; `none`
stands for the initial infinite values. -/
noncomputable def tlimLoop (E : Env) (L : Lib σ) : List σ → Option ℝ → Option ℝ →
    Except Err (Option ℝ × Option ℝ)
  | [], lo, hi => .ok (lo, hi)
  | s :: ss, lo, hi => do
    let t ← mTlim E (L.gas s)
    let lo' := match lo with
      | none => some t.1
      | some l => open Classical in if t.1 < l then some t.1 else some l
    let hi' := match hi with
      | none => some t.2
      | some h => open Classical in if t.2 > h then some t.2 else some h
    tlimLoop E L ss lo' hi'

/-- `Tlim()` (`igtools.py:1509-1526`). -/
noncomputable def mTlimMix (E : Env) (L : Lib σ) (m : Mix σ) : Except Err (Option ℝ × Option ℝ) :=
  tlimLoop E L m.c none none

/-! ### Mixture strings (`igtools.py:14-36`) -/

/-- `mixstr.split('+')`. -/
def splitPlus : List Char → List (List Char)
  | [] => [[]]
  | '+' :: rest => [] :: splitPlus rest
  | c :: rest =>
    match splitPlus rest with
    | [] => [[c]]
    | p :: ps => (c :: p) :: ps

/-- `str.strip()`; `ws` is Python's white-space test. -/
def strip (ws : Char → Bool) (s : List Char) : List Char :=
  ((s.dropWhile ws).reverse.dropWhile ws).reverse

/-- `for ii,c in enumerate(this): if c.isalpha(): break` (`igtools.py:25-27`): `ii` afterwards,
starting from the value left by the previous fragment (`none`: not yet assigned). -/
def scan (alpha : Char → Bool) (ii : Option Nat) : List Char → Nat → Option Nat
  | [], _ => ii
  | c :: cs, k => if alpha c then some k else scan alpha (some k) cs (k + 1)

/-- `result[subst] = coef`. -/
def putKey (d : List (List Char × ℝ)) (k : List Char) (v : ℝ) : List (List Char × ℝ) :=
  match d with
  | [] => [(k, v)]
  | (j, w) :: d => if j = k then (j, v) :: d else (j, w) :: putKey d k v

/-- The loop of `parse_mixstr` (`igtools.py:21-35`).  `toFloat` is Python's `float`. -/
noncomputable def parseLoop (ws alpha : Char → Bool) (toFloat : List Char → Option ℝ) :
    List (List Char) → Option Nat → List (List Char × ℝ) → Except Err (List (List Char × ℝ))
  | [], _, d => .ok d
  | this :: rest, ii, d =>
    match scan alpha ii this 0 with
    | none => .error .unboundLocal
    | some k =>
      let coefstr := strip ws (this.take k)
      let coef := if coefstr = [] then some 1 else toFloat coefstr
      match coef with
      | none => .error .param
      | some x => parseLoop ws alpha toFloat rest (some k) (putKey d (strip ws (this.drop k)) x)

/-- `parse_mixstr` (`igtools.py:14-36`). -/
noncomputable def parseMixstr (ws alpha : Char → Bool) (toFloat : List Char → Option ℝ)
    (s : List Char) : Except Err (List (List Char × ℝ)) :=
  parseLoop ws alpha toFloat (splitPlus s) none []

end PyroMat.Igt
