import Verif.Gas.Model

/-!
# The `igmix` class (`registry/igmix.py`)

A mixture object completes its set-up on first use (`_bootstrap`).  What the shared code of the
ideal-gas classes reads from it is again a `Gas`; the property methods themselves are the ones of
`Model.lean` (the texts of `igmix.py` differ from those of `ig2.py` only in converting the result
by a chain of in-place conversions instead of one multiplication by the product of the factors).
-/

namespace PyroMat.Gas.Mix

open PyroMat PyroMat.Gas

/-- What `pm.dat.data.get(name)` may give: an `ig` or `ig2` object with the `atoms` entry of its
data, if any, or an object of another class (`igmix.py:119-132`). -/
inductive Species
  | gas (G : Gas) (atoms : Option (List (String × ℝ)))
  | other

/-- The loaded collection, `pm.dat.data`. -/
abbrev Coll := String → Option Species

/-- The entries of a mixture's `data` dictionary that are read (`igmix.py:119`, `138`). -/
structure Entry where
  contents : List (String × ℝ)
  bymass : Bool

/-- The attributes of a mixture object, initially as `__init__` leaves them (`igmix.py:62-81`).
A limit `none` is the initial infinite one; `smix = none` means the attribute does not exist. -/
structure Obj where
  bs : Bool := false
  x : List (String × ℝ) := []
  y : List (String × ℝ) := []
  mw : ℝ := 0
  pref : ℝ := 0
  lo : Option ℝ := none
  hi : Option ℝ := none
  smix : Option Nan := none

/-- The running totals of the first loop of `_bootstrap` together with the attributes. -/
structure Tally where
  tx : ℝ
  ty : ℝ
  o : Obj

/-- `max(spec_Tmin, limit)` with an initially infinite limit (`igmix.py:153`). -/
noncomputable def maxLo (t : ℝ) : Option ℝ → Option ℝ
  | none => some t
  | some l => some (max t l)

/-- `min(spec_Tmax, limit)` (`igmix.py:154`). -/
noncomputable def minHi (t : ℝ) : Option ℝ → Option ℝ
  | none => some t
  | some l => some (min t l)

/-- One pass of the first loop for a known species (`igmix.py:134-154`).  Simplification: a zero
molecular weight raises `ZeroDivisionError` in the text, and a non-positive reference pressure
gives a NaN logarithm. -/
noncomputable def step (bymass : Bool) (name : String) (qty : ℝ) (G : Gas) (t : Tally) : Tally :=
  let y := if bymass then qty else qty * G.mw
  let x := if bymass then qty / G.mw else qty
  { tx := t.tx + x
    ty := t.ty + y
    o := { t.o with
      y := t.o.y ++ [(name, y)]
      x := t.o.x ++ [(name, x)]
      mw := t.o.mw + G.mw * x
      pref := t.o.pref + Real.log G.pref * x
      lo := maxLo G.Tlo t.o.lo
      hi := minHi G.Thi t.o.hi } }

/-- The first loop (`igmix.py:119-154`): a species that is missing or of another class raises
`PMDataError`; the attributes keep what was written so far. -/
noncomputable def loop (coll : Coll) (bymass : Bool) : List (String × ℝ) → Tally → Tally × Option Err
  | [], t => (t, none)
  | (name, qty) :: rest, t =>
    match coll name with
    | some (.gas G _) => loop coll bymass rest (step bymass name qty G t)
    | _ => (t, some .data)

open Classical in
/-- `x * np.log(x)`: NaN for `x <= 0` (at 0 it is `0 * -inf`). -/
noncomputable def xlogx (x : ℝ) : Nan := if 0 < x then some (x * Real.log x) else none

/-- `_smix` (`igmix.py:161-169`): minus the sum of `x log x`, times the gas constant. -/
noncomputable def smixOf (xs : List (String × ℝ)) : Nan :=
  (xs.foldl (fun a q => nan2 (· - ·) a (xlogx q.2)) (some 0)).map (· * Ru)

open Classical in
/-- The normalisation (`igmix.py:156-169`).  A zero total raises `ZeroDivisionError`.
Simplification: a zero total mass is tested before the reference pressure is written. -/
noncomputable def finish (t : Tally) : Except Err Unit × Obj :=
  if t.tx = 0 ∨ t.ty = 0 then (.error .zeroDivision, t.o)
  else
    let x := t.o.x.map (fun q => (q.1, q.2 / t.tx))
    let y := t.o.y.map (fun q => (q.1, q.2 / t.ty))
    (.ok (), { t.o with mw := t.o.mw / t.tx, pref := Real.exp (t.o.pref / t.tx), x := x, y := y, smix := some (smixOf x) })

/-- `_bootstrap` (`igmix.py:84-169`): does nothing once the flag is set, and sets the flag first. -/
noncomputable def bootstrap (coll : Coll) (D : Entry) (o : Obj) : Except Err Unit × Obj :=
  if o.bs then (.ok (), o)
  else
    let r := loop coll D.bymass D.contents ⟨0, 0, { o with bs := true, x := [], y := [], mw := 0, pref := 0, lo := none, hi := none }⟩
    match r.2 with
    | some e => (.error e, r.1.o)
    | none => finish r.1

/-! ## Inner routines -/

/-- `out += x * spec._cp(T)` over the contents (`igmix.py:501-516`). -/
noncomputable def sumCp (cs : List (ℝ × Gas)) (T : ℝ) : Nan :=
  cs.foldl (fun a c => nan2 (· + ·) a ((c.2.cp T).map (c.1 * ·))) (some 0)

/-- `h += x * spec_h; hT += x * spec_hT` over the contents (`igmix.py:519-627`), for the routine
`f` of the species. -/
noncomputable def sumPair (f : Gas → ℝ → Option (ℝ × ℝ)) (cs : List (ℝ × Gas)) (T : ℝ) :
    Option (ℝ × ℝ) :=
  cs.foldl (fun a c => a.bind (fun a => (f c.2 T).map (fun r => (a.1 + c.1 * r.1, a.2 + c.1 * r.2))))
    (some (0, 0))

/-- `_h`, the sum (`igmix.py:602-627`). -/
noncomputable def hM (cs : List (ℝ × Gas)) : ℝ → Option (ℝ × ℝ) := sumPair Gas.h cs

/-- `_s` (`igmix.py:519-544`): the sum plus the entropy of mixing. -/
noncomputable def sM (cs : List (ℝ × Gas)) (smix : Nan) (T : ℝ) : Option (ℝ × ℝ) :=
  (sumPair Gas.s cs T).bind (fun r => smix.map (fun m => (r.1 + m, r.2)))

/-- `_g` (`igmix.py:547-572`): the sum less `T * smix`; the derivative is left as it is. -/
noncomputable def gM (cs : List (ℝ × Gas)) (smix : Nan) (T : ℝ) : Option (ℝ × ℝ) :=
  (sumPair Gas.g cs T).bind (fun r => smix.map (fun m => (r.1 - T * m, r.2)))

/-- `_f` (`igmix.py:575-600`). -/
noncomputable def fM (cs : List (ℝ × Gas)) (smix : Nan) (T : ℝ) : Option (ℝ × ℝ) :=
  (sumPair Gas.f cs T).bind (fun r => smix.map (fun m => (r.1 - T * m, r.2)))

/-- The species of a mixture as they are in the collection at the time of the call
(`pm.dat.data[ss]`). -/
noncomputable def species (coll : Coll) (xs : List (String × ℝ)) : Option (List (ℝ × Gas)) :=
  xs.mapM (fun q => match coll q.1 with
    | some (.gas G _) => some (q.2, G)
    | _ => none)

/-- What the shared code reads from the object.  `none`: not modelled (a limit is still infinite,
or a species has left the collection).  The Helmholtz routine of the shared code is derived from
`_g`; that it agrees with `fM` is proved in `PropsMix.lean`.  When `_smix` does not exist the
entropy routines raise `AttributeError`; see `call`. -/
noncomputable def toGas (coll : Coll) (o : Obj) : Option Gas :=
  match species coll o.x, o.lo, o.hi with
  | some cs, some lo, some hi =>
    some { Tlo := lo, Thi := hi, mw := o.mw, pref := o.pref, cp := sumCp cs, h := hM cs, s := sM cs (o.smix.getD none), g := gM cs (o.smix.getD none) }
  | _, _, _ => none

/-- A property method: `self._bootstrap()` and then the shared body `f` (e.g. `igmix.py:883-893`).
`usesEntropy`: the body evaluates `_s`, `_g` or `_f`, which raise `AttributeError` while `_smix`
does not exist (simplification: before any other error of the body). -/
noncomputable def call {α : Type} (coll : Coll) (D : Entry) (o : Obj) (usesEntropy : Bool)
    (f : Gas → Except Err α) : Option (Except Err α) × Obj :=
  match bootstrap coll D o with
  | (.error e, o') => (some (.error e), o')
  | (.ok _, o') =>
    if usesEntropy && o'.smix.isNone then (some (.error .attribute), o')
    else ((toGas coll o').map f, o')

/-- `X()` (`igmix.py:1147-1157`). -/
noncomputable def mX (coll : Coll) (D : Entry) (o : Obj) : Except Err (List (String × ℝ)) × Obj :=
  match bootstrap coll D o with
  | (.error e, o') => (.error e, o')
  | (.ok _, o') => (.ok o'.x, o')

/-- `Y()` (`igmix.py:1160-1170`). -/
noncomputable def mY (coll : Coll) (D : Entry) (o : Obj) : Except Err (List (String × ℝ)) × Obj :=
  match bootstrap coll D o with
  | (.error e, o') => (.error e, o')
  | (.ok _, o') => (.ok o'.y, o')

/-- `if atom not in atoms: atoms[atom] = 0; atoms[atom] += n` (`igmix.py:663-665`). -/
noncomputable def addAtom (atoms : List (String × ℝ)) (a : String) (n : ℝ) : List (String × ℝ) :=
  match atoms.lookup a with
  | none => atoms ++ [(a, n)]
  | some _ => atoms.map (fun q => if q.1 = a then (a, q.2 + n) else q)

/-- The loops of `atoms()` (`igmix.py:656-665`). -/
noncomputable def atomsLoop (coll : Coll) : List (String × ℝ) → List (String × ℝ) → Except Err (List (String × ℝ))
  | [], acc => .ok acc
  | (name, x) :: rest, acc =>
    match coll name with
    | some (.gas _ (some as)) =>
      atomsLoop coll rest (as.foldl (fun acc q => addAtom acc q.1 (q.2 * x)) acc)
    | some (.gas _ none) => .error .data
    | _ => .error .attribute

/-- `atoms()` (`igmix.py:645-666`). -/
noncomputable def mAtoms (coll : Coll) (D : Entry) (o : Obj) : Except Err (List (String × ℝ)) × Obj :=
  match bootstrap coll D o with
  | (.error e, o') => (.error e, o')
  | (.ok _, o') => (atomsLoop coll o'.x [], o')

end PyroMat.Gas.Mix
