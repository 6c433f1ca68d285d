import Verif.Igt.Model
import Mathlib.Analysis.SpecialFunctions.Log.Basic

/-!
# Properties of dynamic mixtures: the property interface of `IgtMix`

`igtools.py:616-911` (`_argparse`, `_mw`, `_sp`) and `igtools.py:1345-1802` (`_propeval`, `_pref`,
`_iter1` and the property methods).  Elements of arrays may be NaN (`none`).
-/

namespace PyroMat.Igt

open PyroMat PyroMat.Units PyroMat.Gas PyroMat.Config.Defaults

/-! ## Arrays that may hold NaN -/

/-- An `ndarray` of floats. -/
structure NArr where
  shape : List Nat
  val : List Nat → Nan

/-- A user's array as an array of floats. -/
def Arr.nan (a : Arr) : NArr := ⟨a.shape, fun i => some (a.val i)⟩

/-- NumPy's reading of an array inside an elementwise operation: axes matched from the right, axes
of length 1 read at 0. -/
def NArr.get (a : NArr) (i : List Nat) : Nan :=
  a.val (clip a.shape (i.drop (i.length - a.shape.length)))

/-- `np.broadcast_to(a, target)` (the result is read-only). -/
def NArr.bto (a : NArr) (target : List Nat) : Except Err NArr :=
  if a.shape.length ≤ target.length ∧
      fits a.shape (target.drop (target.length - a.shape.length)) = true then
    .ok ⟨target, fun i => a.val (clip a.shape (i.drop (target.length - a.shape.length)))⟩
  else .error .value

/-- An elementwise operation on two arrays. -/
noncomputable def NArr.zip (f : ℝ → ℝ → ℝ) (a b : NArr) : Except Err NArr := do
  let sh ← npShape a.shape b.shape
  .ok ⟨sh, fun i => nan2 f (a.get i) (b.get i)⟩

/-- All index lists of a shape, in storage order. -/
def indices : List Nat → List (List Nat)
  | [] => [[]]
  | n :: s => (List.range n).flatMap (fun k => (indices s).map (k :: ·))

/-- A unit conversion applied to every element.  Simplification: whether a conversion raises
depends on the unit names alone, so it is tried on 0 first. -/
noncomputable def NArr.conv (f : Val ℝ → Except Err (Res ℝ)) (a : NArr) : Except Err NArr := do
  let _ ← scalarOf (f (.scalar 0))
  .ok ⟨a.shape, fun i => (a.val i).bind (fun x => (scalarOf (f (.scalar x))).toOption)⟩

variable {σ : Type} [DecidableEq σ]

/-- Where position `i` of a result reads the amounts of the mixture (`self._q` has the shape
`self.shape()` per substance and is combined with NumPy's rules). -/
def Mix.at (m : Mix σ) (i : List Nat) : List Nat :=
  clip m.shape (i.drop (i.length - m.shape.length))

/-- `zip(self._c, self._q)` at one position: every substance with its amount. -/
def rowsAt (m : Mix σ) (j : List Nat) : List (σ × ℝ) :=
  (m.c.zip (List.range m.c.length)).map (fun p => (p.1, m.q.val (p.2 :: j)))

/-! ## Molecular weight and matter units -/

/-- Whether a matter conversion changes between mass and moles (`units.py:585-596`). -/
noncomputable def crosses (a : SetupArgs ℝ) (fu tu : String) : Bool :=
  fu ≠ tu && (if (mass a).contains fu then !(mass a).contains tu else !(molar a).contains tu)

/-- `pm.units.matter(value, self._mw(), from_units, to_units, exponent)` (`units.py:562-601`): the
molecular weight is an array over the positions of the mixture, which matters only when the
conversion changes between mass and moles. -/
noncomputable def matterMix (E : Env) (L : Lib σ) (m : Mix σ) (a : NArr) (fu tu : Option String)
    (x : Option ℤ) : Except Err NArr := do
  mwKeys L m
  let f ← match fu with
    | some u => .ok u
    | none => E.c.str "unit_matter"
  let t ← match tu with
    | some u => .ok u
    | none => E.c.str "unit_matter"
  if crosses E.a f t then
    let sh ← npShape a.shape m.shape
    let _ ← scalarOf (matter E.a E.c.str (.scalar 0) 1 (some f) (some t) x false)
    .ok ⟨sh, fun i => (a.get i).bind (fun y =>
      (scalarOf (matter E.a E.c.str (.scalar y) (mwI L m (m.at i)) (some f) (some t) x false)).toOption)⟩
  else a.conv (fun v => matter E.a E.c.str v 1 (some f) (some t) x false)

/-! ## `_propeval`, `_sp`, `_pref` -/

/-- The accumulation `pval += q*this` (`igtools.py:1366-1374`) at one position. -/
noncomputable def mixSum (f : σ → Nan) : List (σ × ℝ) → Nan
  | [] => some 0
  | (s, q) :: rest => nan2 (· + ·) ((f s).map (q * ·)) (mixSum f rest)

/-- `_propeval(prop, T)` without derivative (`igtools.py:1345-1375`).
Simplification: the sum is accumulated from the right. -/
noncomputable def propeval (L : Lib σ) (m : Mix σ) (f : Gas → ℝ → Nan) (T : NArr) : Except Err NArr := do
  let sh ← npShape m.shape T.shape
  .ok ⟨sh, fun i => (T.get i).bind (fun t => mixSum (fun s => f (L.gas s) t) (rowsAt m (m.at i)))⟩

/-- `_propeval(prop, T, diff=True)` at one position: value and derivative. -/
noncomputable def mixEval (L : Lib σ) (f : Gas → ℝ → Option (ℝ × ℝ)) (rows : List (σ × ℝ)) (t : ℝ) :
    Option (ℝ × ℝ) :=
  (mixSum (fun s => (f (L.gas s) t).map (·.1)) rows).bind (fun y =>
    (mixSum (fun s => (f (L.gas s) t).map (·.2)) rows).map (fun y' => (y, y')))

/-- The class test of `_sp` and `_pref` (`igtools.py:888-897`, `1390-1399`). -/
def classes (L : Lib σ) (m : Mix σ) : Except Err Unit :=
  if m.c.any (fun s => L.cls s = .other) then .error .data else .ok ()

open Classical in
/-- `_sp(p)` (`igtools.py:876-911`), the pressure part of the entropy.  `temp[I] = 1.` indexes with
a mask of the shape of the mixture, which NumPy allows only if it is the beginning of the shape of
`temp`.  Simplification: the classes of all substances are tested first; NumPy's logarithm of zero
or a negative number is not modelled. -/
noncomputable def spMix (L : Lib σ) (m : Mix σ) (p : NArr) : Except Err NArr := do
  classes L m
  let sh ← npShape p.shape m.shape
  if sh.take m.shape.length ≠ m.shape then .error .index
  else if sh ≠ p.shape then .error .value
  else .ok ⟨sh, fun i => (p.val i).bind (fun p =>
    (mixSum (fun s => some s) ((m.c.zip (List.range m.c.length)).map (fun r =>
      (-(Real.log (if m.q.val (r.2 :: i.take m.shape.length) ≤ 0 then 1
        else p * m.q.val (r.2 :: m.at i) / total m (m.at i) / (L.gas r.1).pref)),
        m.q.val (r.2 :: m.at i))))).map (· * Ru))⟩

open Classical in
/-- `_pref()` (`igtools.py:1377-1405`) at one position of the mixture: the common reference pressure
or the logarithmic mean. -/
noncomputable def prefMix (L : Lib σ) (m : Mix σ) (j : List Nat) : ℝ :=
  match m.c with
  | [] => 0
  | s :: _ =>
    if m.c.all (fun t => (L.gas t).pref = (L.gas s).pref) then (L.gas s).pref
    else Real.exp ((((rowsAt m j).map (fun r => r.2 * Real.log (L.gas r.1).pref)).sum) / total m j)

open Classical in
/-- `np.sum(self._q * np.log(temp), axis=0)` with `temp = q / qt`, 1 where `q <= 0`
(`igtools.py:800-804`). -/
noncomputable def mixLog (m : Mix σ) (j : List Nat) : ℝ :=
  ((rowsAt m j).map (fun r => r.2 * Real.log (if r.2 ≤ 0 then 1 else r.2 / total m j))).sum

/-! ## `_iter1` -/

/-- `_iter1(prop, y, T, Ids, Tmin, Tmax)` (`igtools.py:1408-1480`) with all elements selected and
`T` starting in the middle of the range.  Each element goes through the steps of the same routine of
the ideal-gas classes (`Gas.iter1`); here the property is evaluated for all elements in every pass,
which changes nothing for those that have converged. -/
noncomputable def iterMix (L : Lib σ) (m : Mix σ) (f : Gas → ℝ → Option (ℝ × ℝ)) (y : NArr)
    (lo hi : ℝ) : Except Err (NArr × Bool) := do
  let sh ← npShape m.shape y.shape
  if sh ≠ y.shape then .error .index
  else do
    let r ← iter1 ((indices y.shape).map (fun i => match y.val i with
      | some y => (mixEval L f (rowsAt m (m.at i)), y)
      | none => (fun _ => none, 0))) (0.5 * (lo + hi)) lo hi
    .ok (⟨y.shape, fun i => r.1.getD ((indices y.shape).idxOf i) none⟩, r.2)

/-! ## `_argparse` -/

/-- Keyword arguments. -/
abbrev KwM := List (String × Arr)

/-- `name in kwarg`. -/
def KwM.has (kw : KwM) (k : String) : Bool := (kw.lookup k).isSome

/-- Positional arguments (`igtools.py:660-669`). -/
def bindPosM (varg : List Arr) (kw : KwM) : Except Err KwM :=
  match varg with
  | [] => .ok kw
  | [T] => if kw.has "T" then .error .param else .ok (("T", T) :: kw)
  | [T, p] =>
    if kw.has "T" then .error .param
    else if kw.has "p" then .error .param
    else .ok (("p", p) :: ("T", T) :: kw)
  | _ :: _ :: _ :: _ => .error .param

/-- A Python number as an array. -/
def num (x : ℝ) : Arr := ⟨[], fun _ => x⟩

/-- Defaults (`igtools.py:671-680`). -/
noncomputable def defaultsM (E : Env) (kw : KwM) : Except Err KwM :=
  match kw with
  | [] => do
    let T ← scalarOf (defT E.c)
    let p ← scalarOf (defp E.a E.c)
    .ok [("p", num p), ("T", num T)]
  | [q] =>
    if q.1 ≠ "T" then do
      let T ← scalarOf (defT E.c)
      .ok [("T", num T), q]
    else do
      let p ← scalarOf (defp E.a E.c)
      .ok [("p", num p), q]
  | _ => .ok kw

/-- The argument rules (`igtools.py:682-717`). -/
def rulesM (kw : KwM) : Except Err Unit :=
  if kw.length > 2 then .error .param
  else if kw.any (fun q => !legal.contains q.1) then .error .param
  else if (["T", "e", "h"].filter (fun k => kw.has k)).length > 1 then .error .param
  else if kw.has "v" && kw.has "d" then .error .param
  else .ok ()

/-- What `_argparse` returns.  `ro`: the temperature array is read-only (it came from
`np.broadcast_to`); `warned`: an inversion printed its warning. -/
structure MixState where
  T : NArr
  p : Option NArr
  d : Option NArr
  ro : Bool
  warned : Bool

/-- One keyword, as an array of at least one dimension (`igtools.py:719-726`), converted. -/
noncomputable def argM (kw : KwM) (name : String) (f : NArr → Except Err NArr) :
    Except Err (Option NArr) :=
  match kw.lookup name with
  | none => .ok none
  | some a => (f a.atleast1.nan).map some

/-- Temperature limits in kelvin (`igtools.py:653-655`).  Simplification: for an empty mixture, whose
limits are infinite and exclude every temperature, `PMParamError` at once. -/
noncomputable def limsM (E : Env) (L : Lib σ) (m : Mix σ) : Except Err (ℝ × ℝ) := do
  match (← mTlimMix E L m) with
  | (some lo, some hi) => do
    let lo ← scalarOf (temperatureScale E.c.str (.scalar lo) none (some "K") false)
    let hi ← scalarOf (temperatureScale E.c.str (.scalar hi) none (some "K") false)
    .ok (lo, hi)
  | _ => .error .param

/-- `d` in kmol/m3 (`igtools.py:738-740`). -/
noncomputable def densM (E : Env) (L : Lib σ) (m : Mix σ) (a : NArr) : Except Err NArr := do
  let a ← a.conv (fun v => (volume : Conv ℝ).call E.c.str v none (some "m3") (some (-1)) false)
  matterMix E L m a none (some "kmol") none

/-- `v` as a density (`igtools.py:741-744`).  Simplification: `1/0` is 0 in Lean. -/
noncomputable def volM (E : Env) (L : Lib σ) (m : Mix σ) (a : NArr) : Except Err NArr := do
  let a ← a.conv (fun v => (volume : Conv ℝ).call E.c.str v none (some "m3") none false)
  let a ← matterMix E L m a none (some "kmol") (some (-1))
  .ok ⟨a.shape, fun i => (a.val i).map (fun x => 1 / x)⟩

/-- Temperature from `h` or `e` (`igtools.py:745-762`). -/
noncomputable def energyM (E : Env) (L : Lib σ) (m : Mix σ) (f : Gas → ℝ → Option (ℝ × ℝ))
    (lo hi : ℝ) (a : NArr) : Except Err (NArr × Bool) := do
  let a ← a.conv (fun v => (energy : Conv ℝ).call E.c.str v none (some "kJ") none false)
  let sh ← broadcastShape a.shape m.shape
  let y ← a.bto sh
  iterMix L m f y lo hi

/-- The keyword `h` or `e`, as an array of at least one dimension (`igtools.py:719-726`). -/
noncomputable def argE (E : Env) (L : Lib σ) (m : Mix σ) (f : Gas → ℝ → Option (ℝ × ℝ))
    (lo hi : ℝ) (kw : KwM) (name : String) : Except Err (Option (NArr × Bool)) :=
  match kw.lookup name with
  | none => .ok none
  | some a => (energyM E L m f lo hi a.atleast1.nan).map some

/-- `s` in kJ/K (`igtools.py:763-767`). -/
noncomputable def entrM (E : Env) (a : NArr) : Except Err NArr := do
  let a ← a.conv (fun v => (energy : Conv ℝ).call E.c.str v none (some "kJ") none false)
  a.conv (fun v => (temperature : Conv ℝ).call E.c.str v none (some "K") (some (-1)) false)

/-- The arguments in internal units; `T` may have come from `h` or `e`. -/
structure StdM where
  T : Option (NArr × Bool)
  p : Option NArr
  d : Option NArr
  s : Option NArr

/-- Steps 3 to 5 (`igtools.py:719-767`). -/
noncomputable def convertM (E : Env) (L : Lib σ) (m : Mix σ) (lo hi : ℝ) (kw : KwM) :
    Except Err StdM := do
  let T ← argM kw "T" (NArr.conv (fun v => temperatureScale E.c.str v none (some "K") false))
  let p ← argM kw "p" (NArr.conv (fun v => (pressure E.a).call E.c.str v none (some "Pa") none false))
  let d ← argM kw "d" (densM E L m)
  let v ← argM kw "v" (volM E L m)
  let h ← argE E L m Gas.h lo hi kw "h"
  let e ← argE E L m Gas.e lo hi kw "e"
  let s ← argM kw "s" (entrM E)
  .ok { T := (e.or h).or (T.map (fun T => (T, false))), p := p, d := v.or d, s := s }

/-- Two arrays broadcast to the common shape with the mixture (`igtools.py:781-837`). -/
def jointM (m : Mix σ) (a b : NArr) : Except Err (NArr × NArr) := do
  let sh ← broadcastShape a.shape m.shape
  let sh ← broadcastShape b.shape sh
  let x ← a.bto sh
  let y ← b.bto sh
  .ok (x, y)

/-- Pressure from entropy and temperature (`igtools.py:791-807`). -/
noncomputable def entropyT (L : Lib σ) (m : Mix σ) (s T : NArr) : Except Err NArr := do
  let pe ← propeval L m (fun G t => (G.s t).map (·.1)) T
  let x ← s.zip (· - ·) pe
  let sh ← npShape x.shape m.shape
  if sh ≠ x.shape then .error .value
  else do
    classes L m
    .ok ⟨sh, fun i => (x.val i).map (fun x => prefMix L m (m.at i) *
      Real.exp (-(x + Ru * mixLog m (m.at i)) / Ru / total m (m.at i)))⟩

/-- The case split (`igtools.py:769-853`) before the range test. -/
noncomputable def solveM (L : Lib σ) (m : Mix σ) (lo hi : ℝ) (givenD : Bool) (k : StdM) :
    Except Err MixState :=
  match k.s with
  | some s =>
    if givenD then .error .param
    else
      match k.p with
      | some p => do
        let sh ← broadcastShape s.shape m.shape
        let sh ← broadcastShape p.shape sh
        let p ← p.bto sh
        let q ← spMix L m p
        let y ← s.zip (· - ·) q
        let r ← iterMix L m Gas.s y lo hi
        .ok { T := r.1, p := some p, d := none, ro := false, warned := r.2 }
      | none =>
        match k.T with
        | some T => do
          let (_, t) ← jointM m s T.1
          let p ← entropyT L m s t
          .ok { T := t, p := some p, d := none, ro := true, warned := T.2 }
        | none => .error .param
  | none =>
    match k.T with
    | some T =>
      match k.p with
      | some p => do
        let (t, p) ← jointM m T.1 p
        .ok { T := t, p := some p, d := none, ro := true, warned := T.2 }
      | none =>
        match k.d with
        | some d => do
          let (t, d) ← jointM m T.1 d
          .ok { T := t, p := none, d := some d, ro := true, warned := T.2 }
        | none => .error .param
    | none =>
      match k.p with
      | some p =>
        match k.d with
        | some d => do
          let (p, d) ← jointM m p d
          .ok { T := ⟨p.shape, fun i => nan2 (fun p d => p / (1000 * Ru * d)) (p.val i) (d.val i)⟩, p := some p, d := some d, ro := false, warned := false }
        | none => .error .param
      | none => .error .param

open Classical in
/-- `np.logical_or(T < Tlow, T > Thigh)` for one element (`igtools.py:855`). -/
noncomputable def oobM (lo hi : ℝ) : Nan → Bool
  | none => false
  | some t => decide (t < lo ∨ t > hi)

/-- The range test (`igtools.py:854-863`): `T[I] = ...` on a read-only array raises `ValueError`. -/
noncomputable def rangeM (lo hi : ℝ) (st : MixState) : Except Err MixState :=
  if (indices st.T.shape).all (fun i => oobM lo hi (st.T.val i)) then .error .param
  else if (indices st.T.shape).any (fun i => oobM lo hi (st.T.val i)) then
    if st.ro then .error .value
    else .ok { st with T := ⟨st.T.shape, fun i => if oobM lo hi (st.T.val i) then none else st.T.val i⟩ }
  else .ok st

/-- `_argparse` (`igtools.py:616-863`). -/
noncomputable def argparseM (E : Env) (L : Lib σ) (m : Mix σ) (varg : List Arr) (kw : KwM) :
    Except Err MixState := do
  let lim ← limsM E L m
  let kw ← bindPosM varg kw
  let kw ← defaultsM E kw
  rulesM kw
  let k ← convertM E L m lim.1 lim.2 kw
  let st ← solveM L m lim.1 lim.2 (kw.has "d") k
  rangeM lim.1 lim.2 st

/-! ## Property methods -/

/-- `if p is None: p = d * (1000*Ru * T)` (`igtools.py:1654-1655`). -/
noncomputable def MixState.pressure (st : MixState) : Except Err NArr :=
  match st.p, st.d with
  | some p, _ => .ok p
  | none, some d => d.zip (fun d t => d * (1000 * Ru * t)) st.T
  | none, none => .error .type

/-- `if d is None: d = p / (1000*Ru * T)` (`igtools.py:1774-1775`). -/
noncomputable def MixState.density (st : MixState) : Except Err NArr :=
  match st.d, st.p with
  | some d, _ => .ok d
  | none, some p => p.zip (fun p t => p / (1000 * Ru * t)) st.T
  | none, none => .error .type

section methods
variable (E : Env) (L : Lib σ) (m : Mix σ) (varg : List Arr) (kw : KwM)

/-- `pm.units.energy(x, from_units='kJ', inplace=True)`. -/
noncomputable def outE (a : NArr) : Except Err NArr :=
  a.conv (fun v => (energy : Conv ℝ).call E.c.str v (some "kJ") none none true)

/-- The same followed by `pm.units.temperature(x, from_units='K', inplace=True, exponent=-1)`. -/
noncomputable def outS (a : NArr) : Except Err NArr := do
  let a ← outE E a
  a.conv (fun v => (temperature : Conv ℝ).call E.c.str v (some "K") none (some (-1)) true)

/-- `cp(...)` (`igtools.py:1544-1548`). -/
noncomputable def iCp : Except Err NArr := do
  let st ← argparseM E L m varg kw
  let x ← propeval L m Gas.cp st.T
  outS E x

/-- `cv(...)` (`igtools.py:1566-1572`). -/
noncomputable def iCv : Except Err NArr := do
  let st ← argparseM E L m varg kw
  let x ← propeval L m Gas.cp st.T
  outS E ⟨x.shape, fun i => (x.val i).map (fun x => x - Ru * total m (m.at i))⟩

/-- `gam(...)` (`igtools.py:1590-1592`). -/
noncomputable def iGam : Except Err NArr := do
  let st ← argparseM E L m varg kw
  let x ← propeval L m Gas.cp st.T
  .ok ⟨x.shape, fun i => (x.val i).map (fun x => x / total m (m.at i) / (x / total m (m.at i) - Ru))⟩

/-- `h(...)` (`igtools.py:1610-1613`). -/
noncomputable def iH : Except Err NArr := do
  let st ← argparseM E L m varg kw
  let x ← propeval L m (fun G t => (G.h t).map (·.1)) st.T
  outE E x

/-- `e(...)` (`igtools.py:1631-1634`). -/
noncomputable def iE : Except Err NArr := do
  let st ← argparseM E L m varg kw
  let x ← propeval L m (fun G t => (G.e t).map (·.1)) st.T
  outE E x

/-- `s(...)` (`igtools.py:1652-1659`). -/
noncomputable def iS : Except Err NArr := do
  let st ← argparseM E L m varg kw
  let p ← st.pressure
  let x ← propeval L m (fun G t => (G.s t).map (·.1)) st.T
  let y ← spMix L m p
  let z ← x.zip (· + ·) y
  outS E z

/-- `g(...)` (`igtools.py:1677-1683`). -/
noncomputable def iG : Except Err NArr := do
  let st ← argparseM E L m varg kw
  let p ← st.pressure
  let x ← propeval L m (fun G t => (G.g t).map (·.1)) st.T
  let y ← spMix L m p
  let ty ← st.T.zip (· * ·) y
  let z ← x.zip (· - ·) ty
  outE E z

/-- `f(...)` (`igtools.py:1701-1707`). -/
noncomputable def iF : Except Err NArr := do
  let st ← argparseM E L m varg kw
  let p ← st.pressure
  let x ← propeval L m (fun G t => (G.f t).map (·.1)) st.T
  let y ← spMix L m p
  let ty ← st.T.zip (· * ·) y
  let z ← x.zip (· - ·) ty
  outE E z

/-- `T(...)` (`igtools.py:1726-1730`). -/
noncomputable def iT : Except Err NArr := do
  let st ← argparseM E L m varg kw
  st.T.conv (fun v => temperatureScale E.c.str v (some "K") none true)

/-- `p(...)` (`igtools.py:1748-1755`). -/
noncomputable def iP : Except Err NArr := do
  let st ← argparseM E L m varg kw
  let p ← st.pressure
  p.conv (fun v => (Units.pressure E.a).call E.c.str v (some "Pa") none none true)

/-- `d(...)` (`igtools.py:1773-1782`): multiplied in place by a scale that has the shape of the
mixture when the working unit of matter is a mass unit. -/
noncomputable def iD : Except Err NArr := do
  let st ← argparseM E L m varg kw
  let d ← st.density
  let k ← matterMix E L m ⟨[], fun _ => some 1⟩ (some "kmol") none none
  let k ← k.conv (fun v => (volume : Conv ℝ).call E.c.str v (some "m3") none (some (-1)) false)
  let r ← d.zip (· * ·) k
  if r.shape ≠ d.shape then .error .value else .ok r

/-- `v(...)` (`igtools.py:1785-1801`).  Simplification: `1/0` is 0 in Lean. -/
noncomputable def iV : Except Err NArr := do
  let d ← iD E L m varg kw
  .ok ⟨d.shape, fun i => (d.val i).map (fun x => 1 / x)⟩

/-- `R()` (`igtools.py:1498-1508`). -/
noncomputable def iR : Except Err NArr := do
  let r ← scalarOf ((energy : Conv ℝ).call E.c.str (.scalar Ru) (some "kJ") none none false)
  let r ← scalarOf ((temperature : Conv ℝ).call E.c.str (.scalar r) (some "K") none (some (-1)) false)
  matterMix E L m ⟨[], fun _ => some r⟩ (some "kmol") none (some (-1))

end methods

end PyroMat.Igt
