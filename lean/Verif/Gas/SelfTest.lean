import Verif.Gas.Model

/-!
# The self-tests of the ideal-gas classes: `ig._test`, `ig2._test`

Modelled: the verdict.  Not modelled: the text of the report.
-/

namespace PyroMat.Gas

open PyroMat PyroMat.Units

/-- A row of the embedded table: columns 0, 1, 2 and 4, in K, J/mol/K, J/mol/K and kJ/mol
(`ig.py:720-749`). -/
structure TabRow where
  T : ℝ
  cp : ℝ
  s : ℝ
  h : ℝ

/-- What the self-test reads from `self.data` itself: the limits, the number of coefficients of each piece, and the
table, if there is one (`ig.py:614-615`, `720`). -/
structure Sheet where
  Tlim : List ℝ
  coefs : List Nat
  tab : Option (List TabRow)

open Classical in
/-- Criterion 1.1 (`ig.py:620-622`): `zip(Tlim[:-1], Tlim[1:])`. -/
noncomputable def ascend (Tlim : List ℝ) : Bool :=
  (Tlim.dropLast.zip Tlim.tail).all (fun q => decide (q.1 < q.2))

/-- Criteria 1.1 to 1.3 (`ig.py:619-649`, `ig2.py:372-403`). -/
noncomputable def integrity (D : Sheet) : Bool :=
  ascend D.Tlim && D.Tlim.length == D.coefs.length + 1 && D.coefs.all (· == 8)

open Classical in
/-- `np.abs(x)/y > c` for floats that may be NaN; a zero `y` gives `inf` or NaN. -/
noncomputable def relGt (x y : Nan) (c : ℝ) : Bool :=
  match x, y with
  | some x, some y => if y = 0 then decide (x ≠ 0) else decide (|x| / y > c)
  | _, _ => false

/-- Element `i` of an array. -/
def el (xs : List Nan) (i : Nat) : Nan := (xs[i]?).join

/-- Criteria 2.1 to 2.3 at one piecewise boundary, given in kelvin (`ig.py:660-682`, `ig2.py:414-436`): which of `cp`, `h`
and `s` fail. -/
noncomputable def atBreak (E : Env) (G : Gas) (T : ℝ) : Except Err (Bool × Bool × Bool) := do
  let T ← scalarOf (temperatureScale E.c.str (.scalar T) (some "K") none false)
  let TT := Val.arr [T * 0.9999, T * 1.0001]
  let cp ← mCp E G [TT] []
  let h ← mH E G [TT] []
  let h1 := nan2 (fun h cp => h - cp * T * 0.0001) (el h 1) (el cp 1)
  let h0 := nan2 (fun h cp => h + cp * T * 0.0001) (el h 0) (el cp 0)
  let s ← mS E G [TT] []
  let s1 := nan2 (fun s cp => s - cp * 0.0001) (el s 1) (el cp 1)
  let s0 := nan2 (fun s cp => s + cp * 0.0001) (el s 0) (el cp 0)
  .ok (relGt (nan2 (· - ·) (el cp 0) (el cp 1)) (el cp 0) 0.0001, relGt (nan2 (· - ·) h0 h1) h0 0.0001,
    relGt (nan2 (· - ·) s0 s1) s0 0.0001)

/-- Section 2 (`ig.py:656-716`, `ig2.py:410-470`), over `Tlim[1:-1]`: whether all three criteria pass. -/
noncomputable def continuity (E : Env) (G : Gas) (Tlim : List ℝ) : Except Err Bool := do
  let r ← Tlim.tail.dropLast.mapM (atBreak E G)
  .ok (!r.any (·.1) && !r.any (·.2.1) && !r.any (·.2.2))

/-- `ig._test()` (`ig.py:557-912`) up to the point where it must fail: `data['TAB']` is read after section 2
(`ig.py:720`), its temperatures are converted, and the reference pressure is converted from the unit `'pa'`
(`ig.py:722`), which is not in the table of pressure units.  `rest` stands for all that would follow
(`ig.py:723-912`). -/
noncomputable def igTest (rest : Env → Gas → List TabRow → Except Err Bool) (E : Env) (G : Gas) (D : Sheet) : Except Err Bool :=
  if !integrity D then .ok false
  else do
    let _ ← continuity E G D.Tlim
    match D.tab with
    | none => .error .key
    | some tab => do
      let _ ← convArg (.arr (tab.map (·.T))) [fun v => temperatureScale E.c.str v (some "K") none false]
      let _ ← scalarOf ((pressure E.a).call E.c.str (.scalar G.pref) (some "pa") none none false)
      rest E G tab

/-- `ig2._test(tab)` (`ig2.py:305-628`) up to the point where it must fail: the argument `tab` is not used, the table is
looked up in the data (`ig2.py:474`), and `self._pref_bar` (`ig2.py:476`) is never set. -/
noncomputable def ig2Test (E : Env) (G : Gas) (D : Sheet) : Except Err Bool :=
  if !integrity D then .ok false
  else do
    let _ ← continuity E G D.Tlim
    match D.tab with
    | none => .error .key
    | some tab => do
      let _ ← convArg (.arr (tab.map (·.T))) [fun v => temperatureScale E.c.str v (some "K") none false]
      .error .attribute

end PyroMat.Gas
