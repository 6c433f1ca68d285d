import Verif.Igt.Thermo
import Verif.Gas.Mix

/-!
# Conversion between dynamic and static mixtures (`igtools.py:1137-1183`, `1802-1816`)

A static mixture (`igmix`) is its name and the entries of its `data` that are read (`Gas.Mix.Entry`);
its methods are those of `Gas/Mix.lean`.
-/

namespace PyroMat.Igt

open PyroMat PyroMat.Units PyroMat.Gas

variable {σ : Type} [DecidableEq σ]

/-- `len(m)` (`igtools.py:988-991`): `np.prod(self.shape())`.  Of an empty tuple this is the float
1.0, which Python refuses as a length. -/
def mixLen (m : Mix σ) : Except Err Nat :=
  if m.shape = [] then .error .type else .ok m.shape.prod

/-- `d[k] = v`: an existing key keeps its place. -/
def putName (d : List (String × ℝ)) (k : String) (v : ℝ) : List (String × ℝ) :=
  if d.any (fun p => p.1 == k) then d.map (fun p => if p.1 == k then (k, v) else p) else d ++ [(k, v)]

/-- The dictionary comprehension of `toigmix` (`igtools.py:1179`). -/
def contentsAt (L : Lib σ) (m : Mix σ) (i : List Nat) : List (String × ℝ) :=
  (rowsAt m i).foldl (fun d r => putName d (L.sid r.1) r.2) []

/-- The `id` of the instance with number `count` (`igtools.py:1172-1175`). -/
def staticName (sid : String) (multiple : Bool) (count : Nat) : String :=
  if multiple then sid ++ "_" ++ toString count else sid

/-- The loop over `enumerate(np.ndindex(self.shape()))` (`igtools.py:1168-1182`). -/
def staticLoop (L : Lib σ) (m : Mix σ) (sid : String) (multiple : Bool) :
    List (List Nat) → Nat → List (String × Gas.Mix.Entry)
  | [], _ => []
  | i :: rest, count =>
    (staticName sid multiple count, ⟨contentsAt L m i, false⟩) ::
      staticLoop L m sid multiple rest (count + 1)

/-- `toigmix(sid)` (`igtools.py:1137-1183`): name and data of the instances.  Simplification: the
amounts are NumPy numbers, so that a mixture with a total of zero gives NaN on first use where one
read from a file raises `ZeroDivisionError`. -/
def toigmix (L : Lib σ) (m : Mix σ) (sid : String) : Except Err (List (String × Gas.Mix.Entry)) := do
  let n ← mixLen m
  .ok (staticLoop L m sid (decide (1 < n)) (indices m.shape) 0)

/-- `fromigmix(source)` (`igtools.py:1805-1816`) with the state of the source afterwards. -/
noncomputable def fromigmix (E : Env) (L : Lib σ) (coll : Gas.Mix.Coll) (D : Gas.Mix.Entry)
    (o : Gas.Mix.Obj) : Except Err (Mix σ) × Gas.Mix.Obj :=
  match ismass E.a E.c.str none with
  | .error e => (.error e, o)
  | .ok b =>
    let r := if b then Gas.Mix.mY coll D o else Gas.Mix.mX coll D o
    (r.1.bind (fun xs => init E L (xs.map (fun q => (.str q.1.toList, ⟨[], fun _ => q.2⟩))) none), r.2)

end PyroMat.Igt
