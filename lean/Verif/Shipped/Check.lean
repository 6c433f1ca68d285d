import Verif.Shipped.Basic

/-!
# A checker for ideal-gas data, on natural numbers

The checker is not part of the model: it decides inequalities between polynomials with integer
coefficients on intervals, and `Sound.lean` proves that what it accepts holds at every real
temperature.  It is written so that Lean's kernel can evaluate it quickly.
-/

namespace PyroMat.Shipped

/-- `k n`, with `n` evaluated first. -/
def force (n : Nat) (k : Nat → Bool) : Bool :=
  match n with
  | 0 => k 0
  | m + 1 => k (Nat.succ m)

/-- `k l`, with the elements evaluated first. -/
def forceList : List Nat → (List Nat → Bool) → Bool
  | [], k => k []
  | a :: as, k => force a fun a' => forceList as fun as' => k (a' :: as')

/-- `a₀ + a₁ u + a₂ u² + ...` -/
def polyN : List Nat → Nat → Nat
  | [], _ => 0
  | a :: as, u => Nat.add a (Nat.mul u (polyN as u))

/-- `P - N` is not negative on `[l, h]`, by monotonicity, or on both halves, and so on. -/
def cover : Nat → List Nat → List Nat → Nat → Nat → Bool
  | 0, P, N, l, h => Nat.ble (polyN N h) (polyN P l)
  | k + 1, P, N, l, h =>
    Nat.ble (polyN N h) (polyN P l) ||
      force (Nat.div (Nat.add l h) 2) fun m => cover k P N l m && cover k P N m h

/-- Coefficients for an argument `10^s` times larger. -/
def homog (s : Nat) : List Int → List Int
  | [] => []
  | b :: bs => b * Int.ofNat (10 ^ (s * bs.length)) :: homog s bs

/-- The polynomial `bs` is not negative at `u / 10^s` for `u` in `[l, h]`. -/
def nonneg (s : Nat) (bs : List Int) (l h : Nat) : Bool :=
  forceList ((homog s bs).map Int.toNat) fun P =>
    forceList ((homog s bs).map fun b => (Int.neg b).toNat) fun N => cover 14 P N l h

/-- `a₀ + a₁ u + a₂ u² + ...` -/
def polyZ : List Int → Int → Int
  | [], _ => 0
  | a :: as, u => a + u * polyZ as u

/-- A coefficient times `10^40`. -/
def sc (d : Dec) : Int := d.m * Int.ofNat (10 ^ (40 - d.e))

/-- `100 * 10^14` times the gas constant. -/
def ru : Int := 831446261815324

/-- `10^40 (cp - a/100 Ru)` (times `(T/1000)²` for `ig`, over `Ru` for `ig2`). -/
def low (c : Cls) (r : List Dec) (a : Int) : List Int :=
  match c with
  | .ig => [sc (cof r 4), 0, sc (cof r 0) - a * ru * 10 ^ 24, sc (cof r 1), sc (cof r 2), sc (cof r 3)]
  | .ig2 => [sc (cof r 0) - a * 10 ^ 38, sc (cof r 1), sc (cof r 2), sc (cof r 3), sc (cof r 4)]

/-- The opposite. -/
def up (c : Cls) (r : List Dec) (b : Int) : List Int := (low c r b).map fun x => Int.neg x

/-- Decimals of the argument of `low`, counted from thousandths of a kelvin. -/
def expo : Cls → Nat
  | .ig => 6
  | .ig2 => 3

/-- A temperature in thousandths of a kelvin. -/
def mK (d : Dec) : Nat := d.m.toNat * 10 ^ (3 - d.e)

/-- The temperature is positive and a whole number of thousandths. -/
def okT (d : Dec) : Bool := Nat.ble d.e 3 && Nat.ble 1 d.m.toNat

/-- The decimals of a row are within reach of `sc`, and there are seven coefficients. -/
def okRow (r : List Dec) : Bool := Nat.ble 7 r.length && r.all fun d => Nat.ble d.e 40

/-- Ascending limits, one row per piece, and on each piece `a/100 ≤ cp/Ru ≤ b/100`. -/
def walk (c : Cls) (a b : Nat) : List Dec → List (List Dec) → Bool
  | [t], [] => okT t
  | t0 :: t1 :: ts, r :: rs =>
    okT t0 && okRow r && Nat.blt (mK t0) (mK t1) &&
      (force (mK t0) fun l => force (mK t1) fun h =>
        nonneg (expo c) (low c r (Int.ofNat a)) l h && nonneg (expo c) (up c r (Int.ofNat b)) l h) &&
      walk c a b (t1 :: ts) rs
  | _, _ => false

/-- The difference of a coefficient between two rows, times `10^40`. -/
def dif (r r' : List Dec) (k : Nat) : Int := sc (cof r k) - sc (cof r' k)

/-- The change of enthalpy between two rows at the temperature `u`, in kJ/kmol, rounded up. -/
def jump (c : Cls) (r r' : List Dec) (u : Nat) : Nat :=
  match c with
  | .ig => (polyZ (homog 6 [-12 * dif r r' 4, 12 * dif r r' 5, 12 * dif r r' 0, 6 * dif r r' 1,
      4 * dif r r' 2, 3 * dif r r' 3]) (Int.ofNat u)).natAbs * 10 ^ 9 / (12 * 10 ^ 70 * u) + 1
  | .ig2 => (polyZ (homog 3 [60 * dif r r' 5, 60 * dif r r' 0, 30 * dif r r' 1, 20 * dif r r' 2,
      15 * dif r r' 3, 12 * dif r r' 4]) (Int.ofNat u)).natAbs * 831446261815324 / (6 * 10 ^ 70) + 1

/-- All the changes added up. -/
def jumps (c : Cls) : List Dec → List (List Dec) → Nat
  | _ :: t1 :: ts, r :: r' :: rs => jump c r r' (mK t1) + jumps c (t1 :: ts) (r' :: rs)
  | _, _ => 0

/-- All checks of one file; `b` bounds `100 cp/Ru` from below and above. -/
def check (f : File) (b : Nat × Nat) : Bool :=
  Nat.ble 233 b.1 && Nat.ble b.2 (7 * b.1) && Nat.ble b.2 (9 * b.1 - 800) && !f.C.isEmpty &&
    Nat.ble 1 f.mw.m.toNat &&
    (match f.pref with | none => true | some d => Nat.ble 1 d.m.toNat) &&
    Nat.ble (jumps f.cls f.Tlim f.C) (if f.id = "ig.Rb" then 300 else 30) &&
    walk f.cls b.1 b.2 f.Tlim f.C

/-- The checks of a list of files, each with its bounds. -/
def checkAll : List File → List (Nat × Nat) → Bool
  | [], _ => true
  | f :: fs, b :: bs => check f b && checkAll fs bs
  | _ :: _, [] => false

theorem checkAll_spec (fs : List File) (bs : List (Nat × Nat)) (h : checkAll fs bs = true) :
    ∀ f ∈ fs, ∃ b, check f b = true := by
  induction fs generalizing bs with
  | nil => simp
  | cons g gs ih =>
    cases bs with
    | nil => simp [checkAll] at h
    | cons b bs =>
      simp only [checkAll, Bool.and_eq_true] at h
      intro f hf
      rcases List.mem_cons.mp hf with rfl | hf
      · exact ⟨b, h.1⟩
      · exact ih bs h.2 f hf

end PyroMat.Shipped
