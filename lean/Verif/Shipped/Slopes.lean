import Verif.Shipped.All

/-!
# A checker for the steepness of the heat capacities

Not part of the model: decides on natural numbers how fast the heat capacity of a file changes with temperature;
`SlopesSound.lean` says what follows at every real temperature.
-/

namespace PyroMat.Shipped

open PyroMat.Shipped.Data

/-- `15 * 10^40 (a/100 Ru / 150 ± dcp/dT)` (times `1000 (T/1000)³` for `ig`, and `1000 / Ru` for `ig2`). -/
def mild (c : Cls) (r : List Dec) (a : Int) (s : Int) : List Int :=
  match c with
  | .ig => [-30 * s * sc (cof r 4), 0, 0, a * ru * 10 ^ 26 + 15 * s * sc (cof r 1), 30 * s * sc (cof r 2),
      45 * s * sc (cof r 3)]
  | .ig2 => [a * 10 ^ 40 + 15000 * s * sc (cof r 1), 30000 * s * sc (cof r 2), 45000 * s * sc (cof r 3),
      60000 * s * sc (cof r 4)]

/-- On each piece the heat capacity changes by at most `a/100 Ru / 150` per kelvin. -/
def flats (c : Cls) (a : Nat) : List Dec → List (List Dec) → Bool
  | t0 :: t1 :: ts, r :: rs =>
    (force (mK t0) fun l => force (mK t1) fun h =>
      nonneg (expo c) (mild c r (Int.ofNat a) 1) l h && nonneg (expo c) (mild c r (Int.ofNat a) (-1)) l h) &&
      flats c a (t1 :: ts) rs
  | _, _ => true

/-- The range of a file is at most 5800 K wide, its heat capacity at most `120 Ru`, and flat in proportion. -/
def checkF (f : File) (b : Nat × Nat) : Bool :=
  Nat.ble (mK (f.Tlim.getLastD ⟨0, 0⟩)) (mK (f.Tlim.headD ⟨0, 0⟩) + 5800000) && Nat.ble b.2 12000 &&
    flats f.cls b.1 f.Tlim f.C

/-- The checks of a list of files, each with its bounds. -/
def checkFs : List File → List (Nat × Nat) → Bool
  | [], _ => true
  | f :: fs, b :: bs => checkF f b && checkFs fs bs
  | _ :: _, [] => false

theorem flat1 : checkFs gases1 bounds1 = true := by decide +kernel
theorem flat2 : checkFs gases2 bounds2 = true := by decide +kernel
theorem flat3 : checkFs gases3 bounds3 = true := by decide +kernel
theorem flat4 : checkFs gases4 bounds4 = true := by decide +kernel
theorem flat5 : checkFs gases5 bounds5 = true := by decide +kernel
theorem flat6 : checkFs gases6 bounds6 = true := by decide +kernel
theorem flat7 : checkFs gases7 bounds7 = true := by decide +kernel
theorem flat8 : checkFs gases8 bounds8 = true := by decide +kernel
theorem flat9 : checkFs gases9 bounds9 = true := by decide +kernel
theorem flat10 : checkFs gases10 bounds10 = true := by decide +kernel
theorem flat11 : checkFs gases11 bounds11 = true := by decide +kernel
theorem flat12 : checkFs gases12 bounds12 = true := by decide +kernel
theorem flat13 : checkFs gases13 bounds13 = true := by decide +kernel
theorem flat14 : checkFs gases14 bounds14 = true := by decide +kernel
theorem flat15 : checkFs gases15 bounds15 = true := by decide +kernel
theorem flat16 : checkFs gases16 bounds16 = true := by decide +kernel
theorem flat17 : checkFs gases17 bounds17 = true := by decide +kernel
theorem flat18 : checkFs gases18 bounds18 = true := by decide +kernel
theorem flat19 : checkFs gases19 bounds19 = true := by decide +kernel
theorem flat20 : checkFs gases20 bounds20 = true := by decide +kernel
theorem flat21 : checkFs gases21 bounds21 = true := by decide +kernel
theorem flat22 : checkFs gases22 bounds22 = true := by decide +kernel
theorem flat23 : checkFs gases23 bounds23 = true := by decide +kernel
theorem flat24 : checkFs gases24 bounds24 = true := by decide +kernel
theorem flat25 : checkFs gases25 bounds25 = true := by decide +kernel
theorem flat26 : checkFs gases26 bounds26 = true := by decide +kernel
theorem flat27 : checkFs gases27 bounds27 = true := by decide +kernel
theorem flat28 : checkFs gases28 bounds28 = true := by decide +kernel
theorem flat29 : checkFs gases29 bounds29 = true := by decide +kernel
theorem flat30 : checkFs gases30 bounds30 = true := by decide +kernel
theorem flat31 : checkFs gases31 bounds31 = true := by decide +kernel
theorem flat32 : checkFs gases32 bounds32 = true := by decide +kernel
theorem flat33 : checkFs gases33 bounds33 = true := by decide +kernel
theorem flat34 : checkFs gases34 bounds34 = true := by decide +kernel
theorem flat35 : checkFs gases35 bounds35 = true := by decide +kernel
theorem flat36 : checkFs gases36 bounds36 = true := by decide +kernel
theorem flat37 : checkFs gases37 bounds37 = true := by decide +kernel
theorem flat38 : checkFs gases38 bounds38 = true := by decide +kernel
theorem flat39 : checkFs gases39 bounds39 = true := by decide +kernel
theorem flat40 : checkFs gases40 bounds40 = true := by decide +kernel
theorem flat41 : checkFs gases41 bounds41 = true := by decide +kernel
theorem flat42 : checkFs gases42 bounds42 = true := by decide +kernel
theorem flat43 : checkFs gases43 bounds43 = true := by decide +kernel
theorem flat44 : checkFs gases44 bounds44 = true := by decide +kernel
theorem flat45 : checkFs gases45 bounds45 = true := by decide +kernel
theorem flat46 : checkFs gases46 bounds46 = true := by decide +kernel
theorem flat47 : checkFs gases47 bounds47 = true := by decide +kernel
theorem flat48 : checkFs gases48 bounds48 = true := by decide +kernel
theorem flat49 : checkFs gases49 bounds49 = true := by decide +kernel
theorem flat50 : checkFs gases50 bounds50 = true := by decide +kernel
theorem flat51 : checkFs gases51 bounds51 = true := by decide +kernel
theorem flat52 : checkFs gases52 bounds52 = true := by decide +kernel
theorem flat53 : checkFs gases53 bounds53 = true := by decide +kernel
theorem flat54 : checkFs gases54 bounds54 = true := by decide +kernel
theorem flat55 : checkFs gases55 bounds55 = true := by decide +kernel
theorem flat56 : checkFs gases56 bounds56 = true := by decide +kernel
theorem flat57 : checkFs gases57 bounds57 = true := by decide +kernel
theorem flat58 : checkFs gases58 bounds58 = true := by decide +kernel
theorem flat59 : checkFs gases59 bounds59 = true := by decide +kernel
theorem flat60 : checkFs gases60 bounds60 = true := by decide +kernel
theorem flat61 : checkFs gases61 bounds61 = true := by decide +kernel
theorem flat62 : checkFs gases62 bounds62 = true := by decide +kernel

end PyroMat.Shipped
