import Verif.Shipped.MassSpec
import Verif.Shipped.All
import Verif.Shipped.MpData

/-!
# The molecular weights of the shipped substances
-/

namespace PyroMat.Shipped

open PyroMat.Shipped.Spec PyroMat.Shipped.Data

/-- The sum of the atomic weights in units of 1e-8, if all symbols are known. -/
def sumN : List (String × Int) → Option Int
  | [] => some 0
  | a :: as =>
    match weights.lookup a.1, sumN as with
    | some w, some s => some (a.2 * Int.ofNat w + s)
    | _, _ => none

/-- The molecular weight `m` (a decimal) is the sum over the atoms to 3 parts in 10000. -/
def weighs (m : Dec) (atoms : List (String × Int)) : Bool :=
  match sumN atoms with
  | none => false
  | some s =>
    let x := m.m * 10 ^ 8
    let y := s * 10 ^ m.e
    decide (10000 * (x - y).natAbs ≤ 3 * x.natAbs) && decide (0 < m.m)

theorem gases_weigh : (shipped.all fun f => weighs f.mw f.atoms) = true := by decide +kernel

theorem mps_weigh : (shippedMp.all fun f => weighs f.mw f.atoms) = true := by decide +kernel

end PyroMat.Shipped
