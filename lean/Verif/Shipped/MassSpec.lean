import Mathlib.Data.Finset.Dedup
import Mathlib.Data.Real.Basic

/-!
# Atomic weights

The specification of C99: a table of standard atomic weights, independent of the package.
-/

namespace PyroMat.Shipped.Spec

/-- Atomic weights in units of 1e-8 kg/kmol, for the symbols that occur in the data files: IUPAC
standard atomic weights (conventional values), deuterium (`D`) and the electron (`e`). -/
def weights : List (String × Nat) := [
  ("H", 100800000), ("C", 1201100000), ("O", 1599900000), ("N", 1400700000), ("F", 1899840300),
  ("Cl", 3545000000), ("e", 54858), ("S", 3206000000), ("Br", 7990400000), ("D", 201410200),
  ("Si", 2808500000), ("B", 1081000000), ("Al", 2698153900), ("P", 3097376200), ("I", 12690447000),
  ("Li", 694000000), ("Na", 2298977000), ("K", 3909830000), ("Be", 901218310), ("Mg", 2430500000),
  ("Ca", 4007800000), ("Ti", 4786700000), ("Fe", 5584500000), ("Ni", 5869340000), ("Cu", 6354600000),
  ("Zn", 6538000000), ("Pb", 20720000000), ("Hg", 20059200000), ("Cr", 5199610000), ("Co", 5893319400),
  ("Mn", 5493804400), ("V", 5094150000), ("Mo", 9595000000), ("W", 18384000000), ("Zr", 9122400000),
  ("Sr", 8762000000), ("Ba", 13732700000), ("Rb", 8546780000), ("Cs", 13290545000), ("Ga", 6972300000),
  ("Nb", 9290637000), ("Ta", 18094788000), ("Hf", 17849000000), ("He", 400260200), ("Ne", 2017970000),
  ("Ar", 3994800000), ("Kr", 8379800000), ("Xe", 13129300000)]

/-- The symbols of the table. -/
def symbols : Finset String := (weights.map Prod.fst).toFinset

/-- The atomic weight in kg/kmol (0 for symbols not in the table). -/
noncomputable def atomicWeight (a : String) : ℝ := ((weights.lookup a).getD 0 : Nat) / 10 ^ 8

end PyroMat.Shipped.Spec
