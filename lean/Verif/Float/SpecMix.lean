import Verif.Float.Mix
import Verif.Float.SpecGas
import Verif.Shipped.All

/-!
# What C117 says about mixtures
-/

namespace PyroMat.Float.Spec

open PyroMat PyroMat.Units PyroMat.Gas PyroMat.Shipped

/-- A mixture of shipped gases: amounts and data files. -/
abbrev Mixture := List (ℝ × File)

/-- The amount of a constituent in moles and in kilograms, up to a factor common to all constituents. -/
noncomputable def moleAmount (bymass : Bool) (c : ℝ × File) : ℝ := if bymass then c.1 / c.2.data.mw else c.1
noncomputable def massAmount (bymass : Bool) (c : ℝ × File) : ℝ := if bymass then c.1 else c.1 * c.2.data.mw

/-- Mole fraction, mass fraction and molecular weight. -/
noncomputable def xOf (bymass : Bool) (cs : Mixture) (c : ℝ × File) : ℝ := moleAmount bymass c / (cs.map (moleAmount bymass)).sum
noncomputable def yOf (bymass : Bool) (cs : Mixture) (c : ℝ × File) : ℝ := massAmount bymass c / (cs.map (massAmount bymass)).sum
noncomputable def mwOf (bymass : Bool) (cs : Mixture) : ℝ :=
  (cs.map fun c => c.2.data.mw * moleAmount bymass c).sum / (cs.map (moleAmount bymass)).sum

/-- The entropy of mixing. -/
noncomputable def mixingEntropy (bymass : Bool) (cs : Mixture) : ℝ :=
  Ru * (cs.map fun c => -(xOf bymass cs c * Real.log (xOf bymass cs c))).sum

/-- The properties of the mixture at a temperature in K: the mole-weighted sums of the properties of the gases. -/
noncomputable def valueOf (bymass : Bool) (cs : Mixture) (q : MQ) (T : ℝ) : ℝ :=
  match q with
  | .cp => (cs.map fun c => xOf bymass cs c * (c.2.gas.cp T).getD 0).sum
  | .h => (cs.map fun c => xOf bymass cs c * ((c.2.gas.h T).map (·.1)).getD 0).sum
  | .e => (cs.map fun c => xOf bymass cs c * ((c.2.gas.h T).map (·.1)).getD 0).sum - Ru * T
  | .s => (cs.map fun c => xOf bymass cs c * ((c.2.gas.s T).map (·.1)).getD 0).sum + mixingEntropy bymass cs
  | .g => (cs.map fun c => xOf bymass cs c * ((c.2.gas.g T).map (·.1)).getD 0).sum - T * mixingEntropy bymass cs
  | .f => (cs.map fun c => xOf bymass cs c * ((c.2.gas.f T).map (·.1)).getD 0).sum - T * mixingEntropy bymass cs

/-- The size of the terms that are added up, for a mixture of `n` gases. -/
noncomputable def mixWeight (n : ℕ) (q : MQ) (T : ℝ) : ℝ :=
  match q with
  | .cp => 20000
  | .h | .e => 5e6 + 20010 * T
  | .s => 28000 + 9 * n
  | .g => 5e6 + (28000 + 9 * n) * T
  | .f => 5e6 + (28010 + 9 * n) * T

/-- What the model of the program works with. -/
noncomputable abbrev toPart (c : ℝ × File) : Part := ⟨c.1, c.2.data, fileForms c.2⟩
noncomputable def parts (cs : Mixture) : List Part := cs.map toPart

/-- What is asked of a mixture: shipped gases in positive amounts. -/
def Proper (cs : Mixture) : Prop := ∀ c ∈ cs, 0 < c.1 ∧ c.2 ∈ shipped

/-- The temperature is one of the gas, and no limit of the gas is mistaken for being on its other side: the arithmetic
holds the limit, or the temperature is not within the rounding of the limit. -/
def Inside (ε : ℝ) (A : Arith) (T : ℝ) (f : File) : Prop :=
  f.gas.Tlo ≤ T ∧ T ≤ f.gas.Thi ∧ ∀ L ∈ f.data.Tlim, A.lit L = L ∨ ε * |L| < |T - L|

end PyroMat.Float.Spec
