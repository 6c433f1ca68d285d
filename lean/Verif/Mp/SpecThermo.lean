import Verif.Mp.Thermo
import Verif.Mp.Spec

/-!
# Vocabulary for the single-phase properties
-/

namespace PyroMat.Mp.Spec

open PyroMat PyroMat.Mp

/-- The routine `F` returns the value of `V` and its partial derivatives on the open set `U`. -/
structure Right (U : Set (ℝ × ℝ)) (V : ℝ → ℝ → ℝ) (F : ℝ → ℝ → J6) : Prop where
  isOpen : IsOpen U
  is : ∀ x y, (x, y) ∈ U → Is2 V x y (F x y)

/-- The Helmholtz energy: `R T (ideal part + residual part)`, at reduced temperature and density. -/
noncomputable def helmholtz (F : Fluid) (Vo Vr : ℝ → ℝ → ℝ) (T d : ℝ) : ℝ :=
  F.R * T * (Vo (F.To / T) (d / F.dso) + Vr (F.Tr / T) (d / F.dsr))

/-- `q` holds the value of the function `f` and its derivatives by temperature and density, `f` being
the first component of what the routine returns. -/
structure HasPartials (f : ℝ → ℝ → Q3) (T d : ℝ) : Prop where
  dT : HasDerivAt (fun u => (f u d).v) (f T d).vT T
  dd : HasDerivAt (fun u => (f T u).v) (f T d).vd d

/-- A fluid: positive scales and gas constant, an ideal part of the form `log dd + phi(tt)` and a
residual part, whose routines return the right derivatives on `Uo` and on `U`. -/
structure IsFluid (F : Fluid) (Vo Vr : ℝ → ℝ → ℝ) (phi : ℝ → ℝ) (Uo U : Set (ℝ × ℝ)) : Prop where
  R : 0 < F.R
  To : 0 < F.To
  Tr : 0 < F.Tr
  dso : 0 < F.dso
  dsr : 0 < F.dsr
  ideal : ∀ x y, 0 < y → Vo x y = Real.log y + phi x
  o : Right Uo Vo F.o
  r : Right U Vr F.r

/-- The state is one the routines are right for. -/
structure InRange (F : Fluid) (Uo U : Set (ℝ × ℝ)) (T d : ℝ) : Prop where
  Tpos : 0 < T
  dpos : 0 < d
  o : (F.To / T, d / F.dso) ∈ Uo
  r : (F.Tr / T, d / F.dsr) ∈ U

end PyroMat.Mp.Spec
