import Verif.Mp.SpecThermo
import Verif.Mp.SpecState

/-!
# Vocabulary for the heat capacity of a substance with a dome
-/

namespace PyroMat.Mp.Spec

open PyroMat PyroMat.Mp PyroMat.Gas PyroMat.Units

/-- A substance with saturation curves differentiable at `T`, the numbers the routines return being
their derivatives, in the range of its Helmholtz energy. -/
structure SmoothDome (B : Sub) (Uo W : Set (ℝ × ℝ)) (T : ℝ) : Prop where
  dsl : HasDerivAt B.dsl (B.dslT T) T
  dsv : HasDerivAt B.dsv (B.dsvT T) T
  liquid : InRange B.F Uo W T (B.dsl T)
  vapor : InRange B.F Uo W T (B.dsv T)
  lt : B.dsv T < B.dsl T

/-- A state that stays single-phase when the temperature changes a little: above the critical
temperature, or below it and off the saturation curves. -/
inductive OnePhase (B : Sub) (T d : ℝ) : Prop
  | super : B.Tc < T → OnePhase B T d
  | gas : T < B.Tc → ContinuousAt B.dsv T → d < B.dsv T → OnePhase B T d
  | fluid : T < B.Tc → ContinuousAt B.dsl T → B.dsl T < d → OnePhase B T d

/-- Around the temperature `t` the energy at density `y`, as the method `e` returns it, is a
differentiable function of temperature, and its derivative at `t` is what the method `cv` returns. -/
def CvIsSlope (E : Env) (B : Sub) (S : Sol) (t y : ℝ) : Prop :=
  ∃ (e : ℝ → ℝ) (c : ℝ),
    (∀ᶠ u in nhds t, MpGives E B S [] [("T", .scalar u), ("d", .scalar y)] .e 0 (e u)) ∧
    MpGives E B S [] [("T", .scalar t), ("d", .scalar y)] .cv 0 c ∧ HasDerivAt e c t

end PyroMat.Mp.Spec
