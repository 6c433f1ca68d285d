import Verif.Mp.SpecState

/-!
# Specification vocabulary for the comparison of calls in two unit systems
-/

namespace PyroMat.Mp.Spec

open PyroMat PyroMat.Units PyroMat.Units.Spec PyroMat.Gas PyroMat.Gas.Spec PyroMat.Mp

/-- The stored default temperature and the stored default pressure of two configurations are the same
quantities, whatever units they are stored in. -/
structure SameDefaults (E1 E2 : Env) : Prop where
  T : ∀ s1 s2 : Scale, E1.c.str "def_T_unit" = .ok s1.name → E2.c.str "def_T_unit" = .ok s2.name →
    toKelvin s1.name E1.c.defT = toKelvin s2.name E2.c.defT
  p : ∀ u1 u2, E1.c.str "def_p_unit" = .ok u1 → E2.c.str "def_p_unit" = .ok u2 →
    E1.c.defp * size (pressure E1.a) u1 = E2.c.defp * size (pressure E2.a) u2

/-- Both calls raise the same error, or both return arrays with the same quantities: the numbers of
one in a common unit are those of the other, and NaN where the other is NaN. -/
def SameArrays (si1 si2 : ℝ → ℝ) (r1 r2 : Except Err (List Nan)) : Prop :=
  (∃ e, r1 = .error e ∧ r2 = .error e) ∨
    ∃ ys1 ys2, r1 = .ok ys1 ∧ r2 = .ok ys2 ∧ ys1.map (Option.map si1) = ys2.map (Option.map si2)

/-- The same for the pair of arrays of a saturation method. -/
def SamePairs (si1 si2 : ℝ → ℝ) (r1 r2 : Except Err (List Nan × List Nan)) : Prop :=
  (∃ e, r1 = .error e ∧ r2 = .error e) ∨
    ∃ ys1 ys2, r1 = .ok ys1 ∧ r2 = .ok ys2 ∧ ys1.1.map (Option.map si1) = ys2.1.map (Option.map si2) ∧
      ys1.2.map (Option.map si1) = ys2.2.map (Option.map si2)

/-- Conversion of a floating number with a positive factor: infinities and NaN stay. -/
def floatMap (f : ℝ → ℝ) : Cand → Cand
  | .fin x => .fin (f x)
  | .pinf => .pinf
  | .ninf => .ninf
  | .nan => .nan

/-- The same for arrays with infinities. -/
def SameFloats (si1 si2 : ℝ → ℝ) (r1 r2 : Except Err (List Cand)) : Prop :=
  (∃ e, r1 = .error e ∧ r2 = .error e) ∨
    ∃ ys1 ys2, r1 = .ok ys1 ∧ r2 = .ok ys2 ∧ ys1.map (floatMap si1) = ys2.map (floatMap si2)

/-- The configuration gives speeds in the listed units `l` per `t`. -/
structure SpeedUnits (E : Env) (l t : String) : Prop where
  cfgl : E.c.str "unit_length" = .ok l
  cfgt : E.c.str "unit_time" = .ok t
  hasl : (length : Conv ℝ).contains l = true
  hast : (time : Conv ℝ).contains t = true

/-- A speed in m/s. -/
noncomputable def siSpeed (l t : String) (y : ℝ) : ℝ := y * size length l / size time t

end PyroMat.Mp.Spec
