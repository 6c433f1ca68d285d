import Mathlib.Analysis.Real.Sqrt
import Verif.Mp.Helm

/-!
# Properties of a single-phase state

Model of `_p`, `_e`, `_h`, `_s`, `_f`, `_g`, `_a`, `_cp`, `_cv` of
`/repo/src/pyromat/registry/mp1.py`.  The ideal-gas and residual routines are parameters `o` and `r`
that return a value with its derivatives; `Verif/Mp/PropsAo.lean` and `PropsAr.lean` are about the
code's own.  Each returns its value and its derivatives by temperature and by density; orders above
`diff` are not computed by the code.
-/

namespace PyroMat.Mp

open PyroMat

/-- The data a property needs: the gas constant, the scales of `AOgroup` and `ARgroup`, and the two
routines. -/
structure Fluid where
  R : ℝ
  To : ℝ
  dso : ℝ
  Tr : ℝ
  dsr : ℝ
  o : ℝ → ℝ → J6
  r : ℝ → ℝ → J6

/-- A value with its derivatives by temperature and by density. -/
structure Q3 where
  v : ℝ
  vT : ℝ
  vd : ℝ

/-- `self._ao(Tscale/T, d/dscale, ...)`. -/
noncomputable def Fluid.ao (F : Fluid) (T d : ℝ) : J6 := F.o (F.To / T) (d / F.dso)

/-- `self._ar(Tscale/T, d/dscale, ...)`. -/
noncomputable def Fluid.ar (F : Fluid) (T d : ℝ) : J6 := F.r (F.Tr / T) (d / F.dsr)

/-- `_p` (`mp1.py:2066-2090`). -/
noncomputable def Fluid.p (F : Fluid) (T d : ℝ) : Q3 :=
  let tt := F.Tr / T
  let dd := d / F.dsr
  let a := F.ar T d
  ⟨T * d * F.R * (1 + dd * a.py), F.R * d * (1 + dd * a.py - tt * dd * a.pxy),
    F.R * T * (1 + 2 * dd * a.py + dd * dd * a.pyy)⟩

/-- `_e` (`mp1.py:2993-3027`); the sum is multiplied by the `Tscale` of `ARgroup`. -/
noncomputable def Fluid.e (F : Fluid) (T d : ℝ) : Q3 :=
  let tto := F.To / T
  let o := F.ao T d
  let tt := F.Tr / T
  let a := F.ar T d
  ⟨(o.px + a.px) * (F.R * F.Tr), (tto * tto * o.pxx + tt * tt * a.pxx) * -F.R,
    (o.pxy / F.dso + a.pxy / F.dsr) * (F.R * F.Tr)⟩

/-- `_h` (`mp1.py:3030-3064`). -/
noncomputable def Fluid.h (F : Fluid) (T d : ℝ) : Q3 :=
  let tto := F.To / T
  let o := F.ao T d
  let tt := F.Tr / T
  let dd := d / F.dsr
  let a := F.ar T d
  ⟨(1 + tto * o.px + (dd * a.py + tt * a.px)) * (F.R * T),
    (1 - tto * tto * o.pxx + (dd * a.py - tt * (tt * a.pxx + dd * a.pxy))) * F.R,
    (tto * o.pxy / F.dso + (a.py + dd * a.pyy + tt * a.pxy) / F.dsr) * (F.R * T)⟩

/-- `_s` (`mp1.py:3066-3100`). -/
noncomputable def Fluid.s (F : Fluid) (T d : ℝ) : Q3 :=
  let tto := F.To / T
  let o := F.ao T d
  let tt := F.Tr / T
  let a := F.ar T d
  ⟨(tto * o.px - o.p + (tt * a.px - a.p)) * F.R,
    (tto * tto * o.pxx + tt * tt * a.pxx) * (-F.R / T),
    ((tto * o.pxy - o.py) / F.dso + (tt * a.pxy - a.py) / F.dsr) * F.R⟩

/-- `_f` (`mp1.py:3102-3137`). -/
noncomputable def Fluid.f (F : Fluid) (T d : ℝ) : Q3 :=
  let tto := F.To / T
  let o := F.ao T d
  let tt := F.Tr / T
  let a := F.ar T d
  ⟨(o.p + a.p) * (F.R * T), (o.p - tto * o.px + (a.p - tt * a.px)) * F.R,
    (o.py / F.dso + a.py / F.dsr) * (F.R * T)⟩

/-- `_g` (`mp1.py:3141-3176`). -/
noncomputable def Fluid.g (F : Fluid) (T d : ℝ) : Q3 :=
  let tto := F.To / T
  let o := F.ao T d
  let tt := F.Tr / T
  let dd := d / F.dsr
  let a := F.ar T d
  ⟨(o.p + 1 + (a.p + dd * a.py)) * (F.R * T),
    (o.p + 1 - tto * o.px + (a.p + dd * a.py - tt * (a.px + dd * a.pxy))) * F.R,
    (o.py / F.dso + (2 * a.py + dd * a.pyy) / F.dsr) * (F.R * T)⟩

/-- `_a` (`mp1.py:3178-3205`). -/
noncomputable def Fluid.a (F : Fluid) (T d : ℝ) : ℝ :=
  let tto := F.To / T
  let tt := F.Tr / T
  let dd := d / F.dsr
  let a := F.ar T d
  let B := 1 + dd * (2 * a.py + dd * a.pyy)
  let C := 1 + dd * (a.py - tt * a.pxy)
  let D := tto * tto * (F.ao T d).pxx + tt * tt * a.pxx
  Real.sqrt (F.R * T * (B - C * C / D))

/-- `_cp` (`mp1.py:3208-3233`). -/
noncomputable def Fluid.cp (F : Fluid) (T d : ℝ) : ℝ :=
  let tto := F.To / T
  let tt := F.Tr / T
  let dd := d / F.dsr
  let a := F.ar T d
  let temp := 1 + dd * (a.py - tt * a.pxy)
  (-tto * tto * (F.ao T d).pxx +
    (-tt * tt * a.pxx + temp * temp / (1 + dd * (2 * a.py + dd * a.pyy)))) * F.R

/-- `_cv` (`mp1.py:3236-3260`). -/
noncomputable def Fluid.cv (F : Fluid) (T d : ℝ) : ℝ :=
  let tto := F.To / T
  let tt := F.Tr / T
  (tto * tto * (F.ao T d).pxx + tt * tt * (F.ar T d).pxx) * -F.R

/-- The result of a routine, or zeros if it raised. -/
def orZero : Except Err J6 → J6
  | .ok j => j
  | .error _ => ⟨0, 0, 0, 0, 0, 0⟩

/-- A fluid with the code's own `_ao` and `_ar`, asked for one state. -/
noncomputable def codeFluid (R To dso Tr dsr : ℝ) (ago : AOgroup) (agr : ARgroup) : Fluid :=
  ⟨R, To, dso, Tr, dsr, fun t d => orZero (Mp.ao ago 2 t d),
    fun t d => orZero (arAt agr 2 [(t, d)] t d)⟩

end PyroMat.Mp
