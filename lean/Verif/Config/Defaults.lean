import Verif.Units.Props
import Verif.Config.Model

/-!
# C18: default temperature and pressure (`/repo/src/pyromat/utility.py:390-406`)
-/

set_option linter.unusedSectionVars false
set_option linter.unusedSimpArgs false

namespace PyroMat.Config.Defaults

open PyroMat PyroMat.Units PyroMat.Units.Spec

variable {K : Type} [Field K] [LinearOrder K]

/-- The part of the configuration the default-state methods read: the two numbers (`def_T`,
`def_p`, `utility.py:219`, `221`) and every string parameter.  Simplification: the numeric
parameters are separate fields instead of entries of one dictionary. -/
structure NumCfg (K : Type) where
  defT : K
  defp : K
  str : Cfg

/-- `PMConfig.def_T` (`utility.py:390-397`). -/
def defT (c : NumCfg K) : Except Err (Res K) := do
  let u ← c.str "def_T_unit"
  temperatureScale c.str (.scalar c.defT) (some u) none false

/-- `PMConfig.def_p` (`utility.py:399-406`). -/
def defp (a : SetupArgs K) (c : NumCfg K) : Except Err (Res K) := do
  let u ← c.str "def_p_unit"
  (pressure a).call c.str (.scalar c.defp) (some u) none none false

/-- A string configuration with one parameter reassigned. -/
def setStr (c : NumCfg K) (k v : String) : NumCfg K :=
  { c with str := fun j => if j = k then .ok v else c.str j }

variable [IsStrictOrderedRing K]

/-- C18, temperature.  With any stored default (number and scale), whatever the working scale,
`def_T()` is the number on the working scale of the temperature stored (within the 3e-14 K of
C07 when exactly one of the two scales is Fahrenheit, exactly otherwise). -/
theorem C18_def_T (c : NumCfg K) (s t : Scale) (hs : c.str "def_T_unit" = .ok s.name)
    (ht : c.str "unit_temperature" = .ok t.name) :
    ∃ y, returned (defT c) = .ok (.scalar y) ∧
      |kelvin t y - kelvin s c.defT| ≤ 3e-14 ∧
      ((s = .F ↔ t = .F) → kelvin t y = kelvin s c.defT) := by
  have h : defT c = temperatureScale c.str (.scalar c.defT) (some s.name) (some t.name) false := by
    simp [defT, hs, ht, temperatureScale, bind, Except.bind, pure, Except.pure]
  rw [h]
  exact Props.C07_scale_denotes_same_temperature s t c.str c.defT false

/-- C18, temperature, exact form: reconfiguring the working scale from `t` to `u` changes the
number returned by `def_T()` exactly as `temperature_scale` converts it. -/
theorem C18_def_T_reconfigure (c : NumCfg K) (s t u : Scale)
    (hs : c.str "def_T_unit" = .ok s.name) :
    ∃ x y, returned (defT (setStr c "unit_temperature" t.name)) = .ok (.scalar x) ∧
      returned (defT (setStr c "unit_temperature" u.name)) = .ok (.scalar y) ∧
      ∀ cfg ip, returned (temperatureScale cfg (.scalar x) (some t.name) (some u.name) ip)
        = .ok (.scalar y) := by
  have key : ∀ t : Scale, returned (defT (setStr c "unit_temperature" t.name))
      = .ok (.scalar (fromKelvin t.name (toKelvin s.name c.defT))) := by
    intro t
    have h : defT (setStr c "unit_temperature" t.name)
        = temperatureScale (setStr c "unit_temperature" t.name).str (.scalar c.defT)
          (some s.name) (some t.name) false := by
      simp [defT, setStr, hs, temperatureScale, bind, Except.bind, pure, Except.pure]
    obtain ⟨r, hr, hr'⟩ := Props.tscale_ret s t (setStr c "unit_temperature" t.name).str
      (.scalar c.defT) false
    rw [h, hr]
    simp [returned, Except.map, hr', Val.map]
  refine ⟨_, _, key t, key u, fun cfg ip => ?_⟩
  obtain ⟨r, hr, hr'⟩ := Props.tscale_ret t u cfg
    (.scalar (fromKelvin t.name (toKelvin s.name c.defT))) ip
  rw [hr]
  simp [returned, Except.map, hr', Val.map, Props.to_from]

/-- C18, pressure.  Reconfiguring the working pressure unit from `t` to `u` changes the number
returned by `def_p()` exactly as `pressure` converts it; in particular in the unit it is stored
in, `def_p()` is the stored number. -/
theorem C18_def_p_reconfigure (a : SetupArgs K) (ha : Positive a) (c : NumCfg K) (s t u : String)
    (hs : c.str "def_p_unit" = .ok s) (hs' : (pressure a).contains s = true)
    (ht : (pressure a).contains t = true) (hu : (pressure a).contains u = true) :
    returned (defp a (setStr c "unit_pressure" s)) = .ok (.scalar c.defp) ∧
    ∃ x y, returned (defp a (setStr c "unit_pressure" t)) = .ok (.scalar x) ∧
      returned (defp a (setStr c "unit_pressure" u)) = .ok (.scalar y) ∧
      ∀ cfg ip, returned ((pressure a).call cfg (.scalar x) (some t) (some u) none ip)
        = .ok (.scalar y) := by
  have hn : NonZero (pressure a) := Props.nonZero_of_mem ha (by simp [allConvs])
  obtain ⟨xs, hxs⟩ := contains_iff.mp hs'
  have key : ∀ t xt, (pressure a).table.lookup t = some xt →
      returned (defp a (setStr c "unit_pressure" t)) = .ok (.scalar (c.defp * (xs / xt))) := by
    intro t xt hxt
    have h : defp a (setStr c "unit_pressure" t)
        = (pressure a).call (setStr c "unit_pressure" t).str (.scalar c.defp)
          (some s) (some t) none false := by
      simp [defp, setStr, hs, Conv.call, Conv.resolve, pressure, bind, Except.bind, pure,
        Except.pure]
    obtain ⟨r, hr, hr'⟩ := call_ret hn hxs hxt (setStr c "unit_pressure" t).str
      (.scalar c.defp) none false
    rw [h, hr]
    simp [returned, Except.map, hr', Val.map, powS]
  obtain ⟨xt, hxt⟩ := contains_iff.mp ht
  obtain ⟨xu, hxu⟩ := contains_iff.mp hu
  have h0 : xs ≠ 0 := hn _ (lookup_mem hxs)
  have h1 : xt ≠ 0 := hn _ (lookup_mem hxt)
  have h2 : xu ≠ 0 := hn _ (lookup_mem hxu)
  refine ⟨?_, _, _, key t xt hxt, key u xu hxu, fun cfg ip => ?_⟩
  · rw [key s xs hxs, div_self h0, mul_one]
  · obtain ⟨r, hr, hr'⟩ := call_ret hn hxt hxu cfg (.scalar (c.defp * (xs / xt))) none ip
    rw [hr]
    simp only [returned, Except.map, hr', Val.map, powS]
    congr 2
    field_simp

/-- The shipped default configuration meets the hypotheses. -/
def shipped : NumCfg ℚ where
  defT := 298.15
  defp := 1.01325
  str k := match k with
    | "def_T_unit" => .ok "K" | "unit_temperature" => .ok "K"
    | "def_p_unit" => .ok "bar" | "unit_pressure" => .ok "bar" | _ => .error .param

example : shipped.str "def_T_unit" = .ok Scale.K.name ∧
    (setStr shipped "unit_temperature" "F").str "unit_temperature" = .ok Scale.F.name ∧
    (pressure (SetupArgs.default : SetupArgs ℚ)).contains "psi" = true := ⟨rfl, rfl, rfl⟩

end PyroMat.Config.Defaults
