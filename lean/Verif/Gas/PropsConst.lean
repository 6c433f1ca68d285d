import Verif.Gas.PropsMixture
import Verif.Gas.Examples

/-!
# Constants of a gas in the working units (C37)
-/

namespace PyroMat.Gas.Props

open PyroMat PyroMat.Units PyroMat.Units.Spec PyroMat.Units.Props PyroMat.Gas PyroMat.Gas.Spec

/-- C37, constants.  Under every unit system `R()`, `Tlim()` and `mw()` return the universal gas
constant, the temperature limits and the molecular weight of the gas: read back with the sizes of the
units, the numbers returned are `Ru` kJ/kmol/K, the limits in K and the weight in kg/kmol.  The gas
constant is per unit of matter, and `Tlim()` lists the lower limit first. -/
theorem C37_constants (E : Env) (S : Sys) (hU : Uses E S) (um un : String)
    (h1 : E.c.str "unit_mass" = .ok um) (h2 : (mass E.a).contains um = true)
    (h3 : E.c.str "unit_molar" = .ok un) (h4 : (molar E.a).contains un = true) (G : Gas) (hmw : G.mw ≠ 0) :
    (∃ r, mR E G = .ok r ∧ internal E.a S G.mw .entropy r = Ru) ∧
    (∃ lo hi, mTlim E G = .ok (lo, hi) ∧ toKelvin S.T.name lo = G.Tlo ∧ toKelvin S.T.name hi = G.Thi) ∧
    (∃ m, mMw E G "kg" "kmol" = .ok m ∧ mMw E G "g" "mol" = .ok m ∧
      m * size (mass E.a) um / size (molar E.a) un = G.mw) := by
  have n1 : NonZero (mass E.a) := nonZero_of_mem hU.pos (by simp [allConvs])
  have n2 : NonZero (molar E.a) := nonZero_of_mem hU.pos (by simp [allConvs])
  have e1 : size (mass E.a) um ≠ 0 := n1 _ (lookup_mem (size_lookup hU h2))
  have e2 : size (molar E.a) un ≠ 0 := n2 _ (lookup_mem (size_lookup hU h4))
  refine ⟨⟨_, mR_eq hU hmw, internal_inUnits hU hmw _ _⟩, ⟨_, _, mTlim_eq hU, ?_, ?_⟩,
    ⟨_, (mMw_eq hU h1 h2 h3 h4 G).1, (mMw_eq hU h1 h2 h3 h4 G).2, ?_⟩⟩
  · exact internal_inUnits hU (mw := 1) one_ne_zero .temperature _
  · exact internal_inUnits hU (mw := 1) one_ne_zero .temperature _
  · field_simp

/-- An environment that sets every unit. -/
noncomputable def fullEnv : Env where
  a := SetupArgs.default
  c := { defT := 298.15, defp := 1.01325, str := fun k => match k with
    | "unit_temperature" => .ok "K" | "unit_pressure" => .ok "bar" | "unit_volume" => .ok "m3"
    | "unit_energy" => .ok "kJ" | "unit_matter" => .ok "kg" | "def_T_unit" => .ok "K"
    | "def_p_unit" => .ok "bar" | "unit_mass" => .ok "kg" | "unit_molar" => .ok "kmol"
    | "unit_length" => .ok "m" | "unit_time" => .ok "s"
    | _ => .error .param }
  cell := fun _ ws => ws.getLastD 0

theorem fullEnv_uses : Uses fullEnv exampleSys where
  pos := by constructor <;> norm_num [fullEnv, SetupArgs.default]
  valid := ⟨rfl, rfl, rfl, Or.inl rfl⟩
  T := rfl
  p := rfl
  v := rfl
  e := rfl
  m := rfl
  defT := ⟨.K, rfl⟩
  defp := ⟨"bar", rfl, rfl⟩

/-- The hypotheses of `C37_constants` are met by the default units and any gas with a molecular weight. -/
example : (mR fullEnv (ig constData)).toOption.isSome := by
  obtain ⟨⟨r, hr, -⟩, -⟩ := C37_constants fullEnv exampleSys fullEnv_uses "kg" "kmol" rfl rfl rfl rfl
    (ig constData) (by norm_num [ig, constData])
  simp [hr, Except.toOption]

end PyroMat.Gas.Props
