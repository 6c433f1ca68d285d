import Verif.If97.PropsCalls
import Verif.Gas.PropsMixture

/-!
# Steam: critical point, triple point and molecular weight in the working units (C102)
-/

set_option linter.unusedSimpArgs false

namespace PyroMat.If97

open PyroMat PyroMat.Units PyroMat.Gas

/-- `critical()` (`if97.py:892-902`): the data holds K and bar. -/
noncomputable def mCritical (E : Env) (W : Water) : Except Err (ℝ × ℝ) := do
  let T ← scalarOf (temperatureScale E.c.str (.scalar W.Tc) (some "K") none false)
  let p ← scalarOf ((Units.pressure E.a).call E.c.str (.scalar W.pc) (some "bar") none none false)
  .ok (T, p)

/-- `triple()` (`if97.py:905-914`). -/
noncomputable def mTriple (E : Env) (W : Water) : Except Err (ℝ × ℝ) := do
  let T ← scalarOf (temperatureScale E.c.str (.scalar W.Tt) (some "K") none false)
  let p ← scalarOf ((Units.pressure E.a).call E.c.str (.scalar W.pt) (some "bar") none none false)
  .ok (T, p)

/-- `mw(...)` (`if97.py:1960-1977`): the arguments are ignored. -/
noncomputable def mMw (E : Env) (W : Water) : Except Err ℝ := do
  let m ← scalarOf ((mass E.a).call E.c.str (.scalar W.mw) (some "g") none none false)
  scalarOf ((molar E.a).call E.c.str (.scalar m) (some "mol") none (some (-1)) false)

namespace Props

open PyroMat.Units.Props PyroMat.Gas.Spec
open PyroMat.Units.Spec hiding kelvin
open PyroMat.Gas.Props PyroMat.Mp.Spec PyroMat.Mp.Props PyroMat.If97.Spec

/-- **C102**, steam.  `critical()` and `triple()` are the ends of what `ps` and `Ts` accept in the same
units, and `mw()` read back with the sizes of the units is the weight of the data in kg/kmol. -/
theorem C102_steam (E : Env) (S : Sys) (hU : Uses E S) (W : Water) (um un : String)
    (h1 : E.c.str "unit_mass" = .ok um) (h2 : (mass E.a).contains um = true)
    (h3 : E.c.str "unit_molar" = .ok un) (h4 : (molar E.a).contains un = true) :
    ∃ tt pt tc pc m, mTriple E W = .ok (tt, pt) ∧ mCritical E W = .ok (tc, pc) ∧ mMw E W = .ok m ∧
      (∀ v, (∃ out, mPs E W (some v) = .ok out) ↔ ∀ t ∈ Val.elems v, tt ≤ t ∧ t ≤ tc) ∧
      (∀ v, (∃ out, mTs E W (some v) = .ok out) ↔ ∀ p ∈ Val.elems v, pt ≤ p ∧ p ≤ pc) ∧
      kelvin S tt = W.Tt ∧ bar E.a S pt = W.pt ∧ kelvin S tc = W.Tc ∧ bar E.a S pc = W.pc ∧
      m * size (mass E.a) um / size (molar E.a) un = W.mw := by
  have n1 : NonZero (mass E.a) := nonZero_of_mem hU.pos (by simp [allConvs])
  have n2 : NonZero (molar E.a) := nonZero_of_mem hU.pos (by simp [allConvs])
  have e1 : size (mass E.a) um ≠ 0 := n1 _ (lookup_mem (size_lookup hU h2))
  have e2 : size (molar E.a) un ≠ 0 := n2 _ (lookup_mem (size_lookup hU h4))
  have hps := ps_pos hU
  have hlt : ∀ a b : ℝ, bar E.a S a ≤ bar E.a S b ↔ a ≤ b := by
    intro a b
    unfold bar
    rw [div_le_div_iff_of_pos_right (by norm_num), mul_le_mul_iff_of_pos_right hps]
  have hk : ∀ x, kelvin S (fromKelvin S.T.name x) = x := fun x => to_from S.T x
  refine ⟨_, _, _, _, _, by rw [mTriple, scalarOf_tscale hU, exOk, fromBar_eq hU, exOk],
    by rw [mCritical, scalarOf_tscale hU, exOk, fromBar_eq hU, exOk],
    by rw [mMw, scalarOf_call hU n1 (k := "unit_mass") rfl h1 h2 (y := 1e-3) rfl, exOk,
      scalarOf_call hU n2 (k := "unit_molar") rfl h3 h4 (y := 1e-3) rfl],
    fun v => ?_, fun v => ?_, hk _, bar_from hU _, hk _, bar_from hU _, ?_⟩
  · rw [(C61_range hU v).1]
    refine forall₂_congr fun t _ => ?_
    have a := kelvin_le (E := E) hU (fromKelvin S.T.name W.Tt) t
    have b := kelvin_le (E := E) hU t (fromKelvin S.T.name W.Tc)
    rw [hk] at a b
    rw [a, b]
  · rw [(C61_range hU v).2.1]
    refine forall₂_congr fun p _ => ?_
    have a := hlt (W.pt * (1e5 / size (pressure E.a) S.p)) p
    have b := hlt p (W.pc * (1e5 / size (pressure E.a) S.p))
    rw [bar_from hU] at a b
    rw [a, b]
  · simp only [powS_neg_one, show ∀ x : ℝ, powS x none = x from fun _ => rfl]
    field_simp

/-- The hypotheses are met by the default units. -/
example (W : Water) : ∃ t p, mTriple fullEnv W = .ok (t, p) := by
  obtain ⟨t, p, -, -, -, h, -⟩ := C102_steam fullEnv exampleSys fullEnv_uses W "kg" "kmol" rfl rfl rfl rfl
  exact ⟨t, p, h⟩

end Props

end PyroMat.If97
