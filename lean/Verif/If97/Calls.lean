import Verif.Mp.ConvKg
import Verif.If97.PropsSat
import Verif.If97.PropsHelm

/-!
# Steam: units of the calls, lemmas for C60, C61, C66, C67
-/

set_option linter.unusedSimpArgs false

namespace PyroMat.If97.Props

open PyroMat PyroMat.Units PyroMat.Units.Props PyroMat.Gas PyroMat.Gas.Spec
open PyroMat.Units.Spec hiding kelvin
open PyroMat.Gas.Props PyroMat.Mp.Spec PyroMat.Mp.Props PyroMat.If97 PyroMat.If97.Spec

section
variable {E : Env} {S : Sys} (hU : Uses E S)
include hU

theorem toK_eq (t : ℝ) : toK E t = .ok (kelvin S t) := by
  obtain ⟨r, h1, h2, -⟩ := acts_T hU (.scalar t)
  unfold toK
  beta_reduce at h1
  rw [h1]
  simp [scalarOf, exOk, h2, Units.Val.map, kelvin]

theorem toBar_eq (p : ℝ) :
    scalarOf ((Units.pressure E.a).call E.c.str (.scalar p) none (some "bar") none false) =
      .ok (bar E.a S p) := by
  have h := call_acts (nz_pressure hU) (size_lookup hU hU.valid.p) (b := "bar") (tb := 1e5) rfl E.c.str none
  obtain ⟨r, h1, h2, -⟩ := h (.scalar p)
  beta_reduce at h1
  rw [(call_none (k := "unit_pressure") rfl hU.p _ none false "bar").1, h1]
  simp [scalarOf, exOk, h2, Units.Val.map, bar, powS, mul_div_assoc]

theorem fromBar_eq (p : ℝ) :
    scalarOf ((Units.pressure E.a).call E.c.str (.scalar p) (some "bar") none none false) =
      .ok (p * (1e5 / size (Units.pressure E.a) S.p)) := by
  rw [scalarOf_call hU (nz_pressure hU) (k := "unit_pressure") rfl hU.p hU.valid.p (w := "bar") (y := 1e5) rfl]
  simp [powS]

theorem bar_from (p : ℝ) : bar E.a S (p * (1e5 / size (Units.pressure E.a) S.p)) = p := by
  have := ps_ne hU
  unfold bar
  field_simp

theorem from_bar (p : ℝ) : bar E.a S p * (1e5 / size (Units.pressure E.a) S.p) = p := by
  have := ps_ne hU
  unfold bar
  field_simp

theorem energyScale_eq {W : Water} (hmw : W.mw ≠ 0) :
    energyScale E W = .ok (shown E.a S W.mw .h 1) := by
  have h1 := es_ne hU
  have h2 := ms_ne hU hmw
  unfold energyScale
  rw [scalarOf_call hU (nz_energy hU) (k := "unit_energy") rfl hU.e hU.valid.e (w := "kJ") (y := 1000) rfl, exOk,
    scalarOf_matter hU hmw (kg_scale hU W.mw)]
  congr 1
  simp [shown, kind, inUnitsKg, inUnits, perKmol, powS]
  field_simp
  try norm_num

theorem scale_eq {W : Water} (hmw : W.mw ≠ 0) {q : Q} (hq : q ≠ .s) :
    q.scale E W = .ok (shown E.a S W.mw q 1) := by
  have h1 := es_ne hU
  have h2 := ms_ne hU hmw
  have h3 := vs_ne hU
  have h4 := ts_ne hU
  cases q with
  | h => exact energyScale_eq hU hmw
  | e => exact energyScale_eq hU hmw
  | s => exact absurd rfl hq
  | d =>
    simp only [Q.scale]
    rw [scalarOf_call hU (nz_volume hU) (k := "unit_volume") rfl hU.v hU.valid.v (w := "m3") (y := 1 ^ 3) rfl, exOk,
      scalarOf_matter hU hmw (kg_scale hU W.mw)]
    congr 1
    simp [shown, kind, inUnitsKg, inUnits, perKmol, powS]
    field_simp
  | cp =>
    simp only [Q.scale]
    rw [energyScale_eq hU hmw, exOk, temp_scale hU]
    simp [shown, kind, inUnitsKg, inUnits, perKmol]
  | cv =>
    simp only [Q.scale]
    rw [energyScale_eq hU hmw, exOk, temp_scale hU]
    simp [shown, kind, inUnitsKg, inUnits, perKmol]

theorem scale_s {W : Water} (hmw : W.mw ≠ 0) :
    Q.s.scale E W = .ok (shown E.a S W.mw .s 1 * (1.8 / size temperature S.T.name) ^ 2) := by
  have h4 := ts_ne hU
  simp only [Q.scale]
  rw [energyScale_eq hU hmw, exOk, scalarOf_call hU (nz_temperature hU) (k := "unit_temperature") rfl hU.T
    (tcontains hU) (y := 1.8) rfl]
  congr 1
  simp [shown, kind, inUnitsKg, inUnits, perKmol, powS]
  field_simp

theorem shown_mul (mw : ℝ) (q : Q) (v : ℝ) : v * shown E.a S mw q 1 = shown E.a S mw q v := by
  cases q <;> simp [shown, kind, inUnitsKg, inUnits, perKmol] <;> ring

/-- The factor the result of a call is multiplied by, in the units of the caller. -/
noncomputable def factor (E : Env) (S : Sys) (W : Water) (q : Q) : ℝ :=
  if q = .s then shown E.a S W.mw .s 1 * (1.8 / size temperature S.T.name) ^ 2
  else shown E.a S W.mw q 1

theorem scale_factor {W : Water} (hmw : W.mw ≠ 0) (q : Q) : q.scale E W = .ok (factor E S W q) := by
  unfold factor
  by_cases h : q = .s
  · rw [if_pos h, h]; exact scale_s hU hmw
  · rw [if_neg h]; exact scale_eq hU hmw h

/-- A call on a list of states. -/
theorem method_eq {W : Water} (hmw : W.mw ≠ 0) (q : Q) (T p x : Option (Val ℝ)) {it : List (ℝ × ℝ × ℝ)}
    (hit : nditer3 (orDefault E.c.defT T) (orDefault E.c.defp p) (orDefault (-1) x) = .ok it) :
    method E W q T p x =
      (it.mapM (fun a => element W q T.isNone p.isNone (kelvin S a.1) (bar E.a S a.2.1) a.2.2)).map
        (scaleBy (factor E S W q)) := by
  unfold method
  rw [toBar_eq hU, exOk, hit, exOk]
  have : ∀ a ∈ it, (toK E a.1 >>= fun TT => element W q T.isNone p.isNone TT (a.2.1 * bar E.a S 1) a.2.2) =
      element W q T.isNone p.isNone (kelvin S a.1) (bar E.a S a.2.1) a.2.2 := by
    intro a _
    rw [toK_eq hU, exOk]
    congr 1
    simp only [bar]; ring
  rw [mapM_congr this, scale_factor hU hmw]
  cases (it.mapM (fun a => element W q T.isNone p.isNone (kelvin S a.1) (bar E.a S a.2.1) a.2.2)) with
  | error e => rfl
  | ok r => rfl

theorem kelvin_le (a b : ℝ) : kelvin S a ≤ kelvin S b ↔ a ≤ b := by
  unfold kelvin
  have hk : (0 : ℝ) < const_q / const_k := by unfold const_q const_k; norm_num
  cases S.T <;> simp only [Scale.name, toK_K, toK_C, toK_F, toK_R, toK_eV]
  · constructor <;> intro h <;> linarith
  · exact div_le_div_iff_of_pos_right (by norm_num)
  · rw [add_le_add_iff_right]; exact div_le_div_iff_of_pos_right (by norm_num)
  · exact mul_le_mul_iff_of_pos_right hk

end

/-- States without a quality. -/
theorem nditer_pairs {T p : List ℝ} {ts ps : List ℝ} (h : broadcast T p = .ok (ts, ps)) (hne : ts ≠ []) :
    nditer3 T p [-1] = .ok ((ts.zip ps).map (fun a => (a.1, a.2, -1))) := by
  have hlen : ts.length = ps.length := by
    unfold broadcast at h
    split_ifs at h with he
    · cases h; exact he
    · split at h
      · cases h; simp
      · cases h; simp
      · cases h
  have hz : ts.zip ps ≠ [] := by
    cases ts with
    | nil => exact absurd rfl hne
    | cons t ts =>
      cases ps with
      | nil => simp at hlen
      | cons p ps => simp
  unfold nditer3
  rw [h]
  show (broadcast (ts.zip ps) [-1] >>= _) = _
  have : broadcast (ts.zip ps) [(-1 : ℝ)] = .ok (ts.zip ps, List.replicate (ts.zip ps).length (-1)) := by
    unfold broadcast
    generalize ts.zip ps = l at *
    match l with
    | [] => exact absurd rfl hz
    | [a] => simp
    | a :: b :: l => simp
  rw [this, exOk]
  show (if ts.zip ps = [] then _ else _) = _
  rw [if_neg hz]
  congr 1
  generalize ts.zip ps = l
  induction l with
  | nil => rfl
  | cons a l ih => simp [List.replicate_succ, ih]

end PyroMat.If97.Props
