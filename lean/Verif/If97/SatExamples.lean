import Verif.If97.PropsSatMethods

/-!
Concrete cases of the theorems about `hs`, `es`, `ds` and `ss`: the fluid of `PropsSteam`, in the default
units and in degrees Rankine.
-/

set_option linter.unusedSimpArgs false

namespace PyroMat.If97.Props

open Units Gas Gas.Spec Gas.Props Mp.Spec Spec

/-- `C87_range`: the triple point and 300 K, and a temperature above the critical one. -/
example (q : SatQ) : (∃ L V, mSat fullEnv demo q (some (.arr [273.16, 300])) none = .ok (L, V) ∧ L.length = 2 ∧
      V.length = 2) ∧
    mSat fullEnv demo q (some (.arr [300, 700])) none = .error .param := by
  have hc : ∀ l : List ℝ, Comparable (.arr l) exampleSys.T.name "K" := fun l => by simp [Comparable]
  constructor
  · obtain ⟨L, V, h, h1, h2⟩ := ((C87_range fullEnv_uses demo_good (by norm_num [demo]) q (.arr [273.16, 300])).1
      (hc _)).1 (by
        intro t ht
        simp [Val.elems] at ht
        rw [demo_kelvin]
        rcases ht with rfl | rfl <;> norm_num [demo])
    exact ⟨L, V, h, h1, h2⟩
  · refine ((C87_range fullEnv_uses demo_good (by norm_num [demo]) q (.arr [300, 700])).1 (hc _)).2
      ⟨700, by simp [Val.elems], ?_⟩
    rw [demo_kelvin]
    rintro ⟨-, h⟩
    norm_num [demo] at h

/-- `C87_agrees`: the same temperatures. -/
example (q : SatQ) : ∃ L V, mSat fullEnv demo q (some (.arr [273.16, 300])) none = .ok (L, V) ∧
    method fullEnv demo q.q (some (.arr [273.16, 300])) none (some (.scalar 0)) = .ok L ∧
    method fullEnv demo q.q (some (.arr [273.16, 300])) none (some (.scalar 1)) = .ok V := by
  have hc : Comparable (.arr [273.16, 300]) exampleSys.T.name "K" := by simp [Comparable]
  obtain ⟨L, V, h, -, -⟩ := ((C87_range fullEnv_uses demo_good (by norm_num [demo]) q (.arr [273.16, 300])).1
      hc).1 (by
        intro t ht
        simp [Val.elems] at ht
        rw [demo_kelvin]
        rcases ht with rfl | rfl <;> norm_num [demo])
  exact ⟨L, V, h, (C87_agrees fullEnv_uses (by norm_num [demo]) (Or.inr (Or.inl rfl)) _ (by simp [Val.elems])).1 hc L V h⟩

/-- `C87_values_partial`: the triple point. -/
example : ∃ y L V P, mSat fullEnv demo .h (some (.arr [273.16])) none = .ok (L, V) ∧ ps demo 273.16 = some P ∧
    Derives demo 1 .h 273.16 P y ∧ L[0]? = some (some (shown fullEnv.a exampleSys demo.mw .h y)) := by
  have hc : Comparable (.arr [273.16]) exampleSys.T.name "K" := by simp [Comparable]
  obtain ⟨L, V, h, -, -⟩ := ((C87_range fullEnv_uses demo_good (by norm_num [demo]) .h (.arr [273.16])).1
      hc).1 (by
        intro t ht
        simp [Val.elems] at ht
        subst ht
        rw [demo_kelvin]
        norm_num [demo])
  obtain ⟨P, hP, hP0, -⟩ := demo_ps
  obtain ⟨vL, vV, d1, -, e, -⟩ := (C87_values_partial fullEnv_uses demo_good (by norm_num [demo])
    (by norm_num [demo]) (q := .h) (.arr [273.16]) (i := 0) (y := 273.16) (T := 273.16) (P := P) rfl
    (by norm_num) hP0.ne' (reg_const _ _ _) ⟨reg_const _ _ _, reg_const _ _ _⟩).1 hc (demo_kelvin _).symm hP L V h
  refine ⟨vL, L, V, P, h, hP, d1, ?_⟩
  rw [e]
  simp [SatQ.q]

/-- `C87_tp`: 300 K. -/
example : ∃ T P L V, mSatTp fullEnv demo .h (some (.arr [300])) none = .ok (T, P, L, V) := by
  have hc : Comparable (.arr [300]) exampleSys.T.name "K" := by simp [Comparable]
  have hr : ∀ t ∈ Val.elems (.arr [300] : Val ℝ), demo.Tt ≤ kelvin exampleSys t ∧ kelvin exampleSys t ≤ demo.Tc := by
    intro t ht
    simp [Val.elems] at ht
    subst ht
    rw [demo_kelvin]
    norm_num [demo]
  obtain ⟨L, V, h, -, -⟩ := ((C87_range fullEnv_uses demo_good (by norm_num [demo]) .h (.arr [300])).1 hc).1 hr
  obtain ⟨P, hP⟩ := (C61_range fullEnv_uses (W := demo) (.arr [300])).1.mpr hr
  exact ⟨_, P, L, V, ((C87_tp fullEnv_uses .h (.arr [300]) _ P L V).1 hc).mpr ⟨rfl, hP, h⟩⟩

/-- Degrees Rankine. -/
def rankineSys : Sys := { exampleSys with T := .R }

noncomputable def rankineEnv : Env where
  a := SetupArgs.default
  c := { defT := 298.15, defp := 1.01325, str := fun k => match k with
    | "unit_temperature" => .ok "R" | "unit_pressure" => .ok "bar" | "unit_volume" => .ok "m3"
    | "unit_energy" => .ok "kJ" | "unit_matter" => .ok "kg" | "def_T_unit" => .ok "K"
    | "def_p_unit" => .ok "bar" | "unit_mass" => .ok "kg" | "unit_molar" => .ok "kmol"
    | _ => .error .param }
  cell := fun _ ws => ws.getLastD 0

theorem rankineEnv_uses : Uses rankineEnv rankineSys where
  pos := by constructor <;> norm_num [rankineEnv, SetupArgs.default]
  valid := ⟨rfl, rfl, rfl, Or.inl rfl⟩
  T := rfl
  p := rfl
  v := rfl
  e := rfl
  m := rfl
  defT := ⟨.K, rfl⟩
  defp := ⟨"bar", rfl, rfl⟩

/-- `C87_entropy_defect`: the liquid at the triple point, 491.688 R. -/
example : ∃ L V vL, mSat rankineEnv demo .s (some (.scalar 491.688)) none = .ok (L, V) ∧
    Derives demo 1 .s (kelvin rankineSys 491.688) (Classical.choose demo_ps) vL ∧
    L[0]? ≠ some (some (shown rankineEnv.a rankineSys demo.mw .s vL)) := by
  have hk : kelvin rankineSys 491.688 = 273.16 := by
    show Units.toKelvin "R" 491.688 = _
    rw [toK_R]
    norm_num
  have hc : Comparable (.scalar 491.688) rankineSys.T.name "K" := by simp [Comparable, rankineSys, Scale.name]
  obtain ⟨L, V, h, -, -⟩ := ((C87_range rankineEnv_uses demo_good (by norm_num [demo]) .s (.scalar 491.688)).1
      hc).1 (by
        intro t ht
        simp [Val.elems] at ht
        subst ht
        rw [hk]
        norm_num [demo])
  obtain ⟨hP, hP0, -⟩ := Classical.choose_spec demo_ps
  obtain ⟨vL, d1, hn⟩ := C87_entropy_defect rankineEnv_uses demo_good (by norm_num [demo]) (by norm_num [demo])
    (by have : size (temperature : Conv ℝ) rankineSys.T.name = 1 := rfl
        rw [this]; norm_num) (.scalar 491.688) hc (i := 0) (y := 491.688) (P := Classical.choose demo_ps) rfl
    (by rw [hk]; norm_num) hP0.ne' (by rw [hk]; exact hP) (reg_const _ _ _) ⟨reg_const _ _ _, reg_const _ _ _⟩ h
  refine ⟨L, V, vL, h, d1, hn ?_⟩
  obtain ⟨j, hj, e⟩ := d1
  have h1 : HasDerivAt (fun s : ℝ => gibbs demo 1 s (Classical.choose demo_ps)) 0.461526 (kelvin rankineSys 491.688) := by
    refine (((hasDerivAt_id (kelvin rankineSys 491.688)).const_mul 0.461526).congr_of_eventuallyEq
      (Filter.Eventually.of_forall fun s => ?_)).congr_deriv (by norm_num)
    simp [gibbs, gamma, demo, polyAt]
  rw [e]
  simp only [fromGibbs, hj.dx.unique h1]
  norm_num

end PyroMat.If97.Props
