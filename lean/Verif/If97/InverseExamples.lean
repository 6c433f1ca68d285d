import Verif.If97.PropsInverseS
import Verif.If97.SatExamples

/-!
Concrete cases of the theorems about `T_h` and `T_s`: two fluids with the same liquid and vapour, the first with
the saturation line of the report and the second without one.
-/

set_option linter.unusedSimpArgs false

namespace PyroMat.If97.Props

open Units Gas Gas.Spec Gas.Props Mp.Spec Spec

/-- A fluid whose enthalpies and entropies grow with temperature. -/
noncomputable def sample (r4 : Fin 10 → ℝ) (b23 : Fin 5 → ℝ) : Water where
  r1 := [(0, 2, -1)]
  r2o := [(0, -1, -1)]
  r2r := [(0, 0, 0)]
  r3 := [(0, 0, 0)]
  r3ln := 1
  r5o := [(0, -1, -2)]
  r5r := [(0, 0, 0)]
  r4 := r4
  b23 := b23
  R := 0.5
  mw := 18
  Tc := 647.096
  pc := 220.64
  dc := 322
  Tt := 273.16
  pt := 0

/-- With the saturation line of the report. -/
noncomputable def wet : Water := sample iapws (fun _ => 0)

/-- Without saturation line; the boundary of region 2 is at 700 K below 300 bar. -/
noncomputable def dry : Water := sample ![0, 1, 0, 0, 0, 0, 0, 1, 0, 0] ![1001, 0, 0, 700, 0]

/-- Constant backward equations. -/
def constBack : Back :=
  ⟨[(0, 0, 273.16)], [(0, 0, 1)], [(0, 0, 2)], [(0, 0, 3)], [(0, 0, 4)], [(0, 0, 5)], [(0, 0, 6)], [(0, 0, 7)],
    fun _ => 0⟩

theorem constBack_good : GoodBack constBack :=
  ⟨wf_const _, wf_const _, wf_const _, wf_const _, wf_const _, wf_const _, wf_const _, wf_const _⟩

variable (r4 : Fin 10 → ℝ) (b23 : Fin 5 → ℝ)

theorem sample_good : GoodData (sample r4 b23) :=
  ⟨⟨by simp [sample], by simp [sample], by simp [sample], by simp [sample]⟩,
    ⟨by simp [sample], by simp [sample], by simp [sample], by simp [sample]⟩, wf_const _, wf_const _,
    ⟨by simp [sample], by simp [sample], by simp [sample], by simp [sample]⟩, wf_const _⟩

theorem sample_good3 : Good3 (sample r4 b23) := ⟨wf_const _, by norm_num [sample], by norm_num [sample]⟩

theorem sample_r1 (T p : ℝ) : RegularAt (sample r4 b23) 1 T p :=
  ⟨Or.inr (by simp [sample]), Or.inr (by simp [sample])⟩

theorem sample_r2 {T : ℝ} (hT : T ≠ 0) (p : ℝ) : RegularAt (sample r4 b23) 2 T p :=
  ⟨⟨Or.inr (by simp [sample]), Or.inl (by positivity)⟩, reg_const _ _ _⟩

theorem derives_of {W : Water} {r : Nat} {q : Q} {T p v : ℝ} (h : Derives W r q T p v) {f : ℝ → ℝ} {f' : ℝ}
    (hf : ∀ᶠ s in nhds T, gibbs W r s p = f s) (hd : HasDerivAt f f' T) :
    Derives W r .h T p (f T - T * f') ∧ Derives W r .s T p (-f') := by
  obtain ⟨j, hj, -⟩ := h
  have h1 : j.px = f' := hj.dx.unique (hd.congr_of_eventuallyEq hf)
  have h2 : j.p = f T := by rw [hj.val]; exact hf.self_of_nhds
  exact ⟨⟨j, hj, by simp only [fromGibbs, h1, h2]⟩, ⟨j, hj, by simp only [fromGibbs, h1]⟩⟩

theorem sample_h1 {T p : ℝ} (hT : T ≠ 0) (hp : p ≠ 0) :
    Derives (sample r4 b23) 1 .h T p (1386 * 1.222 - 1386 ^ 2 / T) ∧
    Derives (sample r4 b23) 1 .s T p (0.5 * 1.222 ^ 2 - 0.5 * 1386 ^ 2 / T ^ 2) := by
  obtain ⟨g, -, e2, -⟩ := derives1 (sample_good r4 b23).r1 .h (by norm_num [sample]) hT hp (sample_r1 r4 b23 T p)
  obtain ⟨k1, k2⟩ := derives_of e2 (f := fun s => 1386 * 1.222 - 0.5 * 1.222 ^ 2 * s - 0.5 * 1386 ^ 2 * s⁻¹)
    (f' := - (0.5 * 1.222 ^ 2) + 0.5 * 1386 ^ 2 / T ^ 2) (by
      filter_upwards [isOpen_ne.mem_nhds hT] with s hs
      have hs' : s ≠ 0 := hs
      simp only [gibbs, gamma, polyAt, sample, List.map_cons, List.map_nil, List.sum_cons, List.sum_nil]
      field_simp
      norm_num
      ring) (by
      have h1 := ((hasDerivAt_id T).const_mul (0.5 * 1.222 ^ 2 : ℝ))
      have h2 := (hasDerivAt_inv hT).const_mul (0.5 * 1386 ^ 2 : ℝ)
      refine (((hasDerivAt_const T (1386 * 1.222 : ℝ)).sub h1).sub h2).congr_deriv ?_
      field_simp
      ring)
  refine ⟨?_, ?_⟩
  · convert k1 using 1
    field_simp
    ring
  · convert k2 using 1
    ring

theorem sample_h2 {T p : ℝ} (hT : T ≠ 0) (hp : p ≠ 0) :
    Derives (sample r4 b23) 2 .h T p (T ^ 2 / 1080) ∧
    Derives (sample r4 b23) 2 .s T p (T / 540 - 0.5 * Real.log (p / 10)) := by
  obtain ⟨g, -, e2, -⟩ := derives2 (sample_good r4 b23) .h (by norm_num [sample]) hT hp (sample_r2 r4 b23 hT p)
  obtain ⟨k1, k2⟩ := derives_of e2 (f := fun s => 0.5 * Real.log (p / 10) * s - s ^ 2 / 1080)
    (f' := 0.5 * Real.log (p / 10) - T / 540) (by
      filter_upwards [isOpen_ne.mem_nhds hT] with s hs
      have hs' : s ≠ 0 := hs
      simp only [gibbs, gamma, polyAt, sample, List.map_cons, List.map_nil, List.sum_cons, List.sum_nil]
      simp
      field_simp
      ring) (by
      have h1 := ((hasDerivAt_id T).const_mul (0.5 * Real.log (p / 10)))
      have h2 := ((hasDerivAt_pow 2 T).div_const 1080)
      refine (h1.sub h2).congr_deriv ?_
      norm_num
      ring)
  refine ⟨?_, ?_⟩
  · convert k1 using 1
    ring
  · convert k2 using 1
    ring

theorem sample_h5 {T p : ℝ} (hT : T ≠ 0) (hp : p ≠ 0) :
    Derives (sample r4 b23) 5 .h T p (T ^ 2 / 1000) ∧
    Derives (sample r4 b23) 5 .s T p (T / 500 - 0.5 * Real.log (p / 10)) := by
  obtain ⟨g, -, e2⟩ := derives5 (sample_good r4 b23) .h (by norm_num [sample]) hT hp (regular5 hT hp)
  obtain ⟨k1, k2⟩ := derives_of e2 (f := fun s => 0.5 * Real.log (p / 10) * s - s ^ 2 / 1000)
    (f' := 0.5 * Real.log (p / 10) - T / 500) (by
      filter_upwards [isOpen_ne.mem_nhds hT] with s hs
      have hs' : s ≠ 0 := hs
      simp only [gibbs, gamma, polyAt, sample, List.map_cons, List.map_nil, List.sum_cons, List.sum_nil]
      simp
      field_simp
      ring) (by
      have h1 := ((hasDerivAt_id T).const_mul (0.5 * Real.log (p / 10)))
      have h2 := ((hasDerivAt_pow 2 T).div_const 1000)
      refine (h1.sub h2).congr_deriv ?_
      norm_num
      ring)
  refine ⟨?_, ?_⟩
  · convert k1 using 1
    ring
  · convert k2 using 1
    ring

theorem wet_good : GoodData wet := sample_good _ _
theorem dry_good : GoodData dry := sample_good _ _
theorem dry_good3 : Good3 dry := sample_good3 _ _

theorem wet_line : ∃ P, 0 < P ∧ P ≤ 0.1 ∧ Ts wet P = some 273.16 ∧ ps wet 273.16 = some P := by
  have hs := iapws_line (W := wet) rfl
  have h1 := rootB_pos hs.toSatPressure (le_refl _) (by norm_num)
  refine ⟨_, by positivity, ?_, Ts_ps hs (le_refl _) (by norm_num), ps_eq hs.toSatPressure (le_refl _) (by norm_num)⟩
  have h2 := rootB_le (W := wet) rfl
  have := pow_le_pow_left₀ h1.le h2 4
  linarith [show (0.2 : ℝ) ^ 4 * 10 ≤ 0.1 by norm_num]

/-- The pressure of the fluid at the triple point. -/
noncomputable def wetP : ℝ := Classical.choose wet_line

theorem wetP_pos : 0 < wetP := (Classical.choose_spec wet_line).1
theorem wetP_le : wetP ≤ 0.1 := (Classical.choose_spec wet_line).2.1
theorem wetP_Ts : Ts wet wetP = some 273.16 := (Classical.choose_spec wet_line).2.2.1
theorem wetP_ps : ps wet 273.16 = some wetP := (Classical.choose_spec wet_line).2.2.2

theorem barKg : BarKg exampleSys := ⟨rfl, rfl⟩

/-- `C88_mixture`, `C88_roundtrip_mixture`: quality one quarter at the triple point. -/
example : ∃ h, method fullEnv wet .h none (some (.scalar wetP)) (some (.scalar 0.25)) = .ok [some h] ∧
    mTh fullEnv wet constBack (.scalar h) (some (.scalar wetP)) = .ok ([fromKelvin "K" 273.16], [0.25]) :=
  C88_roundtrip_mixture fullEnv_uses barKg wet_good (by norm_num [wet, sample]) (by norm_num [wet, sample])
    wetP_pos.ne' (by linarith [wetP_le]) wetP_Ts (by norm_num) (sample_r1 _ _ _ _) (sample_r2 _ _ (by norm_num) _)
    (sample_h1 _ _ (by norm_num) wetP_pos.ne').1 (sample_h2 _ _ (by norm_num) wetP_pos.ne').1 (by norm_num)
    (by norm_num) (by norm_num)

/-- `C88_liquid`, `C88_roundtrip_liquid_partial`: 273.16 K and 500 bar, with an exact backward equation. -/
example : ∃ h t', method fullEnv wet .h (some (.scalar 273.16)) (some (.scalar 500)) none = .ok [some h] ∧
    mTh fullEnv wet constBack (.scalar h) (some (.scalar 500)) = .ok ([t'], [-1]) ∧
      |kelvin exampleSys t' - kelvin exampleSys 273.16| ≤ 0 := by
  have hk := demo_kelvin 273.16
  refine C88_roundtrip_liquid_partial fullEnv_uses barKg wet_good constBack_good (by norm_num [wet, sample])
    (by norm_num [wet, sample]) (by norm_num) ?_ (by rw [hk]; norm_num) (sample_r1 _ _ _ _)
    (sample_h1 _ _ (by rw [hk]; norm_num) (by norm_num)).1 (reg_const _ _ _) ?_
    (Or.inr ⟨by norm_num, by norm_num, sample_r1 _ _ _ _, _, (sample_h1 _ _ (by norm_num) (by norm_num)).1, ?_⟩)
  · rw [hk]
    refine ⟨by norm_num, by norm_num, by norm_num, ?_⟩
    rintro ⟨P, hP, hlt⟩
    rw [show ps wet 273.16 = some wetP from wetP_ps] at hP
    cases hP
    linarith [wetP_le]
  · rw [hk]
    simp [polyAt, constBack]
  · rw [hk]; norm_num

/-- `C88_vapour`: region 2a at the triple pressure. -/
example : mTh fullEnv wet constBack (.scalar (shown fullEnv.a exampleSys wet.mw .h 300)) (some (.scalar wetP)) =
    .ok ([fromKelvin "K" (polyAt [(0, 0, 2)] (wetP / 10) (300 / 2000 - 2.1))], [-1]) :=
  (C88_vapour fullEnv_uses barKg wet_good constBack_good (by norm_num [wet, sample]) (by norm_num [wet, sample])
    wetP_pos.ne' (by linarith [wetP_le]) wetP_Ts (by norm_num) (sample_r2 _ _ (by norm_num) _)
    (sample_h2 _ _ (by norm_num) wetP_pos.ne').1 (by norm_num)
    (fun hL h => by
      rw [derives_h_unique h (sample_h1 _ _ (by norm_num) wetP_pos.ne').1]
      norm_num)
    (sample_r1 _ _ _ _) (sample_h5 _ _ (by norm_num) wetP_pos.ne').1).1 (by linarith [wetP_le]) (by norm_num)
    (reg_const _ _ _)

/-- `C88_hot`, `C88_roundtrip_hot`: 1500 K at the triple pressure. -/
example : ∃ h, method fullEnv wet .h (some (.scalar 1500)) (some (.scalar wetP)) none = .ok [some h] ∧
      (mTh fullEnv wet constBack (.scalar h) (some (.scalar wetP)) = .error .analysis ∨
        ∃ T, mTh fullEnv wet constBack (.scalar h) (some (.scalar wetP)) = .ok ([fromKelvin "K" T], [-1]) ∧
          (T ≠ 0 → ∃ w, Derives wet 5 .h T wetP w ∧ |w - 1500 ^ 2 / 1000| < 1e-6 * (1500 ^ 2 / 1000))) := by
  have hk := demo_kelvin 1500
  refine C88_roundtrip_hot fullEnv_uses barKg wet_good (by norm_num [wet, sample]) (by norm_num [wet, sample])
    wetP_pos ?_ (by rw [hk]; exact (sample_h5 _ _ (by norm_num) wetP_pos.ne').1)
    (.low (by linarith [wetP_le]) wetP_Ts (by norm_num) (sample_r1 _ _ _ _) (sample_r2 _ _ (by norm_num) _)
      (sample_h1 _ _ (by norm_num) wetP_pos.ne').1 (sample_h2 _ _ (by norm_num) wetP_pos.ne').1 (by norm_num)
      (by norm_num) (Or.inl (by linarith [wetP_le]))) ?_
  · rw [hk]
    exact ⟨by norm_num, by norm_num, wetP_pos.le, by linarith [wetP_le]⟩
  · intro T1 T2 v1 v2 h1 h2 h3 k1 k2
    rw [derives_h_unique k1 (sample_h5 _ _ (by linarith) wetP_pos.ne').1,
      derives_h_unique k2 (sample_h5 _ _ (by linarith) wetP_pos.ne').1]
    gcongr

theorem dry_b23 (p : ℝ) : b23T dry p = 700 := by
  simp [b23T, dry, sample]

theorem dry_valid {p : ℝ} (h0 : 0 ≤ p) (h1 : p ≤ 1000) : Valid (kelvin exampleSys (b23T dry p)) p := by
  rw [dry_b23, demo_kelvin]
  exact ⟨h0, Or.inl ⟨by norm_num, h1⟩⟩

theorem dry_r2 (p : ℝ) : RegularAt dry 2 (b23T dry p) p := by
  rw [dry_b23]; exact sample_r2 _ _ (by norm_num) _

theorem dry_b0 (p : ℝ) : b23T dry p ≠ 0 := by
  rw [dry_b23]; norm_num

theorem dry_h2 {p : ℝ} (hp : p ≠ 0) : Derives dry 2 .h (b23T dry p) p (700 ^ 2 / 1080) := by
  rw [dry_b23]; exact (sample_h2 _ _ (by norm_num) hp).1

/-- `C88_vapour_high`: region 2b at 600 bar. -/
example : mTh fullEnv dry constBack (.scalar (shown fullEnv.a exampleSys dry.mw .h 1000)) (some (.scalar 600)) =
    .ok ([fromKelvin "K" (polyAt [(0, 0, 3)] (600 / 10 - 2) (1000 / 2000 - 2.6))], [-1]) :=
  (C88_vapour_high fullEnv_uses barKg dry_good constBack_good (by norm_num [dry, sample])
    (by norm_num [dry, sample]) (by norm_num) (by norm_num) (dry_valid (by norm_num) (by norm_num))
    (sample_r1 _ _ _ _) (dry_r2 _) (dry_b0 _)
    (sample_h1 _ _ (by norm_num) (by norm_num)).1 (dry_h2 (by norm_num))
    (sample_h5 _ _ (by norm_num) (by norm_num)).1 (by norm_num) (by norm_num)).2 (by norm_num [b2bc, constBack])
    (by norm_num) (reg_const _ _ _)

/-- `C88_region3`: an enthalpy of zero at 200 bar. -/
example : mTh fullEnv dry constBack (.scalar (shown fullEnv.a exampleSys dry.mw .h 0)) (some (.scalar 200)) =
      .error .analysis ∨
    mTh fullEnv dry constBack (.scalar (shown fullEnv.a exampleSys dry.mw .h 0)) (some (.scalar 200)) =
      .error .exception ∨
      ∃ T, mTh fullEnv dry constBack (.scalar (shown fullEnv.a exampleSys dry.mw .h 0)) (some (.scalar 200)) =
        .ok ([fromKelvin "K" T], [-1]) ∧
        (T ≠ 0 → Matches3 dry .h T 200 0 (dry.dc * dry.R * dry.Tc / 100) (dry.R * dry.Tc)) :=
  C88_region3 fullEnv_uses barKg dry_good dry_good3 (by norm_num [dry, sample])
    (by norm_num [dry, sample]) (by norm_num) (by norm_num) (by norm_num [dry, sample])
    (dry_valid (by norm_num) (by norm_num)) (sample_r1 _ _ _ _) (dry_r2 _)
    (dry_b0 _) (sample_h1 _ _ (by norm_num) (by norm_num)).1
    (dry_h2 (by norm_num)) (by norm_num) (by norm_num)

/-- `C88_limit_defect`: 1500 K and 500 bar. -/
example : ∃ h, method fullEnv dry .h (some (.scalar 1500)) (some (.scalar 500)) none = .ok [some h] ∧
    mTh fullEnv dry constBack (.scalar h) (some (.scalar 500)) = .error .param := by
  have hk := demo_kelvin 1500
  exact C88_limit_defect fullEnv_uses barKg dry_good (by norm_num [dry, sample])
    (by norm_num [dry, sample]) (by rw [hk]; exact ⟨by norm_num, by norm_num, by norm_num, by norm_num⟩)
    (by rw [hk]; exact (sample_h5 _ _ (by norm_num) (by norm_num)).1) (dry_valid (by norm_num) (by norm_num))
    (sample_r1 _ _ _ _) (dry_r2 _) (dry_b0 _)
    (sample_h1 _ _ (by norm_num) (by norm_num)).1 (dry_h2 (by norm_num))
    (sample_h5 _ _ (by norm_num) (by norm_num)).1 (by norm_num) (by norm_num) (by norm_num)
    (by norm_num [b2bc, constBack])

/-- Configurations with another unit for one quantity. -/
noncomputable def unitEnv (T p m : String) : Env where
  a := SetupArgs.default
  c := { defT := 298.15, defp := 1.01325, str := fun k => match k with
    | "unit_temperature" => .ok T | "unit_pressure" => .ok p | "unit_volume" => .ok "m3"
    | "unit_energy" => .ok "kJ" | "unit_matter" => .ok m | "def_T_unit" => .ok "K"
    | "def_p_unit" => .ok "bar" | "unit_mass" => .ok "kg" | "unit_molar" => .ok "kmol"
    | _ => .error .param }
  cell := fun _ ws => ws.getLastD 0

def paSys : Sys := { exampleSys with p := "Pa" }
def gramSys : Sys := { exampleSys with m := "g" }
def celsiusSys : Sys := { exampleSys with T := .C }

theorem pa_uses : Uses (unitEnv "K" "Pa" "kg") paSys where
  pos := by constructor <;> norm_num [unitEnv, SetupArgs.default]
  valid := ⟨rfl, rfl, rfl, Or.inl rfl⟩
  T := rfl
  p := rfl
  v := rfl
  e := rfl
  m := rfl
  defT := ⟨.K, rfl⟩
  defp := ⟨"bar", rfl, rfl⟩

theorem gram_uses : Uses (unitEnv "K" "bar" "g") gramSys where
  pos := by constructor <;> norm_num [unitEnv, SetupArgs.default]
  valid := ⟨rfl, rfl, rfl, Or.inl rfl⟩
  T := rfl
  p := rfl
  v := rfl
  e := rfl
  m := rfl
  defT := ⟨.K, rfl⟩
  defp := ⟨"bar", rfl, rfl⟩

theorem celsius_uses : Uses (unitEnv "C" "bar" "kg") celsiusSys where
  pos := by constructor <;> norm_num [unitEnv, SetupArgs.default]
  valid := ⟨rfl, rfl, rfl, Or.inl rfl⟩
  T := rfl
  p := rfl
  v := rfl
  e := rfl
  m := rfl
  defT := ⟨.K, rfl⟩
  defp := ⟨"bar", rfl, rfl⟩

/-- `C88_pressure_defect`: 300 K and one atmosphere. -/
example : ∃ h, method (unitEnv "K" "Pa" "kg") wet .h (some (.scalar 300)) (some (.scalar 101325)) none = .ok [some h] ∧
    mTh (unitEnv "K" "Pa" "kg") wet constBack (.scalar h) (some (.scalar 101325)) = .error .param :=
  C88_pressure_defect pa_uses rfl wet_good (by norm_num [wet, sample]) (by norm_num) (by norm_num)
    (by show Units.toKelvin "K" 300 ≤ _; rw [toK_K]; norm_num)

/-- `C88_matter_defect`: dry saturated vapour, amounts in g. -/
example : ∃ h, method (unitEnv "K" "bar" "g") wet .h none (some (.scalar wetP)) (some (.scalar 1)) = .ok [some h] ∧
    mTh (unitEnv "K" "bar" "g") wet constBack (.scalar h) (some (.scalar wetP)) ≠
      .ok ([fromKelvin "K" 273.16], [1]) := by
  have hm : msize (unitEnv "K" "bar" "g").a wet.mw "g" = 0.001 / 18 := by
    have : Props.matterScale (unitEnv "K" "bar" "g").a wet.mw "g" = some (0.001 / 18) := by
      simp [Props.matterScale, mass, List.lookup, wet, sample]
    simp only [msize, this, Option.getD_some]
  refine C88_matter_defect gram_uses rfl wet_good (by norm_num [wet, sample]) (by norm_num [wet, sample])
    (by rw [show gramSys.m = "g" from rfl, hm]; norm_num [wet, sample])
    (by rw [show gramSys.m = "g" from rfl, hm]; norm_num) wetP_pos.ne' (by linarith [wetP_le]) wetP_Ts (by norm_num)
    (sample_r1 _ _ _ _) (sample_r2 _ _ (by norm_num) _) (sample_h1 _ _ (by norm_num) wetP_pos.ne').1
    (sample_h2 _ _ (by norm_num) wetP_pos.ne').1 (by norm_num) (by norm_num) rfl (by norm_num)

/-! ## `T_s` -/

theorem defaultUnits : DefaultUnits exampleSys := ⟨rfl, rfl, rfl, rfl⟩

theorem wet_sat : Sat wet wetP 273.16 (0.5 * 1.222 ^ 2 - 0.5 * 1386 ^ 2 / 273.16 ^ 2)
    (273.16 / 540 - 0.5 * Real.log (wetP / 10)) where
  pt := wetP_pos.le
  pc := by show wetP ≤ 220.64; linarith [wetP_le]
  p0 := wetP_pos.ne'
  Ts := wetP_Ts
  T0 := by norm_num
  r1 := sample_r1 _ _ _ _
  r2 := sample_r2 _ _ (by norm_num) _
  hL := (sample_h1 _ _ (by norm_num) wetP_pos.ne').2
  hV := (sample_h2 _ _ (by norm_num) wetP_pos.ne').2

theorem wet_log : Real.log (wetP / 10) ≤ 0 :=
  Real.log_nonpos (by linarith [wetP_pos]) (by linarith [wetP_le])

/-- `C89_mixture`, `C89_roundtrip_mixture`: quality one quarter at the triple point. -/
example : ∃ s, method fullEnv wet .s none (some (.scalar wetP)) (some (.scalar 0.25)) = .ok [some s] ∧
    mTsInv fullEnv wet constBack (.scalar s) (some (.scalar wetP)) = .ok ([273.16], [0.25]) :=
  C89_roundtrip_mixture fullEnv_uses defaultUnits wet_good (by norm_num [wet, sample])
    (by norm_num [wet, sample]) (by linarith [wetP_le]) wet_sat
    (by have := wet_log; norm_num; linarith) (by norm_num) (by norm_num)

/-- `C89_liquid`: an entropy below that of the saturated liquid. -/
example : mTsInv fullEnv wet constBack (.scalar (-100)) (some (.scalar wetP)) =
    .ok ([polyAt [(0, 0, 1)] (wetP / 10) (-100 + 2)], [-1]) :=
  C89_liquid fullEnv_uses defaultUnits wet_good constBack_good (by norm_num [wet, sample])
    (by norm_num [wet, sample]) (reg_const _ _ _) (Or.inl ⟨by linarith [wetP_le], _, _, _, wet_sat, by norm_num⟩)

theorem sample_s2 {r4 : Fin 10 → ℝ} {b23 : Fin 5 → ℝ} {T p : ℝ} (hp : 0 < p) (h : 863.15 < T) (h1 : T ≤ 1073.15)
    (hp2 : p ≤ 1000) : EntropyAt fullEnv (sample r4 b23) T p (T / 540 - 0.5 * Real.log (p / 10)) := by
  have hk := demo_kelvin T
  obtain ⟨v, e1, e2⟩ := h_state fullEnv_uses (W := sample r4 b23) (E := fullEnv) (S := exampleSys) rfl (sample_good _ _)
    (by norm_num [sample]) (by norm_num [sample]) (q := .s) (Or.inr (Or.inl rfl)) (t := T) (p := p) (r := 2)
    (by norm_num) (by rw [hk]; exact ⟨hp.le, hp2, Or.inr (Or.inr ⟨h, h1⟩)⟩) (by rw [hk]; linarith) hp.ne'
    (sample_r2 _ _ (by rw [hk]; linarith) _)
  rw [hk] at e2
  rw [defaultUnits.shown fullEnv_uses (by norm_num [sample]), derives_s_unique e2
    (sample_h2 _ _ (by linarith) hp.ne').2] at e1
  exact e1

theorem sample_s5 {r4 : Fin 10 → ℝ} {b23 : Fin 5 → ℝ} {T p : ℝ} (hp : 0 < p) (h : 1073.15 < T) (h1 : T ≤ 2273.15)
    (hp2 : p ≤ 500) : EntropyAt fullEnv (sample r4 b23) T p (T / 500 - 0.5 * Real.log (p / 10)) := by
  have hk := demo_kelvin T
  obtain ⟨v, e1, e2⟩ := h_state fullEnv_uses (W := sample r4 b23) (E := fullEnv) (S := exampleSys) rfl (sample_good _ _)
    (by norm_num [sample]) (by norm_num [sample]) (q := .s) (Or.inr (Or.inl rfl)) (t := T) (p := p) (r := 5)
    (by norm_num) (by rw [hk]; exact ⟨h, h1, hp.le, hp2⟩) (by rw [hk]; linarith) hp.ne'
    (regular5 (by rw [hk]; linarith) hp.ne')
  rw [hk] at e2
  rw [defaultUnits.shown fullEnv_uses (by norm_num [sample]), derives_s_unique e2
    (sample_h5 _ _ (by linarith) hp.ne').2] at e1
  exact e1

/-- `C89_vapour`: region 2a, the entropy of the vapour at 540 K. -/
example : mTsInv fullEnv wet constBack (.scalar (1 - 0.5 * Real.log (wetP / 10))) (some (.scalar wetP)) =
    .ok ([polyAt [(0, 0, 5)] ((wetP / 10) ^ (0.25 : ℝ)) ((1 - 0.5 * Real.log (wetP / 10)) / 2 - 2)], [-1]) :=
  (C89_vapour fullEnv_uses defaultUnits wet_good constBack_good (by norm_num [wet, sample])
    (by norm_num [wet, sample]) (.low (by linarith [wetP_le]) wet_sat (by have := wet_log; norm_num; linarith)
      (by linarith)) (sample_s2 wetP_pos (by norm_num) (by norm_num) (by linarith [wetP_le]))).1
    (by linarith [wetP_le]) (by norm_num) (reg_const _ _ _)

/-- `C89_hot`, `C89_roundtrip_hot`: 1500 K at the triple pressure. -/
example : mTsInv fullEnv wet constBack (.scalar (1500 / 500 - 0.5 * Real.log (wetP / 10))) (some (.scalar wetP)) =
      .error .analysis ∨
    ∃ T, mTsInv fullEnv wet constBack (.scalar (1500 / 500 - 0.5 * Real.log (wetP / 10))) (some (.scalar wetP)) =
        .ok ([T], [-1]) ∧
      (T ≠ 0 → ∃ w, Derives wet 5 .s T wetP w ∧ |w - (1500 / 500 - 0.5 * Real.log (wetP / 10))| <
        1e-6 * (1500 / 500 - 0.5 * Real.log (wetP / 10))) := by
  have hl := wet_log
  have hP := wetP_pos
  have hP' := wetP_le
  refine C89_roundtrip_hot fullEnv_uses defaultUnits wet_good (by norm_num [wet, sample])
    (by norm_num [wet, sample]) hP.ne' (T := 1500) ⟨by norm_num, by norm_num, hP.le, by linarith⟩
    (sample_s5 hP (by norm_num) (by norm_num) (by linarith))
    (.low (by linarith) wet_sat (by norm_num; linarith) (by linarith)) (Or.inl (by linarith))
    (sample_s2 hP (by norm_num) (by norm_num) (by linarith)) (sample_s5 hP (by norm_num) (by norm_num) (by linarith)) ?_
  have uniq : ∀ {T v w : ℝ}, EntropyAt fullEnv wet T wetP v → EntropyAt fullEnv wet T wetP w → v = w := by
    intro T v w h1 h2
    have := Except.ok.inj (h1.symm.trans h2)
    simpa using this
  intro T1 T2 v1 v2 h1 h2 h3 k1 k2
  have f : ∀ {T v : ℝ}, 1073.15 < T → T ≤ 2273.15 → EntropyAt fullEnv wet T wetP v →
      v = T / 500 - 0.5 * Real.log (wetP / 10) := fun a b c => uniq c (sample_s5 hP a b (by linarith))
  rcases h1.lt_or_eq with c1 | c1
  · rw [f c1 (by linarith) k1, f (by linarith) h3 k2]
    linarith
  · subst c1
    have e1 := uniq k1 (sample_s2 hP (by norm_num) (by norm_num) (by linarith))
    rcases h2.lt_or_eq with c2 | c2
    · rw [e1, f c2 h3 k2]
      linarith
    · subst c2
      rw [uniq k1 k2]

theorem dry_ps (T : ℝ) : ps dry T = none := by
  have h : ∀ x : ℝ, x < 0 → sqrtN x = none := fun x hx => by unfold sqrtN; rw [if_pos hx]
  unfold ps
  dsimp only
  rw [h]
  · rfl
  · simp [dry, sample]
    nlinarith [mul_self_nonneg T]

/-- `C89_region3`: an entropy of -1 at 170 bar. -/
example : mTsInv fullEnv dry constBack (.scalar (-1)) (some (.scalar 170)) = .error .analysis ∨
    mTsInv fullEnv dry constBack (.scalar (-1)) (some (.scalar 170)) = .error .exception ∨
      ∃ T, mTsInv fullEnv dry constBack (.scalar (-1)) (some (.scalar 170)) = .ok ([T], [-1]) ∧
        (T ≠ 0 → Matches3 dry .s T 170 (-1) (dry.dc * dry.R * dry.Tc / 100) dry.R) := by
  obtain ⟨v, e1, e2⟩ := h_state fullEnv_uses (W := dry) (E := fullEnv) (S := exampleSys) rfl dry_good
    (by norm_num [dry, sample]) (by norm_num [dry, sample]) (q := .s) (Or.inr (Or.inl rfl)) (t := 623.15) (p := 170)
    (r := 1) (by norm_num) (by
      rw [demo_kelvin]
      refine ⟨le_refl _, by norm_num, by norm_num, ?_⟩
      rintro ⟨P, hP, -⟩
      rw [dry_ps] at hP
      cases hP) (by rw [demo_kelvin]; norm_num) (by norm_num) (sample_r1 _ _ _ _)
  obtain ⟨w, f1, f2⟩ := h_state fullEnv_uses (W := dry) (E := fullEnv) (S := exampleSys) rfl dry_good
    (by norm_num [dry, sample]) (by norm_num [dry, sample]) (q := .s) (Or.inr (Or.inl rfl)) (t := 700) (p := 170)
    (r := 2) (by norm_num) (by
      rw [demo_kelvin]
      exact ⟨by norm_num, by norm_num, Or.inr (Or.inl ⟨by norm_num, by norm_num, by simp [border, dry, sample]; norm_num⟩)⟩)
      (by rw [demo_kelvin]; norm_num) (by norm_num) (sample_r2 _ _ (by rw [demo_kelvin]; norm_num) _)
  rw [demo_kelvin] at e2 f2
  rw [defaultUnits.shown fullEnv_uses (by norm_num [dry, sample]), derives_s_unique e2
    (sample_h1 _ _ (by norm_num) (by norm_num)).2] at e1
  rw [defaultUnits.shown fullEnv_uses (by norm_num [dry, sample]), derives_s_unique f2
    (sample_h2 _ _ (by norm_num) (by norm_num)).2] at f1
  refine C89_region3 fullEnv_uses defaultUnits dry_good dry_good3 (by norm_num [dry, sample])
    (by norm_num [dry, sample]) (by norm_num) (by norm_num) (by norm_num [dry, sample]) e1
    (by rw [dry_b23]; exact f1) (by norm_num) ?_
  have h2 : Real.log 2 ≤ 2 - 1 := Real.log_le_sub_one_of_pos (by norm_num)
  have h3 : Real.log (17 / 16) ≤ 17 / 16 - 1 := Real.log_le_sub_one_of_pos (by norm_num)
  have e : Real.log (170 / 10) = 4 * Real.log 2 + Real.log (17 / 16) := by
    rw [show (170 / 10 : ℝ) = 2 ^ 4 * (17 / 16) by norm_num, Real.log_mul (by norm_num) (by norm_num), Real.log_pow]
    norm_num
  rw [e]
  norm_num
  linarith

/-- `C89_refused`: 1500 bar. -/
example : mTsInv fullEnv wet constBack (.scalar 5) (some (.scalar 1500)) = .error .param :=
  C89_refused fullEnv_uses defaultUnits (by norm_num [wet, sample]) (by norm_num [wet, sample]) (Or.inl (by norm_num)) 5

/-- `C89_pressure_defect`: one atmosphere. -/
example : mTsInv (unitEnv "K" "Pa" "kg") demo constBack (.scalar 5) (some (.scalar 101325)) = .error .param :=
  C89_pressure_defect pa_uses rfl rfl rfl rfl (by norm_num [demo]) (by norm_num [demo]) (by norm_num) 5

/-- `C89_celsius_defect`: an entropy of zero at the triple pressure, reported as a mixture at -273.14 °C. -/
example : ∃ t x ts, mTsInv (unitEnv "C" "bar" "kg") wet constBack (.scalar 0) (some (.scalar wetP)) = .ok ([t], [x]) ∧
    0 ≤ x ∧ mTs (unitEnv "C" "bar" "kg") wet (some (.scalar wetP)) = .ok [some ts] ∧ t = ts - 273.15 := by
  have hl := wet_log
  have hmw : wet.mw ≠ 0 := by norm_num [wet, sample]
  have hR : wet.R ≠ 0 := by norm_num [wet, sample]
  have hfac := sFactor_one celsius_uses (W := wet) (Or.inr rfl) rfl rfl hmw
  have hts : mTs (unitEnv "C" "bar" "kg") wet (some (.scalar wetP)) = .ok [some 0.01] := by
    rw [mTs_eq celsius_uses, if_neg]
    · simp only [Val.elems, List.map_cons, List.map_nil, bar_bar (S := celsiusSys) rfl, wetP_Ts, Option.map_some]
      show Except.ok [some (fromKelvin "C" 273.16)] = _
      norm_num [fromKelvin]
    · rintro ⟨x, hx, h⟩
      rw [List.mem_singleton.mp hx, bar_bar (S := celsiusSys) rfl] at h
      rcases h with h | h
      · exact absurd h (not_lt.mpr wetP_pos.le)
      · have : (220.64 : ℝ) < wetP := h
        linarith [wetP_le]
  have ho : ∃ t x, mTsInv (unitEnv "C" "bar" "kg") wet constBack (.scalar 0) (some (.scalar wetP)) = .ok ([t], [x]) ∧
      0 ≤ x := by
    rw [mTs_one celsius_uses hfac, bar_bar (S := celsiusSys) rfl]
    unfold tsElement tsLow
    rw [if_pos (by linarith [wetP_le]), hts, exOk]
    dsimp only
    rw [sSat1 wet_good hR (by norm_num) wetP_pos.ne' (sample_r1 _ _ _ _)
        (sample_h1 _ _ (T := 0.01) (by norm_num) wetP_pos.ne').2, exOk,
      sSat2 wet_good hR (by norm_num) wetP_pos.ne' (sample_r2 _ _ (by norm_num) _)
        (sample_h2 _ _ (T := 0.01) (by norm_num) wetP_pos.ne').2, exOk, if_neg (by norm_num), if_pos (by norm_num; linarith)]
    refine ⟨_, _, rfl, ?_⟩
    apply div_nonneg
    · norm_num
    · norm_num; linarith
  obtain ⟨t, x, ho, hx⟩ := ho
  obtain ⟨ts, h1, h2⟩ := C89_celsius_defect celsius_uses rfl rfl rfl rfl wet_good hmw ho hx
  exact ⟨t, x, ts, ho, hx, h1, h2⟩

end PyroMat.If97.Props
