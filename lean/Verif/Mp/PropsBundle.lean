import Verif.Mp.PropsUnits
import Verif.Mp.PropsGiven

/-!
# C72: the methods that return several properties at once
-/

set_option linter.unusedSimpArgs false

namespace PyroMat.Mp.Props

open PyroMat PyroMat.Units PyroMat.Units.Spec PyroMat.Units.Props PyroMat.Gas PyroMat.Gas.Spec
open PyroMat.Gas.Props PyroMat.Mp PyroMat.Mp.Spec PyroMat.Config.Defaults

/-! ## Lemmas -/

theorem origin_one {B : Sub} {S : Sol} {k : MStd} {i : Nat} {q : Pt} (h : Origin B S k i q) (hI : q.I = false) :
    q.d1 = q.d2 := by
  have hp : ∀ (o : Option Nan) (T T' d : Nan), (pick o (fun x => satPt B T x) (onePt T' d)).I = false →
      (pick o (fun x => satPt B T x) (onePt T' d)).d1 = (pick o (fun x => satPt B T x) (onePt T' d)).d2 := by
    intro o T T' d h
    cases o with
    | none => rfl
    | some x => cases h
  cases h with
  | hp => exact hp _ _ _ _ hI
  | hd => exact hp _ _ _ _ hI
  | hT => exact hp _ _ _ _ hI
  | Tpx =>
    unfold ptTPX at hI ⊢
    split
    · rfl
    · split
      · rfl
      · rename_i h1 h2
        rw [if_neg h1, if_neg h2] at hI; cases hI
  | Td => exact hp _ _ _ _ hI
  | Tx => cases hI
  | pd => exact hp _ _ _ _ hI
  | px => cases hI

section
variable {E : Env} {U : Sys} (hU : Uses E U) {B : Sub} (hmw : B.mw ≠ 0) {S : Sol}
  {varg : List (Val ℝ)} {kw : Kw}
include hU hmw

/-- Outside the dome the two densities are the same. -/
theorem one_density (hn : (kw.map (·.1)).Nodup) {r : MOut} (h : mpArgparse E B S varg kw = .ok r) :
    ∀ q ∈ r.pts, q.I = false → q.d1 = q.d2 := by
  intro q hq hI
  obtain ⟨i, hi⟩ := List.getElem?_of_mem hq
  obtain ⟨_, k, -, -, -, -, -, -, ho⟩ := argparse_origin hU hmw hn h hi
  exact origin_one ho hI

omit hU hmw in
theorem mix'_eq {f : ℝ → ℝ → ℝ} {q : Pt} (h : q.I = false → q.d1 = q.d2) : q.mix' f = q.mix f := by
  unfold Pt.mix' Pt.mix
  cases hI : q.I with
  | true =>
    simp only [if_true]
    cases Pt.at f q.T q.d1 <;> cases Pt.at f q.T q.d2 <;> cases q.x <;> simp [add_comm]
  | false => simp [h hI]

/-- The factor of `state` for entropies. -/
theorem state_entropy :
    scalarOf ((temperature : Conv ℝ).call E.c.str (.scalar (inUnitsKg E.a U B.mw .energy 1)) (some "K") none
      (some (-1)) false) = .ok (inUnitsKg E.a U B.mw .entropy 1) := by
  rw [temp_scale_ip hU]
  simp only [inUnitsKg, perKmol, inUnits]

theorem state_density :
    (scalarOf ((volume : Conv ℝ).call E.c.str (.scalar 1) (some "m3") none (some (-1)) false) >>= fun c =>
      scalarOf (matter E.a E.c.str (.scalar c) B.mw (some "kg") none none false))
      = .ok (inUnitsKg E.a U B.mw .density 1) := by
  rw [scalarOf_call hU (nz_volume hU) (k := "unit_volume") rfl hU.v hU.valid.v (y := 1 ^ 3) rfl, exOk,
    scalarOf_matter_ip hU hmw (kg_scale hU B.mw)]
  have h3 := vs_ne hU
  have h5 := ms_ne hU hmw
  congr 1
  simp only [powS, inUnitsKg, perKmol, inUnits]
  simp
  field_simp

end

/-- What `state` returns for given elements. -/
noncomputable def stateOf (E : Env) (U : Sys) (B : Sub) (l : List Pt) : MState :=
  let out (k : Kind) (f : Pt → Nan) := l.map (fun q => (f q).map (inUnitsKg E.a U B.mw k))
  let mixS := Pt.mix (fun T d => (B.F.s T d).v)
  let mixE := Pt.mix (fun T d => (B.F.e T d).v)
  let mixH := Pt.mix (fun T d => (B.F.h T d).v)
  let f (q : Pt) : Nan := nan2 (fun e Ts => e - Ts) (mixE q) (nan2 (fun T s => T * s) q.T (mixS q))
  { T := out .temperature (·.T)
    p := out .pressure (fun q => Pt.at (fun T d => (B.F.p T d).v) q.T q.d2)
    d := out .density Pt.density
    v := (out .density Pt.density).map (Option.map (fun x => 1 / x))
    x := l.map (·.x)
    e := out .energy mixE
    f := out .energy f
    g := out .energy (fun q => nan2 (fun f h => f + h) (nan2 (fun f e => f - e) (f q) (mixE q)) (mixH q))
    h := out .energy mixH
    s := out .entropy mixS
    cp := l.map (fun q => if q.I then .pinf else
      Cand.ofNan ((Pt.at B.F.cp q.T q.d1).map (inUnitsKg E.a U B.mw .entropy)))
    cv := out .entropy (fun q => if q.I then none else Pt.at B.F.cv q.T q.d1)
    gam := l.map (fun q => if q.I then .pinf else Cand.ofNan
      (nan2 (fun a b => a / b) (Pt.at B.F.cp q.T q.d1) (Pt.at B.F.cv q.T q.d1))) }

theorem inUnits_div {E : Env} {U : Sys} (hU : Uses E U) {B : Sub} (hmw : B.mw ≠ 0) (a b : ℝ) :
    inUnitsKg E.a U B.mw .entropy a / inUnitsKg E.a U B.mw .entropy b = a / b := by
  have h3 := es_ne hU
  have h5 := ms_ne hU hmw
  have h6 := ts_ne hU
  rw [← inUnitsKg_mul E.a U B.mw (by simp) a, ← inUnitsKg_mul E.a U B.mw (by simp) b]
  have : inUnitsKg E.a U B.mw .entropy 1 ≠ 0 := by
    simp only [inUnitsKg, perKmol, inUnits]
    positivity
  rw [mul_div_mul_right _ _ this]

theorem zipWith_map {α β γ δ : Type} (f : α → β → γ) (g : δ → α) (h : δ → β) (l : List δ) :
    List.zipWith f (l.map g) (l.map h) = l.map (fun x => f (g x) (h x)) := by
  induction l with
  | nil => rfl
  | cons a l ih => simp [ih]

theorem zipWith_self {β γ δ : Type} (f : δ → β → γ) (h : δ → β) (l : List δ) :
    List.zipWith f l (l.map h) = l.map (fun x => f x (h x)) := by
  induction l with
  | nil => rfl
  | cons a l ih => simp [ih]

theorem mpState_eq {E : Env} {U : Sys} (hU : Uses E U) {B : Sub} (hmw : B.mw ≠ 0) {S : Sol}
    {varg : List (Val ℝ)} {kw : Kw} (hn : (kw.map (·.1)).Nodup) {r : MOut}
    (h : mpArgparse E B S varg kw = .ok r) : mpState E B S varg kw = .ok (stateOf E U B r.pts) := by
  have hd := one_density hU hmw hn h
  have hm : ∀ f : ℝ → ℝ → ℝ, r.pts.map (Pt.mix' f) = r.pts.map (Pt.mix f) := fun f =>
    List.map_congr_left fun q hq => mix'_eq (hd q hq)
  have hI : ∀ (f : ℝ → ℝ → ℝ), ∀ q ∈ r.pts, q.I = false → Pt.at f q.T q.d2 = Pt.at f q.T q.d1 := by
    intro f q hq hi; rw [hd q hq hi]
  unfold mpState
  rw [h, exOk]
  dsimp only
  rw [factor_energy hU hmw, exOk, state_entropy hU hmw, exOk, convOut_pressure hU B.mw, exOk,
    convOut_temperature hU B.mw, exOk, ← bind_assoc, state_density hU hmw, exOk]
  simp only [hm, scaleBy_kg _ _ _ (show Kind.energy ≠ .temperature by simp),
    scaleBy_kg _ _ _ (show Kind.entropy ≠ .temperature by simp),
    scaleBy_kg _ _ _ (show Kind.density ≠ .temperature by simp), zipWith_map, List.map_map, Function.comp_def,
    zipWith_self]
  unfold stateOf
  simp only [List.map_map, Function.comp_def]
  congr 2
  · apply List.map_congr_left
    intro q hq
    cases hi : q.I with
    | true => rfl
    | false => simp [hI _ q hq hi]
  · apply List.map_congr_left
    intro q hq
    cases hi : q.I with
    | true => rfl
    | false => simp [hI _ q hq hi]
  · apply List.map_congr_left
    intro q hq
    cases hi : q.I with
    | true => rfl
    | false =>
      simp only [hi, Bool.false_eq_true, if_false, hI _ q hq hi]
      cases Pt.at B.F.cp q.T q.d1 <;> cases Pt.at B.F.cv q.T q.d1 <;>
        simp [nan2, Cand.ofNan, inUnits_div hU hmw]

/-- Gibbs energy of the formulas. -/
theorem g_eq (F : Fluid) (T d : ℝ) : (F.g T d).v = (F.h T d).v - T * (F.s T d).v := by
  simp only [Fluid.g, Fluid.h, Fluid.s]; ring

/-- Helmholtz energy of the formulas. -/
theorem f_eq (F : Fluid) (hs : F.To = F.Tr) {T : ℝ} (hT : T ≠ 0) (d : ℝ) :
    (F.f T d).v = (F.e T d).v - T * (F.s T d).v := by
  simp only [Fluid.f, Fluid.e, Fluid.s, hs]; field_simp; ring

theorem mix_g (B : Sub) (q : Pt) :
    nan2 (fun f h => f + h) (nan2 (fun f e => f - e)
      (nan2 (fun e Ts => e - Ts) (q.mix (fun T d => (B.F.e T d).v))
        (nan2 (fun T s => T * s) q.T (q.mix (fun T d => (B.F.s T d).v)))) (q.mix (fun T d => (B.F.e T d).v)))
      (q.mix (fun T d => (B.F.h T d).v)) = q.mix (fun T d => (B.F.g T d).v) := by
  obtain ⟨T, d1, d2, x, I⟩ := q
  cases I <;> cases T <;> cases d1 <;> cases d2 <;> cases x <;> simp [Pt.mix, Pt.at, nan2, g_eq] <;> ring

theorem mix_f (B : Sub) (hs : B.F.To = B.F.Tr) (q : Pt) (hT : ∀ T, q.T = some T → T ≠ 0) :
    nan2 (fun e Ts => e - Ts) (q.mix (fun T d => (B.F.e T d).v))
        (nan2 (fun T s => T * s) q.T (q.mix (fun T d => (B.F.s T d).v))) = q.mix (fun T d => (B.F.f T d).v) := by
  obtain ⟨T, d1, d2, x, I⟩ := q
  cases T with
  | none => cases I <;> simp [Pt.mix, Pt.at, nan2]
  | some T =>
    have h0 := hT T rfl
    cases I <;> cases d1 <;> cases d2 <;> cases x <;> simp [Pt.mix, Pt.at, nan2, f_eq B.F hs h0] <;> ring

/-! ## The theorems -/

/-- C72, `state`.  `state(...)` raises what the methods raise for the same arguments, or returns under
`T`, `p`, `d`, `v`, `x`, `e`, `g`, `h`, `s` and `cp` exactly the arrays that the methods of these
names return, and so under `f` if the two parts of the Helmholtz energy have the same temperature scale
and no returned temperature is absolute zero. -/
theorem C72_state (E : Env) (U : Sys) (hU : Uses E U) (B : Sub) (hmw : B.mw ≠ 0) (S : Sol)
    (varg : List (Val ℝ)) (kw : Kw) (hn : (kw.map (·.1)).Nodup) :
    (∃ e, mpState E B S varg kw = .error e ∧ ∀ m, mpMethod m E B S varg kw = .error e) ∨
    ∃ st, mpState E B S varg kw = .ok st ∧
      mpMethod .T E B S varg kw = .ok st.T ∧ mpMethod .p E B S varg kw = .ok st.p ∧
      mpMethod .d E B S varg kw = .ok st.d ∧ mpMethod .v E B S varg kw = .ok st.v ∧
      mpMethod .x E B S varg kw = .ok st.x ∧ mpMethod .e E B S varg kw = .ok st.e ∧
      mpMethod .g E B S varg kw = .ok st.g ∧ mpMethod .h E B S varg kw = .ok st.h ∧
      mpMethod .s E B S varg kw = .ok st.s ∧ mpCp E B S varg kw = .ok st.cp ∧
      (B.F.To = B.F.Tr → (∀ t, some t ∈ st.T → toKelvin U.T.name t ≠ 0) →
        mpMethod .f E B S varg kw = .ok st.f) := by
  cases h : mpArgparse E B S varg kw with
  | error e =>
    refine .inl ⟨e, ?_, fun m => method_error hU hmw S h m⟩
    unfold mpState; rw [h, exErr]
  | ok r =>
    refine .inr ⟨_, mpState_eq hU hmw hn h, ?_, ?_, ?_, ?_, ?_, ?_, ?_, ?_, ?_, ?_, fun hs hT => ?_⟩
    · rw [method_pts hU hmw h (by simp)]; rfl
    · rw [method_pts hU hmw h (by simp)]; rfl
    · rw [method_pts hU hmw h (by simp)]; rfl
    · rw [method_pts hU hmw h (by simp)]; simp only [stateOf, List.map_map, Function.comp_def]; rfl
    · rw [method_pts hU hmw h (by simp)]; rfl
    · rw [method_pts hU hmw h (by simp)]; rfl
    · rw [method_pts hU hmw h (by simp)]; simp only [stateOf, mix_g]; rfl
    · rw [method_pts hU hmw h (by simp)]; rfl
    · rw [method_pts hU hmw h (by simp)]; rfl
    · rw [mpCp_eq hU hmw, h, exOk]
      simp only [outsKg, stateOf, List.map_map, Function.comp_def, zipWith_self]
    · rw [method_pts hU hmw h (by simp)]
      simp only [stateOf]
      congr 1
      apply List.map_congr_left
      intro q hq
      rw [mix_f B hs q]
      · rfl
      · intro T hqT
        have := hT (inUnitsKg E.a U B.mw .temperature T) (by
          simp only [stateOf, List.mem_map]
          exact ⟨q, hq, by rw [hqT]; rfl⟩)
        have e : toKelvin U.T.name (inUnitsKg E.a U B.mw .temperature T) = T := internalKg_inUnitsKg hU hmw .temperature T
        rwa [e] at this

/-- C72, heat capacities.  At single-phase elements (quality below 0) `state` gives under `cv` and
`gam` what the methods `cv` and `gam` give.  In the two-phase region `state` gives infinity for `gam`,
and `gam()` an infinity or NaN. -/
theorem C72_state_capacities_partial (E : Env) (U : Sys) (hU : Uses E U) (B : Sub) (Tmin : ℝ)
    (hB : Dome B Tmin) (S : Sol) (hS : Bounded S B Tmin) (hlo : Tmin ≤ B.Tlo)
    (varg : List (Val ℝ)) (kw : Kw) (hn : (kw.map (·.1)).Nodup) (st : MState)
    (h : mpState E B S varg kw = .ok st) :
    (∃ gs, mpGam E B S varg kw = .ok gs ∧ gs.length = st.gam.length ∧
      ∀ i x, MpGives E B S varg kw .x i x →
        (x < 0 → gs[i]? = st.gam[i]?) ∧
        (0 ≤ x → st.gam[i]? = some .pinf ∧ ∃ c, gs[i]? = some c ∧ (c = .pinf ∨ c = .ninf ∨ c = .nan))) ∧
    ∀ cs, mpCv E B S varg kw = .ok cs → cs.length = st.cv.length ∧
      ∀ i x, MpGives E B S varg kw .x i x → x < 0 → cs[i]? = st.cv[i]? := by
  have hmw := hB.mw.ne'
  have inf : ∀ c, infOver c = .pinf ∨ infOver c = .ninf ∨ infOver c = .nan := by
    intro c
    cases c with
    | none => exact .inr (.inr rfl)
    | some c => unfold infOver; dsimp only; split <;> simp
  cases ha : mpArgparse E B S varg kw with
  | error e => unfold mpState at h; rw [ha, exErr] at h; cases h
  | ok r =>
    rw [mpState_eq hU hmw hn ha] at h
    cases h
    have good := argparse_good hB hS hU hlo ha
    have sign : ∀ i x, MpGives E B S varg kw .x i x → ∃ q, r.pts[i]? = some q ∧ (x < 0 → q.I = false) ∧
        (0 ≤ x → q.I = true) := by
      intro i x hx
      obtain ⟨r', q, hr, hq⟩ := gives_pt hU hmw (by simp) hx
      rw [ha] at hr; cases hr
      have hx' := (gives_iff hU hmw ha (by simp) hq x).mp hx
      simp only [ptValue] at hx'
      have hg := good q (List.mem_of_getElem? hq)
      refine ⟨q, hq, fun h0 => ?_, fun h0 => ?_⟩
      · cases hI : q.I with
        | false => rfl
        | true => have := ((hg.sat hI).2.2.1 x hx').1; linarith
      · cases hI : q.I with
        | true => rfl
        | false => have := ((hg.one hI).2 x hx').2; linarith
    refine ⟨⟨r.pts.map (fun q => if q.I then infOver (Pt.at B.F.cv q.T q.d1)
      else Cand.ofNan (nan2 (fun a b => a / b) (Pt.at B.F.cp q.T q.d1) (Pt.at B.F.cv q.T q.d1))), ?_, ?_, ?_⟩, ?_⟩
    · unfold mpGam; rw [ha, exOk]
    · simp [stateOf]
    · intro i x hx
      obtain ⟨q, hq, h1, h2⟩ := sign i x hx
      refine ⟨fun h0 => ?_, fun h0 => ⟨?_, _, ?_, inf (Pt.at B.F.cv q.T q.d1)⟩⟩
      · simp [stateOf, hq, h1 h0]
      · simp [stateOf, hq, h2 h0]
      · simp [hq, h2 h0]
    · intro cs hcs
      rw [mpCv_eq hU hmw, ha, exOk] at hcs
      split at hcs
      · cases hcs
      cases hcs
      refine ⟨by simp [stateOf, outsKg], ?_⟩
      intro i x hx h0
      obtain ⟨q, hq, h1, -⟩ := sign i x hx
      simp [stateOf, outsKg, hq, Pt.cv, h1 h0]

/-- **C72 disagreement.** Under the dome `state` gives NaN for `cv` although the method `cv` returns a
number for the same arguments. -/
theorem C72_state_cv_defect (E : Env) (U : Sys) (hU : Uses E U) (B : Sub) (Tmin : ℝ)
    (hB : Dome B Tmin) (S : Sol) (hS : Bounded S B Tmin) (hlo : Tmin ≤ B.Tlo)
    (varg : List (Val ℝ)) (kw : Kw) (hn : (kw.map (·.1)).Nodup) (i : Nat) (x c : ℝ)
    (hx : MpGives E B S varg kw .x i x) (h0 : 0 ≤ x) (hc : MpGives E B S varg kw .cv i c) :
    ∃ st cs, mpState E B S varg kw = .ok st ∧ st.cv[i]? = some none ∧
      mpCv E B S varg kw = .ok cs ∧ cs[i]? = some (some c) := by
  obtain ⟨cs, hcs, hci⟩ := hc
  have hmw := hB.mw.ne'
  obtain ⟨r, q, ha, hq⟩ := gives_pt hU hmw (by simp) hx
  have hx' := (gives_iff hU hmw ha (by simp) hq x).mp hx
  simp only [ptValue] at hx'
  have hg := argparse_good hB hS hU hlo ha q (List.mem_of_getElem? hq)
  have hI : q.I = true := by
    cases hI : q.I with
    | true => rfl
    | false => have := ((hg.one hI).2 x hx').2; linarith
  exact ⟨_, cs, mpState_eq hU hmw hn ha, by simp [stateOf, hq, hI], hcs, hci⟩

/-! ## `hsd` -/

theorem hsd_energy {E : Env} {U : Sys} (hU : Uses E U) {B : Sub} (hmw : B.mw ≠ 0) :
    (scalarOf ((energy : Conv ℝ).call E.c.str (.scalar 1) (some "J") none none false) >>= fun c =>
      scalarOf (matter E.a E.c.str (.scalar c) B.mw (some "kg") none none false))
      = .ok (1 / size energy U.e * (1 / B.mw / msize E.a B.mw U.m)) := by
  rw [scalarOf_call hU (nz_energy hU) (k := "unit_energy") rfl hU.e hU.valid.e (y := 1) rfl, exOk,
    scalarOf_matter_ip hU hmw (kg_scale hU B.mw)]
  simp [powS]

theorem hsd_entropy {E : Env} {U : Sys} (hU : Uses E U) (c : ℝ) :
    scalarOf ((temperature : Conv ℝ).call E.c.str (.scalar c) (some "K") none none false)
      = .ok (c * (1.8 / size temperature U.T.name)) := by
  rw [scalarOf_call hU (nz_temperature hU) (k := "unit_temperature") rfl hU.T (tcontains hU)
    (y := 1.8) rfl]
  simp [powS]

/-- The result of `hsd`: its factors are not those of `h` and `s`. -/
theorem mpHsd_eq {E : Env} {U : Sys} (hU : Uses E U) {B : Sub} (hmw : B.mw ≠ 0) {S : Sol}
    {varg : List (Val ℝ)} {kw : Kw} {r : MOut} (h : mpArgparse E B S varg kw = .ok r) :
    mpHsd E B S varg kw = .ok
      (r.pts.map (fun q => (q.mix (fun T d => (B.F.h T d).v)).map
        (fun y => inUnitsKg E.a U B.mw .energy y * (1 / (B.mw * msize E.a B.mw U.m)) ^ 2)),
       r.pts.map (fun q => (q.mix (fun T d => (B.F.s T d).v)).map
        (fun y => inUnitsKg E.a U B.mw .entropy y * (1 / (B.mw * msize E.a B.mw U.m)) ^ 2
          * (1.8 / size temperature U.T.name) ^ 2)),
       r.pts.map (fun q => q.density.map (inUnitsKg E.a U B.mw .density))) := by
  unfold mpHsd
  rw [h, exOk, ← bind_assoc, hsd_energy hU hmw, exOk]
  dsimp only
  rw [hsd_entropy hU, exOk, convOut_density hU hmw, exOk]
  have h3 := es_ne hU
  have h5 := ms_ne hU hmw
  have h6 := ts_ne hU
  simp only [scaleBy, List.map_map, Function.comp_def, Option.map_map]
  congr 4
  · funext q
    congr 1
    funext y
    simp only [inUnitsKg, perKmol, inUnits]
    field_simp
  · congr 1
    funext q
    congr 1
    funext y
    simp only [inUnitsKg, perKmol, inUnits]
    field_simp

/-- C72, `hsd`, with matter in kg and temperatures in K or C: `hsd(...)` raises what the methods raise,
or returns the arrays that `h`, `s` and `d` return.  Missing for the full property: other units of
matter and temperature, for which it is false. -/
theorem C72_hsd_partial (E : Env) (U : Sys) (hU : Uses E U) (hm : U.m = "kg") (hT : U.T = .K ∨ U.T = .C)
    (B : Sub) (hmw : B.mw ≠ 0) (S : Sol) (varg : List (Val ℝ)) (kw : Kw) :
    (∃ e, mpHsd E B S varg kw = .error e ∧ ∀ m, mpMethod m E B S varg kw = .error e) ∨
    ∃ h s d, mpHsd E B S varg kw = .ok (h, s, d) ∧ mpMethod .h E B S varg kw = .ok h ∧
      mpMethod .s E B S varg kw = .ok s ∧ mpMethod .d E B S varg kw = .ok d := by
  cases h : mpArgparse E B S varg kw with
  | error e =>
    refine .inl ⟨e, ?_, fun m => method_error hU hmw S h m⟩
    unfold mpHsd; rw [h, exErr]
  | ok r =>
    refine .inr ⟨_, _, _, mpHsd_eq hU hmw h, ?_, ?_, ?_⟩
    · rw [method_pts hU hmw h (by simp)]
      have : msize E.a B.mw U.m = 1 / B.mw := by rw [hm, msize, kg_scale hU]; rfl
      rw [this]
      congr 3
      funext q
      simp only [ptValue]
      congr 1
      funext y
      field_simp
    · rw [method_pts hU hmw h (by simp)]
      have : msize E.a B.mw U.m = 1 / B.mw := by rw [hm, msize, kg_scale hU]; rfl
      have ht : size (temperature : Conv ℝ) U.T.name = 1.8 := by rcases hT with h | h <;> rw [h] <;> rfl
      rw [this, ht]
      congr 3
      funext q
      simp only [ptValue]
      congr 1
      funext y
      field_simp
    · rw [method_pts hU hmw h (by simp)]; rfl

/-- **C72 disagreement.** `hsd` converts enthalpy and entropy per kg with the factor for an amount of
matter instead of its inverse.  With matter in kmol the enthalpy it returns is that of `h` divided by
the square of the molecular weight. -/
theorem C72_hsd_defect (E : Env) (U : Sys) (hU : Uses E U) (hm : U.m = "kmol") (B : Sub) (hmw : 1 < B.mw)
    (S : Sol) (varg : List (Val ℝ)) (kw : Kw) (i : Nat) (y : ℝ) (hy : y ≠ 0)
    (h : MpGives E B S varg kw .h i y) :
    ∃ hs ss ds, mpHsd E B S varg kw = .ok (hs, ss, ds) ∧ hs[i]? = some (some (y / B.mw ^ 2)) ∧
      y / B.mw ^ 2 ≠ y := by
  have hmw' : B.mw ≠ 0 := by linarith
  obtain ⟨r, q, ha, hq⟩ := gives_pt hU hmw' (by simp) h
  have h' := (gives_iff hU hmw' ha (by simp) hq y).mp h
  simp only [ptValue, Option.map_eq_some_iff] at h'
  obtain ⟨z, hz, hzy⟩ := h'
  refine ⟨_, _, _, mpHsd_eq hU hmw' ha, ?_, ?_⟩
  · have hk : msize E.a B.mw U.m = 1 := by rw [hm]; rfl
    simp only [List.getElem?_map, hq, Option.map_some, hz, hzy, hk]
    congr 2
    field_simp
  · intro e
    have h2 : 1 < B.mw ^ 2 := by nlinarith
    rw [div_eq_iff (by positivity)] at e
    have : y * (B.mw ^ 2 - 1) = 0 := by linarith
    rcases mul_eq_zero.mp this with h | h
    · exact hy h
    · linarith

/-! ## The hypotheses are met -/

/-- At 500 K and quality 0.25 `state` and `hsd` succeed, `cv` is a number, the temperature is not 0 and
the temperature scales agree. -/
example : (∃ st, mpState fullEnv demoSub demoSol [] [("T", .scalar 500), ("x", .scalar 0.25)] = .ok st ∧
      st.x = [some 0.25] ∧ st.T = [some 500]) ∧
    (∃ h, mpHsd fullEnv demoSub demoSol [] [("T", .scalar 500), ("x", .scalar 0.25)] = .ok h) ∧
    (∃ c, MpGives fullEnv demoSub demoSol [] [("T", .scalar 500), ("x", .scalar 0.25)] .cv 0 c) ∧
    demoSub.F.To = demoSub.F.Tr ∧ exampleSys.m = "kg" ∧ exampleSys.T = .K := by
  have hmw : demoSub.mw ≠ 0 := demo_dome.mw.ne'
  have hK : ∀ x : ℝ, toKelvin exampleSys.T.name x = x := fun x => by
    show toKelvin Scale.K.name x = x; exact toK_K x
  have hK' : ∀ x : ℝ, fromKelvin exampleSys.T.name x = x := fun x => by
    show fromKelvin Scale.K.name x = x; exact frK_K x
  obtain ⟨o1, o2, hr⟩ := demo_argparse fullEnv_uses (hK 500)
  refine ⟨⟨_, mpState_eq fullEnv_uses hmw (by simp) hr, rfl, ?_⟩, ⟨_, mpHsd_eq fullEnv_uses hmw hr⟩, ?_, rfl, rfl, rfl⟩
  · show [some (fromKelvin exampleSys.T.name 500)] = [some 500]
    rw [hK']
  · refine ⟨inUnitsKg fullEnv.a exampleSys demoSub.mw .entropy
        (satCv demoSub 500 (demoSub.dsl 500) (demoSub.dsv 500) 0.25),
      [some (inUnitsKg fullEnv.a exampleSys demoSub.mw .entropy
        (satCv demoSub 500 (demoSub.dsl 500) (demoSub.dsv 500) 0.25))], ?_, rfl⟩
    · show mpCv _ _ _ _ _ = _
      rw [mpCv_eq fullEnv_uses hmw, hr, exOk]
      rfl

/-- In C and kmol the enthalpy at 226.85 C (500 K) and quality 0.25 is not 0. -/
example : otherSys.m = "kmol" ∧ 1 < demoSub.mw ∧
    ∃ y, y ≠ 0 ∧ MpGives otherEnv demoSub demoSol [] [("T", .scalar 226.85), ("x", .scalar 0.25)] .h 0 y := by
  have hmw : demoSub.mw ≠ 0 := demo_dome.mw.ne'
  have hC : toKelvin otherSys.T.name (226.85 : ℝ) = 500 := by
    show toKelvin Scale.C.name (226.85 : ℝ) = 500
    rw [show Scale.C.name = "C" from rfl, toK_C]; norm_num
  obtain ⟨o1, o2, hr⟩ := demo_argparse otherEnv_uses hC
  refine ⟨rfl, by norm_num [demoSub], inUnitsKg otherEnv.a otherSys demoSub.mw .energy (461 * 500), ?_, ?_⟩
  · have h1 := es_ne otherEnv_uses
    have h2 := ms_ne otherEnv_uses hmw
    simp only [inUnitsKg, perKmol, inUnits]
    positivity
  · refine (gives_iff otherEnv_uses hmw hr (by simp) rfl _).mpr ?_
    have : Pt.mix (fun T d => (demoSub.F.h T d).v) (satPt demoSub (some 500) (some 0.25)) = some (461 * 500) := by
      simp [Pt.mix, satPt, onCurve, Pt.at, nan2, Fluid.h, Fluid.ao, Fluid.ar, demoSub]
      norm_num
    simp only [ptValue, this, Option.map_some]

end PyroMat.Mp.Props
