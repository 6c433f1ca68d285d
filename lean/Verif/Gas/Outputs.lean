import Verif.Gas.PropsArgs

/-!
# The property methods in closed form (lemmas)

Every method parses its arguments, evaluates in internal units and converts the result: here the
conversions are put in closed form.
-/

set_option linter.unusedSimpArgs false

namespace PyroMat.Gas.Props

open PyroMat PyroMat.Units PyroMat.Units.Spec PyroMat.Units.Props PyroMat.Gas PyroMat.Gas.Spec
open PyroMat.Config.Defaults

theorem powS_neg_one (x : ℝ) : powS x (some (-1)) = x⁻¹ := by simp [powS]

theorem mapM_pure_map {α β : Type} (f : α → β) (l : List α) :
    l.mapM (fun x => (.ok (f x) : Except Err β)) = .ok (l.map f) := by
  induction l with
  | nil => rfl
  | cons a l ih => rw [List.mapM_cons, exOk, ih]; rfl

section
variable {E : Env} {S : Sys} (hU : Uses E S)
include hU

theorem scalarOf_matter {mw : ℝ} (hmw : mw ≠ 0) {u : String} {y : ℝ}
    (hy : matterScale E.a mw u = some y) (x : ℝ) (e : Option ℤ) :
    scalarOf (matter E.a E.c.str (.scalar x) mw (some u) none e false)
      = .ok (x * powS (y / msize E.a mw S.m) e) := by
  rw [(matter_none hU.m _ e false u).2]
  obtain ⟨r, h1, h2⟩ := matter_ret E.a hU.pos mw hmw u S.m _ _ hy (msize_lookup hU mw) E.c.str (.scalar x) e false
  rw [h1]
  simp [scalarOf, exOk, h2, Units.Val.map]

theorem scalarOf_call {c : Conv ℝ} (hc : NonZero c) {k : String} (hk : c.configDefault = some k)
    {u w : String} (hu : E.c.str k = .ok u) (hcu : c.contains u = true) {y : ℝ}
    (hy : c.table.lookup w = some y) (x : ℝ) (e : Option ℤ) (ip : Bool) :
    scalarOf (c.call E.c.str (.scalar x) (some w) none e ip) = .ok (x * powS (y / size c u) e) := by
  rw [(call_none hk hu _ e ip w).2]
  obtain ⟨r, h1, h2⟩ := call_ret hc hy (size_lookup hU hcu) E.c.str (.scalar x) e ip
  rw [h1]
  simp [scalarOf, exOk, h2, Units.Val.map]

theorem scalarOf_tscale (x : ℝ) (ip : Bool) :
    scalarOf (temperatureScale E.c.str (.scalar x) (some "K") none ip)
      = .ok (fromKelvin S.T.name x) := by
  rw [(tscale_none hU.T _ ip "K").2]
  obtain ⟨r, h1, h2⟩ := tscale_ret (K := ℝ) .K S.T E.c.str (.scalar x) ip
  rw [show ("K" : String) = Scale.name .K from rfl, h1]
  simp [scalarOf, exOk, h2, Units.Val.map]
  rfl

theorem scaleD_eq {mw : ℝ} (hmw : mw ≠ 0) : scaleD E mw = .ok (inUnits E.a S mw .density 1) := by
  have h2 := vs_ne hU
  have h5 := ms_ne hU hmw
  unfold scaleD
  rw [scalarOf_matter hU hmw (y := 1) rfl, exOk,
    scalarOf_call hU (nz_volume hU) (k := "unit_volume") rfl hU.v hU.valid.v (y := 1 ^ 3) rfl]
  simp [powS, inUnits]

theorem scaleH_eq {mw : ℝ} (hmw : mw ≠ 0) : scaleH E mw "kJ" "kmol" = .ok (inUnits E.a S mw .energy 1) := by
  have h2 := es_ne hU
  have h5 := ms_ne hU hmw
  unfold scaleH
  rw [scalarOf_call hU (nz_energy hU) (k := "unit_energy") rfl hU.e hU.valid.e (y := 1000) rfl, exOk,
    scalarOf_matter hU hmw (y := 1) rfl]
  simp [powS, inUnits]

theorem scaleH_J_eq {mw : ℝ} (hmw : mw ≠ 0) : scaleH E mw "J" "mol" = .ok (inUnits E.a S mw .energy 1) := by
  have h2 := es_ne hU
  have h5 := ms_ne hU hmw
  unfold scaleH
  rw [scalarOf_call hU (nz_energy hU) (k := "unit_energy") rfl hU.e hU.valid.e (y := 1) rfl, exOk,
    scalarOf_matter hU hmw (y := 1e-3) rfl]
  simp only [powS_neg_one, inUnits, one_mul, inv_div, show ∀ x : ℝ, powS x none = x from fun _ => rfl]
  congr 1
  field_simp
  ring

theorem temp_scale (x : ℝ) :
    scalarOf ((temperature : Conv ℝ).call E.c.str (.scalar x) (some "K") none (some (-1)) false)
      = .ok (x * (size temperature S.T.name / 1.8)) := by
  rw [scalarOf_call hU (nz_temperature hU) (k := "unit_temperature") rfl hU.T (tcontains hU)
    (y := 1.8) rfl]
  simp [powS]

theorem scaleS_eq {mw : ℝ} (hmw : mw ≠ 0) : scaleS E mw = .ok (inUnits E.a S mw .entropy 1) := by
  have h2 := es_ne hU
  have h5 := ms_ne hU hmw
  unfold scaleS
  rw [scalarOf_call hU (nz_energy hU) (k := "unit_energy") rfl hU.e hU.valid.e (y := 1000) rfl, exOk,
    temp_scale hU, exOk, scalarOf_matter hU hmw (y := 1) rfl]
  simp only [powS_neg_one, inUnits, one_mul, inv_div, show ∀ x : ℝ, powS x none = x from fun _ => rfl]
  congr 1
  ring

theorem mR_eq {G : Gas} (hmw : G.mw ≠ 0) : mR E G = .ok (inUnits E.a S G.mw .entropy Ru) := by
  have h2 := es_ne hU
  have h5 := ms_ne hU hmw
  unfold mR
  rw [scalarOf_call hU (nz_energy hU) (k := "unit_energy") rfl hU.e hU.valid.e (y := 1) rfl, exOk,
    temp_scale hU, exOk, scalarOf_matter hU hmw (y := 1e-3) rfl]
  simp only [powS_neg_one, inUnits, one_mul, inv_div, show ∀ x : ℝ, powS x none = x from fun _ => rfl]
  congr 1
  field_simp
  ring

theorem mTlim_eq {G : Gas} : mTlim E G = .ok (fromKelvin S.T.name G.Tlo, fromKelvin S.T.name G.Thi) := by
  unfold mTlim
  rw [scalarOf_tscale hU, exOk, scalarOf_tscale hU, exOk]

omit hU in
theorem inUnits_mul (a : SetupArgs ℝ) (S : Sys) (mw : ℝ) {k : Kind} (hk : k ≠ .temperature) (x : ℝ) :
    x * inUnits a S mw k 1 = inUnits a S mw k x := by
  cases k <;> simp only [inUnits] <;> first | (exact absurd rfl hk) | ring

omit hU in
theorem scaleBy_eq (a : SetupArgs ℝ) (S : Sys) (mw : ℝ) {k : Kind} (hk : k ≠ .temperature)
    (xs : List Nan) :
    scaleBy (inUnits a S mw k 1) xs = xs.map (Option.map (inUnits a S mw k)) := by
  unfold scaleBy
  congr 2
  funext x
  exact inUnits_mul a S mw hk x

theorem convNan_T (ip : Bool) (mw : ℝ) (xs : List Nan) :
    convNan (fun v => temperatureScale E.c.str v (some "K") none ip) xs
      = .ok (xs.map (Option.map (inUnits E.a S mw .temperature))) := by
  unfold convNan
  rw [mapM_congr (g := fun x => .ok (x.map (inUnits E.a S mw .temperature))), mapM_pure_map]
  intro x _
  cases x with
  | none => rfl
  | some x => simp [scalarOf_tscale hU, Except.map, inUnits]

theorem convNan_p (ip : Bool) (mw : ℝ) (xs : List Nan) :
    convNan (fun v => (Units.pressure E.a).call E.c.str v (some "Pa") none none ip) xs
      = .ok (xs.map (Option.map (inUnits E.a S mw .pressure))) := by
  unfold convNan
  rw [mapM_congr (g := fun x => .ok (x.map (inUnits E.a S mw .pressure))), mapM_pure_map]
  intro x _
  cases x with
  | none => rfl
  | some x =>
    simp only [scalarOf_call hU (nz_pressure hU) (k := "unit_pressure") rfl hU.p hU.valid.p (w := "Pa") (y := 1) rfl]
    simp [Except.map, inUnits, powS, div_eq_mul_inv]

end

/-- The conversion of a whole output array. -/
noncomputable def outs (a : SetupArgs ℝ) (S : Sys) (mw : ℝ) (k : Kind) (xs : List Nan) : List Nan :=
  xs.map (Option.map (inUnits a S mw k))

section methods
variable {E : Env} {S : Sys} (hU : Uses E S) {G : Gas} (hmw : G.mw ≠ 0)
  (varg : List (Val ℝ)) (kw : Kw)
include hU hmw

theorem mD_eq : mD E G varg kw = argparse E G varg kw >>= fun st => st.density >>= fun d =>
    .ok (outs E.a S G.mw .density d) := by
  unfold mD
  simp only [scaleD_eq hU hmw, exOk, scaleBy_eq E.a S G.mw (show Kind.density ≠ .temperature by simp)]
  rfl

omit hmw in
theorem mT_eq : mT E G varg kw = argparse E G varg (mTdefault E varg kw) >>= fun st =>
    .ok (outs E.a S G.mw .temperature st.T) := by
  unfold mT
  simp only [convNan_T hU true G.mw]
  rfl

omit hmw in
theorem mP_eq : mP E G varg kw = argparse E G varg kw >>= fun st => st.pressure >>= fun p =>
    .ok (outs E.a S G.mw .pressure p) := by
  unfold mP
  simp only [convNan_p hU true G.mw]
  rfl

theorem mCp_eq : mCp E G varg kw = argparse E G varg kw >>= fun st =>
    .ok (outs E.a S G.mw .entropy (st.T.map G.cpI)) := by
  unfold mCp
  simp only [scaleS_eq hU hmw, exOk, scaleBy_eq E.a S G.mw (show Kind.entropy ≠ .temperature by simp)]
  rfl

theorem mCv_eq : mCv E G varg kw = argparse E G varg kw >>= fun st =>
    .ok (outs E.a S G.mw .entropy (st.T.map G.cvI)) := by
  unfold mCv
  simp only [scaleS_eq hU hmw, exOk, scaleBy_eq E.a S G.mw (show Kind.entropy ≠ .temperature by simp)]
  rfl

theorem mH_eq : mH E G varg kw = argparse E G varg kw >>= fun st =>
    .ok (outs E.a S G.mw .energy (st.T.map G.hI)) := by
  unfold mH
  simp only [scaleH_eq hU hmw, exOk, scaleBy_eq E.a S G.mw (show Kind.energy ≠ .temperature by simp)]
  rfl

theorem mE_eq : mE E G varg kw = argparse E G varg kw >>= fun st =>
    .ok (outs E.a S G.mw .energy (st.T.map G.eI)) := by
  unfold mE
  simp only [scaleH_J_eq hU hmw, exOk, scaleBy_eq E.a S G.mw (show Kind.energy ≠ .temperature by simp)]
  rfl

theorem mG_eq : mG E G varg kw = argparse E G varg kw >>= fun st => st.pressure >>= fun p =>
    .ok (outs E.a S G.mw .energy (List.zipWith G.gI st.T p)) := by
  unfold mG
  simp only [scaleH_eq hU hmw, exOk, scaleBy_eq E.a S G.mw (show Kind.energy ≠ .temperature by simp)]
  rfl

theorem mF_eq : mF E G varg kw = argparse E G varg kw >>= fun st => st.pressure >>= fun p =>
    .ok (outs E.a S G.mw .energy (List.zipWith G.fI st.T p)) := by
  unfold mF
  simp only [scaleH_eq hU hmw, exOk, scaleBy_eq E.a S G.mw (show Kind.energy ≠ .temperature by simp)]
  rfl

theorem mS_eq : mS E G varg kw = argparse E G varg kw >>= fun st => st.pressure >>= fun p =>
    .ok (outs E.a S G.mw .entropy (List.zipWith G.sI st.T p)) := by
  unfold mS
  simp only [scaleS_eq hU hmw, exOk, scaleBy_eq E.a S G.mw (show Kind.entropy ≠ .temperature by simp)]
  rfl

/-- `state()` in closed form. -/
theorem mState_eq : mState E G varg kw = argparse E G varg kw >>= fun st =>
    st.density >>= fun d => st.pressure >>= fun p =>
    let cp := st.T.map (fun T => T.bind (fun T => (G.h T).map (·.2)))
    let cv := cp.map (Option.map (· - Ru))
    .ok { T := outs E.a S G.mw .temperature st.T, p := outs E.a S G.mw .pressure p,
          d := outs E.a S G.mw .density d,
          v := (outs E.a S G.mw .density d).map (Option.map (fun x => 1 / x)),
          h := outs E.a S G.mw .energy (st.T.map G.hI),
          e := outs E.a S G.mw .energy (st.T.map G.eI),
          gam := List.zipWith (nan2 (fun cp cv => cp / cv)) cp cv,
          s := outs E.a S G.mw .entropy (List.zipWith G.sI st.T p),
          cp := outs E.a S G.mw .entropy cp, cv := outs E.a S G.mw .entropy cv } := by
  unfold mState
  simp only [scaleH_eq hU hmw, scaleD_eq hU hmw, exOk, convNan_T hU false G.mw, convNan_p hU false G.mw,
    temp_scale hU]
  have hs : inUnits E.a S G.mw .energy 1 * (size temperature S.T.name / 1.8)
      = inUnits E.a S G.mw .entropy 1 := by simp [inUnits]
  simp only [hs, scaleBy_eq E.a S G.mw (show Kind.entropy ≠ .temperature by simp),
    scaleBy_eq E.a S G.mw (show Kind.energy ≠ .temperature by simp),
    scaleBy_eq E.a S G.mw (show Kind.density ≠ .temperature by simp)]
  rfl

end methods

end PyroMat.Gas.Props
