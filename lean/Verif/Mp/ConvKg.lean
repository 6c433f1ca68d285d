import Verif.Gas.Outputs
import Verif.Mp.SpecState

/-!
# Unit conversions inside the multiphase methods (lemmas)
-/

set_option linter.unusedSimpArgs false

namespace PyroMat.Mp.Props

open PyroMat PyroMat.Units PyroMat.Units.Spec PyroMat.Units.Props PyroMat.Gas PyroMat.Gas.Spec
open PyroMat.Gas.Props PyroMat.Mp PyroMat.Mp.Spec PyroMat.Config.Defaults

theorem perKg_perKmol {mw : ℝ} (hmw : mw ≠ 0) (k : Kind) (x : ℝ) :
    perKg mw k (perKmol mw k x) = x := by
  cases k <;> simp only [perKg, perKmol] <;> field_simp

theorem perKmol_perKg {mw : ℝ} (hmw : mw ≠ 0) (k : Kind) (x : ℝ) :
    perKmol mw k (perKg mw k x) = x := by
  cases k <;> simp only [perKg, perKmol] <;> field_simp

/-- Whether the working units of an argument are already the internal ones. -/
def isInternalKg (S : Sys) (name : String) : Bool :=
  match name with
  | "T" => S.T == .K
  | "p" => S.p == "Pa"
  | "d" | "v" => S.v == "m3" && S.m == "kg"
  | "h" | "e" => S.e == "J" && S.m == "kg"
  | "s" => S.e == "J" && S.m == "kg" && S.T == .K
  | _ => true

section
variable {E : Env} {S : Sys} (hU : Uses E S)
include hU

theorem inUnitsKg_internalKg {mw : ℝ} (hmw : mw ≠ 0) (k : Kind) (x : ℝ) :
    inUnitsKg E.a S mw k (internalKg E.a S mw k x) = x := by
  rw [inUnitsKg, internalKg, perKmol_perKg hmw, inUnits_internal hU hmw]

theorem internalKg_inUnitsKg {mw : ℝ} (hmw : mw ≠ 0) (k : Kind) (x : ℝ) :
    internalKg E.a S mw k (inUnitsKg E.a S mw k x) = x := by
  rw [inUnitsKg, internalKg, internal_inUnits hU hmw, perKg_perKmol hmw]

theorem kg_scale (mw : ℝ) : matterScale E.a mw "kg" = some (1 / mw) := by
  simp [matterScale, mass, molar, List.lookup]

theorem acts_eJ (e : Option ℤ) : Acts (fun v => (energy : Conv ℝ).call E.c.str v none (some "J") e false)
    (· * powS (size energy S.e) e) (S.e == "J") := by
  have h := call_acts (nz_energy hU) (size_lookup hU hU.valid.e) (b := "J") (tb := 1) rfl E.c.str e
  intro v
  obtain ⟨r, h1, h2, h3⟩ := h v
  refine ⟨r, ?_, ?_, h3⟩
  · beta_reduce
    rw [(call_none (k := "unit_energy") rfl hU.e v e false "J").1]; exact h1
  · rw [h2]; simp

theorem acts_kg {mw : ℝ} (hmw : mw ≠ 0) (e : Option ℤ) :
    Acts (fun v => matter E.a E.c.str v mw none (some "kg") e false)
    (· * powS (msize E.a mw S.m * mw) e) (S.m == "kg") := by
  have h := matter_acts hU.pos hmw (msize_lookup hU mw) (t := "kg") (kg_scale hU mw) E.c.str e
  intro v
  obtain ⟨r, h1, h2, h3⟩ := h v
  refine ⟨r, ?_, ?_, h3⟩
  · beta_reduce
    rw [(matter_none hU.m v e false "kg").1]; exact h1
  · rw [h2]; simp

/-- Step 4 of `_argparse` in closed form. -/
theorem mpConvArg_eq {mw : ℝ} (hmw : mw ≠ 0) (v : Val ℝ) {name : String} (hn : name ∈ mpLegal) :
    convArg v (mpConversions E mw name)
      = .ok ⟨(Val.elems v).map (internalKg E.a S mw (kindOf name)), v.isArr && isInternalKg S name⟩ := by
  have h1 := ps_ne hU
  have h2 := vs_ne hU
  have h3 := es_ne hU
  have h4 := ts_ne hU
  have h5 := ms_ne hU hmw
  have fin : ∀ {f g : ℝ → ℝ} {b b' : Bool}, (∀ x, f x = g x) → b = b' →
      (Except.ok ⟨(Val.elems v).map f, b⟩ : Except Err Arg) = .ok ⟨(Val.elems v).map g, b'⟩ := by
    intro f g b b' hfg hb
    rw [funext hfg, hb]
  simp only [mpLegal, List.mem_cons, List.not_mem_nil, or_false] at hn
  unfold convArg
  rcases hn with rfl | rfl | rfl | rfl | rfl | rfl | rfl | rfl
  · rw [show mpConversions E mw "T" = [fun v => temperatureScale E.c.str v none (some "K") false] from rfl,
      convFold (gs := [_]) (bs := [_]) (.cons (acts_T hU) .nil) rfl]
    exact fin (fun x => rfl) (by simp [isInternalKg])
  · rw [show mpConversions E mw "p" = [fun v => (pressure E.a).call E.c.str v none (some "Pa") none false] from rfl,
      convFold (gs := [_]) (bs := [_]) (.cons (acts_p hU) .nil) rfl]
    exact fin (fun x => rfl) (by simp [isInternalKg])
  · rw [show mpConversions E mw "d" = [fun v => (volume : Conv ℝ).call E.c.str v none (some "m3") (some (-1)) false,
            fun v => matter E.a E.c.str v mw none (some "kg") none false] from rfl,
      convFold (gs := [_, _]) (bs := [_, _]) (.cons (acts_v hU _) (.cons (acts_kg hU hmw _) .nil)) rfl]
    refine fin (fun x => ?_) (by simp [isInternalKg])
    simp [powS, internal, internalKg, perKg, kindOf]
    field_simp
  · rw [show mpConversions E mw "v" = [fun v => (volume : Conv ℝ).call E.c.str v none (some "m3") none false,
            fun v => matter E.a E.c.str v mw none (some "kg") (some (-1)) false] from rfl,
      convFold (gs := [_, _]) (bs := [_, _]) (.cons (acts_v hU _) (.cons (acts_kg hU hmw _) .nil)) rfl]
    refine fin (fun x => ?_) (by simp [isInternalKg])
    simp [powS, internal, internalKg, perKg, kindOf]
    field_simp
  · rw [show mpConversions E mw "x" = [] from rfl]
    have : internalKg E.a S mw (kindOf "x") = fun x => x := by
      funext x; simp [internalKg, perKg, internal, kindOf]
    rw [this]
    simp [isInternalKg, pure, Except.pure]
  · rw [show mpConversions E mw "e" = [fun v => (energy : Conv ℝ).call E.c.str v none (some "J") none false,
            fun v => matter E.a E.c.str v mw none (some "kg") (some (-1)) false] from rfl,
      convFold (gs := [_, _]) (bs := [_, _]) (.cons (acts_eJ hU _) (.cons (acts_kg hU hmw _) .nil)) rfl]
    refine fin (fun x => ?_) (by simp [isInternalKg])
    simp [powS, internal, internalKg, perKg, kindOf]
    field_simp
  · rw [show mpConversions E mw "h" = [fun v => (energy : Conv ℝ).call E.c.str v none (some "J") none false,
            fun v => matter E.a E.c.str v mw none (some "kg") (some (-1)) false] from rfl,
      convFold (gs := [_, _]) (bs := [_, _]) (.cons (acts_eJ hU _) (.cons (acts_kg hU hmw _) .nil)) rfl]
    refine fin (fun x => ?_) (by simp [isInternalKg])
    simp [powS, internal, internalKg, perKg, kindOf]
    field_simp
  · rw [show mpConversions E mw "s" = [fun v => (energy : Conv ℝ).call E.c.str v none (some "J") none false,
            fun v => matter E.a E.c.str v mw none (some "kg") (some (-1)) false,
            fun v => (temperature : Conv ℝ).call E.c.str v none (some "K") (some (-1)) false] from rfl,
      convFold (gs := [_, _, _]) (bs := [_, _, _]) (.cons (acts_eJ hU _)
      (.cons (acts_kg hU hmw _) (.cons (acts_t hU _) .nil))) rfl]
    refine fin (fun x => ?_) (by simp [isInternalKg, Bool.and_assoc])
    simp [powS, internal, internalKg, perKg, kindOf]
    field_simp

/-! ## Outputs -/

theorem scalarOf_matter_ip {mw : ℝ} (hmw : mw ≠ 0) {u : String} {y : ℝ}
    (hy : matterScale E.a mw u = some y) (x : ℝ) (e : Option ℤ) (ip : Bool) :
    scalarOf (matter E.a E.c.str (.scalar x) mw (some u) none e ip)
      = .ok (x * powS (y / msize E.a mw S.m) e) := by
  rw [(matter_none hU.m _ e ip u).2]
  obtain ⟨r, h1, h2⟩ := matter_ret E.a hU.pos mw hmw u S.m _ _ hy (msize_lookup hU mw) E.c.str (.scalar x) e ip
  rw [h1]
  simp [scalarOf, exOk, h2, Units.Val.map]

theorem temp_scale_ip (x : ℝ) (ip : Bool) :
    scalarOf ((temperature : Conv ℝ).call E.c.str (.scalar x) (some "K") none (some (-1)) ip)
      = .ok (x * (size temperature S.T.name / 1.8)) := by
  rw [scalarOf_call hU (nz_temperature hU) (k := "unit_temperature") rfl hU.T (tcontains hU)
    (y := 1.8) rfl]
  simp [powS]

omit hU in
/-- A chain of conversions of an array acts element by element. -/
theorem convOut_map {fs : List (Val ℝ → Except Err (Res ℝ))} : ∀ {gs : List (ℝ → ℝ)},
    List.Forall₂ (fun f (g : ℝ → ℝ) => ∀ x, scalarOf (f (.scalar x)) = .ok (g x)) fs gs →
    ∀ xs, convOut fs xs = .ok (xs.map (Option.map (fun x => gs.foldl (fun x g => g x) x))) := by
  induction fs with
  | nil =>
    intro gs h xs
    cases h
    simp [convOut, pure, Except.pure]
  | cons f fs ih =>
    intro gs h xs
    cases h with
    | cons hf hrest =>
      rename_i g gs
      have hone : convNan f xs = .ok (xs.map (Option.map g)) := by
        unfold convNan
        rw [mapM_congr (g := fun x => .ok (x.map g)), mapM_pure_map]
        intro x _
        cases x with
        | none => rfl
        | some x => simp [hf, Except.map]
      have := ih hrest (xs.map (Option.map g))
      unfold convOut at this ⊢
      rw [List.foldlM_cons, hone, exOk, this]
      simp [List.map_map, Function.comp_def]

omit hU in
theorem factor_eq {fs : List (Val ℝ → Except Err (Res ℝ))} : ∀ {gs : List (ℝ → ℝ)},
    List.Forall₂ (fun f (g : ℝ → ℝ) => ∀ x, scalarOf (f (.scalar x)) = .ok (g x)) fs gs →
    ∀ x, fs.foldlM (fun x f => scalarOf (f (.scalar x))) x = .ok (gs.foldl (fun x g => g x) x) := by
  induction fs with
  | nil => intro gs h x; cases h; rfl
  | cons f fs ih =>
    intro gs h x
    cases h with
    | cons hf hrest =>
      rw [List.foldlM_cons, hf, exOk, ih hrest]
      rfl

section
variable {mw : ℝ} (hmw : mw ≠ 0)
include hmw

theorem steps_energy (ip : Bool) :
    List.Forall₂ (fun f (g : ℝ → ℝ) => ∀ x, scalarOf (f (.scalar x)) = .ok (g x)) (outEnergy E mw ip)
      [(· * (1 / size energy S.e)), (· * (1 / mw / msize E.a mw S.m)⁻¹)] := by
  refine .cons (fun x => ?_) (.cons (fun x => ?_) .nil)
  · rw [scalarOf_call hU (nz_energy hU) (k := "unit_energy") rfl hU.e hU.valid.e (y := 1) rfl]
    simp [powS]
  · rw [scalarOf_matter_ip hU hmw (kg_scale hU mw)]
    simp [powS]

theorem steps_entropy (ip : Bool) :
    List.Forall₂ (fun f (g : ℝ → ℝ) => ∀ x, scalarOf (f (.scalar x)) = .ok (g x)) (outEntropy E mw ip)
      [(· * (1 / size energy S.e)), (· * (1 / mw / msize E.a mw S.m)⁻¹),
        (· * (size temperature S.T.name / 1.8))] := by
  unfold outEntropy
  have := steps_energy hU hmw ip
  cases this with
  | cons h1 h2 => cases h2 with
    | cons h2 h3 => exact .cons h1 (.cons h2 (.cons (fun x => temp_scale_ip hU x ip) .nil))

theorem steps_density (ip : Bool) :
    List.Forall₂ (fun f (g : ℝ → ℝ) => ∀ x, scalarOf (f (.scalar x)) = .ok (g x)) (outDensity E mw ip)
      [(· * (1 / mw / msize E.a mw S.m)), (· * (1 / size volume S.v)⁻¹)] := by
  refine .cons (fun x => ?_) (.cons (fun x => ?_) .nil)
  · rw [scalarOf_matter_ip hU hmw (kg_scale hU mw)]
    simp [powS]
  · rw [scalarOf_call hU (nz_volume hU) (k := "unit_volume") rfl hU.v hU.valid.v (y := 1 ^ 3) rfl]
    simp [powS]

theorem convOut_energy (ip : Bool) (xs : List Nan) :
    convOut (outEnergy E mw ip) xs = .ok (xs.map (Option.map (inUnitsKg E.a S mw .energy))) := by
  rw [convOut_map (steps_energy hU hmw ip)]
  congr 3
  funext x
  have h3 := es_ne hU
  have h5 := ms_ne hU hmw
  simp only [List.foldl_cons, List.foldl_nil, inUnitsKg, perKmol, inUnits]
  first | (field_simp; done) | (field_simp; ring1) | (congr 1; field_simp; done) | (congr 1; field_simp; ring1)

theorem convOut_entropy (ip : Bool) (xs : List Nan) :
    convOut (outEntropy E mw ip) xs = .ok (xs.map (Option.map (inUnitsKg E.a S mw .entropy))) := by
  rw [convOut_map (steps_entropy hU hmw ip)]
  congr 3
  funext x
  have h3 := es_ne hU
  have h5 := ms_ne hU hmw
  simp only [List.foldl_cons, List.foldl_nil, inUnitsKg, perKmol, inUnits]
  first | (field_simp; done) | (field_simp; ring1) | (congr 1; field_simp; done) | (congr 1; field_simp; ring1)

theorem convOut_density (ip : Bool) (xs : List Nan) :
    convOut (outDensity E mw ip) xs = .ok (xs.map (Option.map (inUnitsKg E.a S mw .density))) := by
  rw [convOut_map (steps_density hU hmw ip)]
  congr 3
  funext x
  have h3 := vs_ne hU
  have h5 := ms_ne hU hmw
  simp only [List.foldl_cons, List.foldl_nil, inUnitsKg, perKmol, inUnits]
  first | (field_simp; done) | (field_simp; ring1) | (congr 1; field_simp; done) | (congr 1; field_simp; ring1)

theorem factor_energy (ip : Bool) :
    factor (outEnergy E mw ip) = .ok (inUnitsKg E.a S mw .energy 1) := by
  unfold factor
  rw [factor_eq (steps_energy hU hmw ip)]
  have h3 := es_ne hU
  have h5 := ms_ne hU hmw
  simp only [List.foldl_cons, List.foldl_nil, inUnitsKg, perKmol, inUnits]
  first | (field_simp; done) | (field_simp; ring1) | (congr 1; field_simp; done) | (congr 1; field_simp; ring1)

theorem factor_entropy (ip : Bool) :
    factor (outEntropy E mw ip) = .ok (inUnitsKg E.a S mw .entropy 1) := by
  unfold factor
  rw [factor_eq (steps_entropy hU hmw ip)]
  have h3 := es_ne hU
  have h5 := ms_ne hU hmw
  simp only [List.foldl_cons, List.foldl_nil, inUnitsKg, perKmol, inUnits]
  first | (field_simp; done) | (field_simp; ring1) | (congr 1; field_simp; done) | (congr 1; field_simp; ring1)

theorem factor_density (ip : Bool) :
    factor (outDensity E mw ip) = .ok (inUnitsKg E.a S mw .density 1) := by
  unfold factor
  rw [factor_eq (steps_density hU hmw ip)]
  have h3 := vs_ne hU
  have h5 := ms_ne hU hmw
  simp only [List.foldl_cons, List.foldl_nil, inUnitsKg, perKmol, inUnits]
  first | (field_simp; done) | (field_simp; ring1) | (congr 1; field_simp; done) | (congr 1; field_simp; ring1)

omit hmw in
theorem convOut_temperature (mw : ℝ) (xs : List Nan) :
    convOut (outTemperature E) xs = .ok (xs.map (Option.map (inUnitsKg E.a S mw .temperature))) := by
  unfold outTemperature
  rw [convOut_map (gs := [fromKelvin S.T.name]) (.cons (fun x => scalarOf_tscale hU x _) .nil)]
  rfl

omit hmw in
theorem convOut_pressure (mw : ℝ) (xs : List Nan) :
    convOut (outPressure E) xs = .ok (xs.map (Option.map (inUnitsKg E.a S mw .pressure))) := by
  unfold outPressure
  rw [convOut_map (gs := [(· * (1 / size (pressure E.a) S.p))]) (.cons (fun x => ?_) .nil)]
  · congr 3
    funext x
    simp [inUnitsKg, perKmol, inUnits, div_eq_mul_inv]
  · rw [scalarOf_call hU (nz_pressure hU) (k := "unit_pressure") rfl hU.p hU.valid.p (w := "Pa") (y := 1) rfl]
    rfl

end

end

theorem inUnitsKg_mul (a : SetupArgs ℝ) (S : Sys) (mw : ℝ) {k : Kind} (hk : k ≠ .temperature) (x : ℝ) :
    x * inUnitsKg a S mw k 1 = inUnitsKg a S mw k x := by
  cases k <;> simp only [inUnitsKg, perKmol, inUnits] <;> first | (exact absurd rfl hk) | ring

theorem scaleBy_kg (a : SetupArgs ℝ) (S : Sys) (mw : ℝ) {k : Kind} (hk : k ≠ .temperature)
    (xs : List Nan) :
    scaleBy (inUnitsKg a S mw k 1) xs = xs.map (Option.map (inUnitsKg a S mw k)) := by
  unfold scaleBy
  congr 2
  funext x
  exact inUnitsKg_mul a S mw hk x

/-- The conversion of a whole output array. -/
noncomputable def outsKg (a : SetupArgs ℝ) (S : Sys) (mw : ℝ) (k : Kind) (xs : List Nan) : List Nan :=
  xs.map (Option.map (inUnitsKg a S mw k))

section methods
variable {E : Env} {U : Sys} (hU : Uses E U) {B : Sub} (hmw : B.mw ≠ 0) (S : Sol)
  (varg : List (Val ℝ)) (kw : Kw)
include hU hmw

theorem mpT_eq : mpT E B S varg kw = mpArgparse E B S varg kw >>= fun r =>
    .ok (outsKg E.a U B.mw .temperature (r.pts.map (·.T))) := by
  unfold mpT; simp only [convOut_temperature hU B.mw]; rfl

theorem mpP_eq : mpP E B S varg kw = mpArgparse E B S varg kw >>= fun r =>
    .ok (outsKg E.a U B.mw .pressure (r.pts.map (fun q => Pt.at (fun T d => (B.F.p T d).v) q.T q.d2))) := by
  unfold mpP; simp only [convOut_pressure hU B.mw]; rfl

theorem mpD_eq : mpD E B S varg kw = mpArgparse E B S varg kw >>= fun r =>
    .ok (outsKg E.a U B.mw .density (r.pts.map Pt.density)) := by
  unfold mpD; simp only [convOut_density hU hmw]; rfl

theorem mpV_eq : mpV E B S varg kw = mpArgparse E B S varg kw >>= fun r =>
    .ok ((outsKg E.a U B.mw .density (r.pts.map Pt.density)).map (Option.map (fun x => 1 / x))) := by
  unfold mpV
  rw [mpD_eq hU hmw]
  simp only [bind_assoc, exOk]

theorem mpE_eq : mpE E B S varg kw = mpArgparse E B S varg kw >>= fun r =>
    .ok (outsKg E.a U B.mw .energy (r.pts.map (Pt.mix (fun T d => (B.F.e T d).v)))) := by
  unfold mpE; simp only [convOut_energy hU hmw]; rfl

theorem mpF_eq : mpF E B S varg kw = mpArgparse E B S varg kw >>= fun r =>
    .ok (outsKg E.a U B.mw .energy (r.pts.map (Pt.mix (fun T d => (B.F.f T d).v)))) := by
  unfold mpF; simp only [convOut_energy hU hmw]; rfl

theorem mpG_eq : mpG E B S varg kw = mpArgparse E B S varg kw >>= fun r =>
    .ok (outsKg E.a U B.mw .energy (r.pts.map (Pt.mix (fun T d => (B.F.g T d).v)))) := by
  unfold mpG; simp only [convOut_energy hU hmw]; rfl

theorem mpH_eq : mpH E B S varg kw = mpArgparse E B S varg kw >>= fun r =>
    .ok (outsKg E.a U B.mw .energy (r.pts.map (Pt.mix (fun T d => (B.F.h T d).v)))) := by
  unfold mpH; simp only [convOut_energy hU hmw]; rfl

theorem mpS_eq : mpS E B S varg kw = mpArgparse E B S varg kw >>= fun r =>
    .ok (outsKg E.a U B.mw .entropy (r.pts.map (Pt.mix (fun T d => (B.F.s T d).v)))) := by
  unfold mpS; simp only [convOut_entropy hU hmw]; rfl

theorem mpCv_eq : mpCv E B S varg kw = mpArgparse E B S varg kw >>= fun r =>
    if r.pts.any (·.I) && !r.pts.all (·.I) then .error .value
    else .ok (outsKg E.a U B.mw .entropy (r.pts.map (Pt.cv B))) := by
  unfold mpCv; simp only [convOut_entropy hU hmw]; rfl

theorem mpCp_eq : mpCp E B S varg kw = mpArgparse E B S varg kw >>= fun r =>
    .ok (List.zipWith (fun (q : Pt) c => if q.I then .pinf else Cand.ofNan c) r.pts
      (outsKg E.a U B.mw .entropy (r.pts.map (fun q => Pt.at B.F.cp q.T q.d1)))) := by
  unfold mpCp; simp only [convOut_entropy hU hmw, exOk]; rfl

end methods

end PyroMat.Mp.Props
