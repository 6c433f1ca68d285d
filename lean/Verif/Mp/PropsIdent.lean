import Verif.Mp.PropsBundle

/-!
# C73: identities between the properties of a state

Stated for the numbers the methods return, converted to K, Pa, kg/m3, m3/kg, J/kg and J/kg/K.
-/

set_option linter.unusedSimpArgs false

namespace PyroMat.Mp.Props

open PyroMat PyroMat.Units PyroMat.Units.Spec PyroMat.Units.Props PyroMat.Gas PyroMat.Gas.Spec
open PyroMat.Gas.Props PyroMat.Mp PyroMat.Mp.Spec PyroMat.Config.Defaults

/-- The inner value of an element behind a number returned. -/
theorem inner_of {E : Env} {U : Sys} (hU : Uses E U) {B : Sub} (hmw : B.mw ≠ 0) {k : Kind} {o : Nan} {y : ℝ}
    (h : o.map (inUnitsKg E.a U B.mw k) = some y) : o = some (internalKg E.a U B.mw k y) := by
  obtain ⟨z, hz, hy⟩ := Option.map_eq_some_iff.mp h
  rw [hz, ← hy, internalKg_inUnitsKg hU hmw]

/-- Enthalpy of the formulas. -/
theorem h_eq (F : Fluid) (hs : F.To = F.Tr) {T d : ℝ} (hT : T ≠ 0) (hd : d ≠ 0) :
    (F.h T d).v = (F.e T d).v + (F.p T d).v / d := by
  simp only [Fluid.h, Fluid.e, Fluid.p, hs]; field_simp; ring

section
variable (E : Env) (U : Sys) (hU : Uses E U) (B : Sub) (S : Sol) (varg : List (Val ℝ)) (kw : Kw) (i : Nat)
include hU

/-- C73, Gibbs energy: `g = h - T s` at every element of every call, in one phase or two. -/
theorem C73_gibbs (hmw : B.mw ≠ 0) (t g h s : ℝ) (ht : MpGives E B S varg kw .T i t)
    (hg : MpGives E B S varg kw .g i g) (hh : MpGives E B S varg kw .h i h)
    (hs : MpGives E B S varg kw .s i s) :
    internalKg E.a U B.mw .energy g = internalKg E.a U B.mw .energy h -
      internalKg E.a U B.mw .temperature t * internalKg E.a U B.mw .entropy s := by
  obtain ⟨r, q, hr, hq⟩ := gives_pt hU hmw (by simp) ht
  have ht' := inner_of hU hmw ((gives_iff hU hmw hr (by simp) hq t).mp ht)
  have hg' := inner_of hU hmw ((gives_iff hU hmw hr (by simp) hq g).mp hg)
  have hh' := inner_of hU hmw ((gives_iff hU hmw hr (by simp) hq h).mp hh)
  have hs' := inner_of hU hmw ((gives_iff hU hmw hr (by simp) hq s).mp hs)
  have hm := mix_g B q
  rw [hg', hh', hs', ht'] at hm
  cases he : q.mix (fun T d => (B.F.e T d).v) with
  | none => rw [he] at hm; cases hm
  | some e =>
    rw [he] at hm
    simp only [nan2, Option.bind_some, Option.map_some, Option.some.injEq] at hm
    linarith

/-- C73, Helmholtz energy: `f = e - T s` at every element of every call whose temperature is not
absolute zero, in one phase or two, for a substance whose two parts of the Helmholtz energy have one
temperature scale. -/
theorem C73_helmholtz (hmw : B.mw ≠ 0) (hsc : B.F.To = B.F.Tr) (t f e s : ℝ)
    (ht : MpGives E B S varg kw .T i t) (h0 : internalKg E.a U B.mw .temperature t ≠ 0)
    (hf : MpGives E B S varg kw .f i f) (he : MpGives E B S varg kw .e i e)
    (hs : MpGives E B S varg kw .s i s) :
    internalKg E.a U B.mw .energy f = internalKg E.a U B.mw .energy e -
      internalKg E.a U B.mw .temperature t * internalKg E.a U B.mw .entropy s := by
  obtain ⟨r, q, hr, hq⟩ := gives_pt hU hmw (by simp) ht
  have ht' := inner_of hU hmw ((gives_iff hU hmw hr (by simp) hq t).mp ht)
  have hf' := inner_of hU hmw ((gives_iff hU hmw hr (by simp) hq f).mp hf)
  have he' := inner_of hU hmw ((gives_iff hU hmw hr (by simp) hq e).mp he)
  have hs' := inner_of hU hmw ((gives_iff hU hmw hr (by simp) hq s).mp hs)
  have hm := mix_f B hsc q (fun T hT => by rw [ht'] at hT; cases hT; exact h0)
  rw [hf', he', hs', ht'] at hm
  simp only [nan2, Option.bind_some, Option.map_some, Option.some.injEq] at hm
  linarith

/-- C73, enthalpy: `h = e + p v` at every single-phase element (quality below 0), and at every
saturated element whose two saturated states have equal pressure. -/
theorem C73_enthalpy (Tmin : ℝ) (hB : Dome B Tmin) (hS : Bounded S B Tmin) (hlo : Tmin ≤ B.Tlo)
    (hsc : B.F.To = B.F.Tr) (t p v e h x : ℝ) (ht : MpGives E B S varg kw .T i t)
    (h0 : internalKg E.a U B.mw .temperature t ≠ 0)
    (hp : MpGives E B S varg kw .p i p) (hv : MpGives E B S varg kw .v i v) (hv0 : v ≠ 0)
    (he : MpGives E B S varg kw .e i e) (hh : MpGives E B S varg kw .h i h)
    (hx : MpGives E B S varg kw .x i x)
    (heq : 0 ≤ x → ∀ T, T = internalKg E.a U B.mw .temperature t →
      B.dsl T ≠ 0 ∧ B.dsv T ≠ 0 ∧ (B.F.p T (B.dsl T)).v = (B.F.p T (B.dsv T)).v) :
    internalKg E.a U B.mw .energy h = internalKg E.a U B.mw .energy e +
      internalKg E.a U B.mw .pressure p * internalKg E.a U B.mw .volume v := by
  have hmw := hB.mw.ne'
  obtain ⟨r, q, hr, hq⟩ := gives_pt hU hmw (by simp) ht
  have ht' := inner_of hU hmw ((gives_iff hU hmw hr (by simp) hq t).mp ht)
  have hp' := inner_of hU hmw ((gives_iff hU hmw hr (by simp) hq p).mp hp)
  have he' := inner_of hU hmw ((gives_iff hU hmw hr (by simp) hq e).mp he)
  have hh' := inner_of hU hmw ((gives_iff hU hmw hr (by simp) hq h).mp hh)
  have hx' := (gives_iff hU hmw hr (by simp) hq x).mp hx
  have hv' := (gives_iff hU hmw hr (by simp) hq v).mp hv
  have hg := argparse_good hB hS hU hlo hr q (List.mem_of_getElem? hq)
  simp only [ptValue] at hx' hv'
  obtain ⟨y, hy, hyv⟩ := Option.map_eq_some_iff.mp hv'
  have hD := inner_of hU hmw hy
  generalize hDe : internalKg E.a U B.mw .density y = D at hD
  have hyD : y = inUnitsKg E.a U B.mw .density D := by rw [← hDe, inUnitsKg_internalKg hU hmw]
  have hvD : internalKg E.a U B.mw .volume v = 1 / D := by
    rw [← hyv, hyD, ← inUnitsKg_recip hU hmw, internalKg_inUnitsKg hU hmw]
  have hD0 : D ≠ 0 := by
    rintro rfl
    apply hv0
    rw [← inUnitsKg_internalKg hU hmw .volume v, hvD]
    simp [inUnitsKg, perKmol, inUnits]
  rw [hvD]
  generalize internalKg E.a U B.mw .temperature t = T at *
  cases hI : q.I with
  | false =>
    have hd1 : q.d1 = some D := by simpa [Pt.density, hI] using hD
    have hd2 : q.d2 = some D := (hg.one hI).1 ▸ hd1
    simp only [Pt.mix, Pt.at, hI, ht', hd1, hd2, nan2, Bool.false_eq_true, if_false, Option.bind_some,
      Option.map_some, Option.some.injEq] at hp' he' hh'
    rw [← hp', ← he', ← hh', h_eq B.F hsc h0 hD0]
    ring
  | true =>
    obtain ⟨s1, s2, s3, -⟩ := hg.sat hI
    obtain ⟨n1, n2, hpp⟩ := heq (s3 x hx').1 T rfl
    rw [ht'] at s1 s2
    simp only [onCurve, Option.map_some] at s1 s2
    simp only [Pt.density, Pt.mix, Pt.at, hI, ht', s1, s2, hx', nan2, if_true, Option.bind_some,
      Option.map_some, Option.some.injEq] at hp' he' hh' hD
    rw [← hp', ← he', ← hh', ← hD, h_eq B.F hsc h0 n1, h_eq B.F hsc h0 n2, hpp]
    simp only [one_div, inv_inv]
    ring

end

/-! ## The hypotheses are met -/

/-- A supercritical state of the example substance: 700 K and 2 kg/m3. -/
theorem demo_one {E : Env} {U : Sys} (hU : Uses E U) {t d : ℝ} (ht : toKelvin U.T.name t = 700)
    (hd : internalKg E.a U demoSub.mw .density d = 2) :
    ∃ o1 o2, mpArgparse E demoSub demoSol [] [("T", .scalar t), ("d", .scalar d)]
      = .ok { pts := [onePt (some 700) (some 2)], callerT := o1, callerD := o2 } := by
  obtain ⟨o1, o2, h⟩ := argparse_TD hU demo_dome.mw.ne' demoSol (.scalar t) (.scalar d)
    ⟨700, by simp [Val.elems, ht], by norm_num [demoSub], by norm_num [demoSub]⟩
  refine ⟨o1, o2, ?_⟩
  rw [h]
  have c : clip demoSub.Tlo demoSub.Thi 700 = some 700 := clip_of_mem (by norm_num [demoSub]) (by norm_num [demoSub])
  have e : ¬ (700 : ℝ) < demoSub.Tc := by norm_num [demoSub]
  simp only [Val.elems, List.map_cons, List.map_nil, ht, hd, c, mpTD, broadcast, List.length_cons, List.length_nil,
    if_true, exOk, List.zip_cons_cons, List.zip_nil_right, satTD, Option.bind_some, e, if_false]

/-- At 700 K and 2 kg/m3 every quantity in C73 is a number, the volume and the temperature are not 0, and
the quality is below 0. -/
example : ∃ d t p v g e f h s x,
    let M := MpGives fullEnv demoSub demoSol [] [("T", .scalar 700), ("d", .scalar d)]
    M .T 0 t ∧ M .p 0 p ∧ M .v 0 v ∧ M .g 0 g ∧ M .e 0 e ∧ M .f 0 f ∧ M .h 0 h ∧ M .s 0 s ∧ M .x 0 x ∧
      x < 0 ∧ v ≠ 0 ∧ internalKg fullEnv.a exampleSys demoSub.mw .temperature t ≠ 0 ∧
      demoSub.F.To = demoSub.F.Tr := by
  have hU := fullEnv_uses
  have hmw : demoSub.mw ≠ 0 := demo_dome.mw.ne'
  have hK : ∀ x : ℝ, toKelvin exampleSys.T.name x = x := fun x => by
    show toKelvin Scale.K.name x = x; exact toK_K x
  let W := inUnitsKg fullEnv.a exampleSys demoSub.mw
  obtain ⟨o1, o2, hr⟩ := demo_one hU (hK 700) (internalKg_inUnitsKg hU hmw .density 2)
  have g := fun m (hm : m ≠ MQuantity.cv) y => (gives_iff hU hmw hr hm (i := 0) rfl y).mpr
  refine ⟨W .density 2, W .temperature 700, W .pressure (demoSub.F.p 700 2).v, 1 / W .density 2,
    W .energy (demoSub.F.g 700 2).v, W .energy (demoSub.F.e 700 2).v, W .energy (demoSub.F.f 700 2).v,
    W .energy (demoSub.F.h 700 2).v, W .entropy (demoSub.F.s 700 2).v, -1,
    g _ (by simp) _ rfl, g _ (by simp) _ rfl, g _ (by simp) _ rfl, g _ (by simp) _ rfl, g _ (by simp) _ rfl,
    g _ (by simp) _ rfl, g _ (by simp) _ rfl, g _ (by simp) _ rfl, g _ (by simp) _ rfl, by norm_num, ?_, ?_, rfl⟩
  · intro h
    have h2 : W .density 2 = 0 := by simpa using h
    have h3 := internalKg_inUnitsKg hU hmw .density 2
    have h4 : internalKg fullEnv.a exampleSys demoSub.mw .density (W .density 2) = 2 := h3
    rw [h2] at h4
    simp [internalKg, perKg, internal] at h4
  · show internalKg fullEnv.a exampleSys demoSub.mw .temperature (W .temperature 700) ≠ 0
    rw [show internalKg fullEnv.a exampleSys demoSub.mw .temperature (W .temperature 700) = 700 from
      internalKg_inUnitsKg hU hmw .temperature 700]
    norm_num

end PyroMat.Mp.Props
