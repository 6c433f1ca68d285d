import Verif.Mp.PropsCaller
import Verif.Mp.PhaseCases

/-!
# Calls that meet the hypotheses of C79
-/

set_option linter.unusedSimpArgs false

namespace PyroMat.Mp.Props

open PyroMat PyroMat.Units PyroMat.Units.Spec PyroMat.Units.Props PyroMat.Gas PyroMat.Gas.Spec
open PyroMat.Gas.Props PyroMat.Mp PyroMat.Mp.Spec PyroMat.Config.Defaults

/-- A call with two temperatures, of which the first is above the range, and two densities returns, and
it has replaced the first number of the caller's array (`C79_range_defect`). -/
example (S : Sol) (d : ℝ) : ∃ l, Leaves fullEnv vapSub S [] [("T", .arr [100000, 500]), ("d", .arr [d, d])] "T"
    [100000, 500] l ∧ l[0]? = some none := by
  obtain ⟨r, hr⟩ : ∃ r, mpArgparse fullEnv vapSub S [] [("T", .arr [100000, 500]), ("d", .arr [d, d])] = .ok r := by
    rw [argparse_two fullEnv_uses vap_good.dome.mw.ne']
    have r : mpRules [("T", .arr [100000, 500]), ("d", .arr [d, d])] = .ok () := by
      simp [mpRules, mpLegal, Kw.has, List.lookup]
    have e3 : ∀ n, n ≠ "T" → n ≠ "d" →
        argKg fullEnv exampleSys vapSub.mw [("T", .arr [100000, 500]), ("d", .arr [d, d])] n = none := by
      intro n h1 h2
      simp [argKg, List.lookup, beq_false_of_ne h1, beq_false_of_ne h2]
    have e1 : argKg fullEnv exampleSys vapSub.mw [("T", .arr [100000, 500]), ("d", .arr [d, d])] "T"
        = some ⟨[100000, 500], true⟩ := rfl
    obtain ⟨z, hz⟩ : ∃ z, argKg fullEnv exampleSys vapSub.mw [("T", .arr [100000, 500]), ("d", .arr [d, d])] "d"
        = some ⟨[z, z], true⟩ := ⟨_, rfl⟩
    have hc : mpRange vapSub.Tlo vapSub.Thi (some ⟨[100000, 500], true⟩) = .ok (some ⟨[none, some 500], true⟩) := by
      rw [mpRange_some ⟨500, by simp, by norm_num [vapSub, gasSub], by norm_num [vapSub, gasSub]⟩]
      have a1 : clip vapSub.Tlo vapSub.Thi (100000 : ℝ) = none := by
        unfold clip; rw [if_pos (by norm_num [vapSub, gasSub])]
      have a2 : clip vapSub.Tlo vapSub.Thi (500 : ℝ) = some 500 :=
        clip_of_mem (by norm_num [vapSub, gasSub]) (by norm_num [vapSub, gasSub])
      simp [a1, a2]
    rw [r, exOk, parsed, e1, hc, exOk, e3 "p" (by decide) (by decide), mpRange_none, exOk,
      e3 "x" (by decide) (by decide), e3 "e" (by decide) (by decide), e3 "h" (by decide) (by decide),
      e3 "s" (by decide) (by decide), e3 "v" (by decide) (by decide), hz]
    exact ⟨_, rfl⟩
  refine ⟨_, ⟨r, hr, rfl⟩, ?_⟩
  exact (C79_range_defect fullEnv exampleSys fullEnv_uses vapSub S []
    [("T", .arr [100000, 500]), ("d", .arr [d, d])] (by simp) _ vap_good.dome.mw.ne' [100000, 500] 0 100000 rfl).1 rfl (by simp [supplied]) (.inr (by norm_num [vapSub, gasSub])) ⟨r, hr, rfl⟩

/-- An inversion that answers a saturation temperature of 150 K. -/
noncomputable def midSol : Sol where
  Ts := fun _ => .ok (fun _ => some 150)
  d := fun _ => .ok (fun _ => none)
  Tdp := fun _ => .ok (fun _ => none)
  Thp := fun _ _ => .ok (fun _ => none)
  Thd := fun _ _ => .ok (fun _ => none)
  dhT := fun _ _ => .ok (fun _ => none)

/-- A call with 150 Pa and an array of one density under the dome has replaced the caller's density, 10
kg/m3, by that of the saturated liquid, 650 kg/m3 (`C79_density_defect`). -/
example : ∃ l, Leaves fullEnv vapSub midSol [] [("p", .scalar (out "p" 150)), ("d", .arr [10])] "d" [10] l ∧
    l[0]? = some (some 650) := by
  have hmw := vap_good.dome.mw.ne'
  let kw : Kw := [("p", .scalar (out "p" 150)), ("d", .arr [10])]
  obtain ⟨r, x, hr, hp, hx⟩ : ∃ r x, mpArgparse fullEnv vapSub midSol [] kw = .ok r ∧
      r.pts = [satPt vapSub (some 150) (some x)] ∧ 0 ≤ x := by
    rw [argparse_two fullEnv_uses hmw]
    have r : mpRules [("p", .scalar (out "p" 150)), ("d", .arr [10])] = .ok () := by
      simp [mpRules, mpLegal, Kw.has, List.lookup]
    have e1 : argKg fullEnv exampleSys vapSub.mw [("p", .scalar (out "p" 150)), ("d", .arr [10])] "p"
        = some ⟨[150], false⟩ := by
      show some (Arg.mk [si fullEnv exampleSys vapSub .p (out "p" 150)] _) = _
      rw [vap_P]; rfl
    have e2 : argKg fullEnv exampleSys vapSub.mw [("p", .scalar (out "p" 150)), ("d", .arr [10])] "d"
        = some ⟨[10], true⟩ := by
      show some (Arg.mk [internalKg _ _ _ (kindOf "d") 10] _) = _
      rw [own_id fullEnv_uses hmw (by simp) rfl]; rfl
    have e3 : ∀ n, n ≠ "p" → n ≠ "d" →
        argKg fullEnv exampleSys vapSub.mw [("p", .scalar (out "p" 150)), ("d", .arr [10])] n = none := by
      intro n h1 h2
      simp [argKg, List.lookup, beq_false_of_ne h1, beq_false_of_ne h2]
    rw [r, exOk, parsed, e3 "T" (by decide) (by decide), mpRange_none, exOk, e1,
      gas_range (by norm_num [vapSub, gasSub]) (by norm_num [vapSub, gasSub]), exOk,
      e3 "x" (by decide) (by decide), e3 "e" (by decide) (by decide), e3 "h" (by decide) (by decide),
      e3 "s" (by decide) (by decide), e3 "v" (by decide) (by decide), e2]
    have hb : belowPc vapSub (some 150) = true := by norm_num [belowPc, vapSub, gasSub]
    have hs : satPD vapSub (some 150) (10, some 150) = some (some ((650 / 10 - 1) / (650 / 1 - 1))) := by
      unfold satPD satDens
      rw [if_pos hb, Option.bind_some, if_pos (by norm_num [vapSub, gasSub]), quot,
        if_neg (by norm_num [vapSub, gasSub])]
      norm_num [vapSub, gasSub]
    simp only [mpQuality, mpDensity, mpInv, mpSolve, mpSolveBasic, mpPD, broadcast, List.length_cons, List.length_nil,
      if_true, exOk, askTs, List.any_cons, hb, Bool.true_or, midSol, List.zip_cons_cons, List.zip_nil_right,
      List.mapIdx_cons, List.mapIdx_nil, hs]
    exact ⟨_, _, rfl, rfl, by norm_num⟩
  refine ⟨_, ⟨r, hr, rfl⟩, ?_⟩
  have hq : r.pts[0]? = some (satPt vapSub (some 150) (some x)) := by rw [hp]; rfl
  have hS : Bounded midSol vapSub 50 := by
    constructor
    · intro q f h n T hT
      cases h; cases hT; norm_num [vapSub, gasSub]
    · intro i q f h n T hT
      cases h; cases hT
  have := C79_density_defect fullEnv exampleSys fullEnv_uses vapSub midSol [] kw (by simp [kw]) _ ⟨rfl, rfl⟩ 50 vap_good.dome
    hS vap_good.min2 [10] (.scalar (out "p" 150)) rfl (by simp [supplied, kw]) (by simp [supplied, kw])
    ⟨r, hr, rfl⟩ 0 _ x ((gives_iff fullEnv_uses hmw hr (by simp) hq _).mpr rfl)
    ((gives_iff fullEnv_uses hmw hr (by simp) hq _).mpr rfl) hx
  rw [this, show si fullEnv exampleSys vapSub .T (inUnitsKg fullEnv.a exampleSys vapSub.mw .temperature 150) = 150 from
    vap_T 150]
  norm_num [vapSub, gasSub]

end PyroMat.Mp.Props
