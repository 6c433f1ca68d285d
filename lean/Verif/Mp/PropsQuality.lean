import Verif.Mp.Quality
import Verif.Mp.PropsUnits
import Verif.Mp.AccurateCases

/-!
# C78: the keyword `quality` and the deprecated inversions
-/

set_option linter.unusedSimpArgs false

namespace PyroMat.Mp.Props

open PyroMat PyroMat.Units PyroMat.Units.Spec PyroMat.Units.Props PyroMat.Gas PyroMat.Gas.Spec
open PyroMat.Gas.Props PyroMat.Mp PyroMat.Mp.Spec PyroMat.Config.Defaults

/-- The call `r` is the call `m` with the quality added if asked for: it raises what `m` raises, and
where `m` returns a value, `r` returns that value, alone, or with what `x` returns. -/
def AddsQuality {α : Type} (quality : Bool) (m : Except Err α) (x : Except Err (List Nan))
    (r : Except Err (Ret α)) : Prop :=
  (∀ e, m = .error e → r = .error e) ∧
  ∀ y, m = .ok y → (quality = false → r = .ok ⟨y, none⟩) ∧
    (quality = true → ∃ xs, x = .ok xs ∧ r = .ok ⟨y, some xs⟩)

theorem adds_of {α : Type} {quality : Bool} {a : Except Err MOut} {f : MOut → Except Err α} :
    AddsQuality quality (a.bind f) (a.bind (fun r => .ok (r.pts.map (·.x))))
      (a.bind (fun r => (f r).bind (fun y => give quality y (r.pts.map (·.x))))) := by
  cases a with
  | error e => exact ⟨fun e' h => by cases h; rfl, fun y h => by cases h⟩
  | ok r =>
    simp only [Except.bind]
    cases f r with
    | error e => exact ⟨fun e' h => by cases h; rfl, fun y h => by cases h⟩
    | ok y =>
      refine ⟨fun e' h => (by cases h), fun y' h => ?_⟩
      cases h
      exact ⟨fun h => by simp [give, h], fun h => ⟨_, rfl, by simp [give, h]⟩⟩

section
variable (E : Env) (B : Sub) (S : Sol) (varg : List (Val ℝ)) (kw : Kw) (quality : Bool)

/-- The method of each name with the keyword `quality`; `x` has none. -/
noncomputable def mpMethodq : MQuantity → Option (Except Err (Ret (List Nan)))
  | .T => some (mpTq E B S varg kw quality) | .p => some (mpPq E B S varg kw quality)
  | .d => some (mpDq E B S varg kw quality) | .v => some (mpVq E B S varg kw quality) | .x => none
  | .e => some (mpEq E B S varg kw quality) | .f => some (mpFq E B S varg kw quality)
  | .g => some (mpGq E B S varg kw quality) | .h => some (mpHq E B S varg kw quality)
  | .s => some (mpSq E B S varg kw quality) | .cv => some (mpCvq E B S varg kw quality)

/-- C78, the property methods.  Whatever the arguments, `T`, `p`, `d`, `v`, `e`, `f`, `g`, `h`, `s` and
`cv` called with `quality=True` return what they return without it and, second, what `x` returns for
the same arguments; they raise the same errors. -/
theorem C78_quality (q : MQuantity) (r : Except Err (Ret (List Nan)))
    (h : mpMethodq E B S varg kw quality q = some r) :
    AddsQuality quality (mpMethod q E B S varg kw) (mpMethod .x E B S varg kw) r := by
  cases q <;> simp only [mpMethodq, Option.some.injEq, reduceCtorEq] at h <;> subst h
  case v =>
    simp only [mpMethod, mpV, mpD, mpVq, mpDq, mpX, bind]
    cases mpArgparse E B S varg kw with
    | error e => exact ⟨fun e' h => by cases h; rfl, fun y h => by cases h⟩
    | ok r =>
      simp only [Except.bind]
      cases convOut (outDensity E B.mw false) (r.pts.map Pt.density) with
      | error e => exact ⟨fun e' h => by cases h; rfl, fun y h => by cases h⟩
      | ok y =>
        refine ⟨fun e' h => (by cases h), fun y' h => ?_⟩
        cases h
        exact ⟨fun h => by simp [give, h], fun h => ⟨_, rfl, by simp [give, h]⟩⟩
  case cv =>
    simp only [mpMethod, mpCv, mpCvq, mpX, bind]
    cases mpArgparse E B S varg kw with
    | error e => exact ⟨fun e' h => by cases h; rfl, fun y h => by cases h⟩
    | ok r =>
      simp only [Except.bind]
      by_cases hc : (r.pts.any (·.I) && !r.pts.all (·.I)) = true
      · simp only [hc, if_true]
        exact ⟨fun e' h => by cases h; rfl, fun y h => by cases h⟩
      · simp only [hc]
        cases convOut (outEntropy E B.mw true) (r.pts.map (Pt.cv B)) with
        | error e => exact ⟨fun e' h => by cases h; rfl, fun y h => by cases h⟩
        | ok y =>
          refine ⟨fun e' h => (by cases h), fun y' h => ?_⟩
          cases h
          exact ⟨fun h => by simp [give, h], fun h => ⟨_, rfl, by simp [give, h]⟩⟩
  all_goals exact adds_of

/-- C78, the speed of sound. -/
theorem C78_quality_a :
    AddsQuality quality (mpA E B S varg kw) (mpX E B S varg kw) (mpAq E B S varg kw quality) :=
  adds_of

/-- C78, `cp` and `gam`. -/
theorem C78_quality_cp :
    AddsQuality quality (mpCp E B S varg kw) (mpX E B S varg kw) (mpCpq E B S varg kw quality) ∧
    AddsQuality quality (mpGam E B S varg kw) (mpX E B S varg kw) (mpGamq E B S varg kw quality) := by
  constructor
  · have h := adds_of (quality := quality) (a := mpArgparse E B S varg kw) (f := fun r =>
      (convOut (outEntropy E B.mw true) (r.pts.map (fun q => Pt.at B.F.cp q.T q.d1))).bind (fun c =>
        .ok (List.zipWith (fun (q : Pt) c => if q.I then Cand.pinf else Cand.ofNan c) r.pts c)))
    have e : (mpArgparse E B S varg kw).bind (fun r =>
        ((convOut (outEntropy E B.mw true) (r.pts.map (fun q => Pt.at B.F.cp q.T q.d1))).bind (fun c =>
          .ok (List.zipWith (fun (q : Pt) c => if q.I then Cand.pinf else Cand.ofNan c) r.pts c))).bind
            (fun y => give quality y (r.pts.map (·.x)))) = mpCpq E B S varg kw quality := by
      unfold mpCpq
      simp only [bind]
      congr 1
      funext r
      cases convOut (outEntropy E B.mw true) (r.pts.map (fun q => Pt.at B.F.cp q.T q.d1)) <;> rfl
    rw [e] at h
    exact h
  · exact adds_of

end

section
variable (E : Env) (B : Sub) (S : Sol)

/-- C78, deprecated inversions.  With a pressure or a density `T_h` and `T_s` are `T` of the value and the
pressure, or of the value and the density; `d_s` is `d` of entropy and temperature, and without a
temperature `d` of entropy and the default temperature `def_T()`.  `quality` is passed on. -/
theorem C78_deprecated (i : Mp.Inv) (y z : Val ℝ) (d : Option (Val ℝ)) (quality : Bool) :
    mpT_invq E B S i.name y (some z) d quality = mpTq E B S [] [(i.name, y), ("p", z)] quality ∧
    mpT_invq E B S i.name y none (some z) quality = mpTq E B S [] [(i.name, y), ("d", z)] quality ∧
    mpD_sq E B S y (some z) quality = mpDq E B S [] [("s", y), ("T", z)] quality ∧
    (∀ T, retOf (defT E.c) = .ok T →
      mpD_sq E B S y none quality = mpDq E B S [] [("T", T), ("s", y)] quality) := by
  refine ⟨rfl, rfl, rfl, fun T hT => ?_⟩
  have : mpArgparse E B S [] [("s", y)] = mpArgparse E B S [] [("T", T), ("s", y)] := by
    unfold mpArgparse
    simp only [bindPos, applyDefaults, hT, bind, Except.bind]
    rfl
  simp only [mpD_sq, mpDq, this]

/-- C78, deprecated inversions without `quality`: the calls of C71 return what the calls with the keyword
left at its default return. -/
theorem C78_deprecated_plain (name : String) (y : Val ℝ) (p d T : Option (Val ℝ)) :
    AddsQuality false (mpT_inv E B S name y p d) (.ok []) (mpT_invq E B S name y p d false) ∧
    AddsQuality false (mpD_s E B S y T) (.ok []) (mpD_sq E B S y T false) := by
  have hT := fun kw => C78_quality E B S [] kw false .T _ rfl
  have hD := fun kw => C78_quality E B S [] kw false .d _ rfl
  have lift : ∀ {m : Except Err (List Nan)} {x r}, AddsQuality false m x r → AddsQuality false m (.ok []) r :=
    fun h => ⟨h.1, fun y hy => ⟨(h.2 y hy).1, fun h => by cases h⟩⟩
  constructor
  · rcases p with _ | p
    · rcases d with _ | d
      · exact lift (hT _)
      · exact lift (hT _)
    · exact lift (hT _)
  · rcases T with _ | T
    · exact lift (hD _)
    · exact lift (hD _)

/-- C78, default pressure.  Without pressure and density, and with `quality` not asked for, `T_h` and
`T_s` take the default pressure `def_p()`, if the working pressure unit is the one it is stored in. -/
theorem C78_default_partial (U : Sys) (hU : Uses E U) (hd : E.c.str "def_p_unit" = .ok U.p) (i : Mp.Inv)
    (y : Val ℝ) :
    ∃ p, retOf (defp E.a E.c) = .ok p ∧
      mpT_invq E B S i.name y none none false = mpTq E B S [] [(i.name, y), ("p", p)] false := by
  refine ⟨.scalar E.c.defp, ?_, rfl⟩
  obtain ⟨u, hu, hc, hp⟩ := defp_eq hU
  rw [hd] at hu
  cases hu
  have n : NonZero (pressure E.a) := nonZero_of_mem hU.pos (by simp [allConvs])
  rw [hp, mul_div_cancel_right₀ _ (n _ (lookup_mem (size_lookup hU hc)))]

/-- **C78 disagreement.** `T_h(h, quality=True)` and `T_s(s, quality=True)` without pressure and density
never return the quality that their documentation promises: for every substance, unit system and
argument the result is the temperature alone. -/
theorem C78_quality_dropped_defect (i : Mp.Inv) (y : Val ℝ) :
    (∀ r, mpT_invq E B S i.name y none none true = .ok r → r.quality = none) ∧
    (∀ p r, mpT_invq E B S i.name y (some p) none true = .ok r → ∃ x, r.quality = some x) := by
  constructor
  · intro r h
    have := (C78_quality E B S [] [(i.name, y), ("p", .scalar E.c.defp)] false .T _ rfl)
    cases hT : mpMethod .T E B S [] [(i.name, y), ("p", .scalar E.c.defp)] with
    | error e => 
      have := this.1 e hT
      simp only [mpT_invq] at h
      rw [this] at h; cases h
    | ok ys =>
      have := (this.2 ys hT).1 rfl
      simp only [mpT_invq] at h
      rw [this] at h; cases h; rfl
  · intro p r h
    have := (C78_quality E B S [] [(i.name, y), ("p", p)] true .T _ rfl)
    cases hT : mpMethod .T E B S [] [(i.name, y), ("p", p)] with
    | error e => 
      have := this.1 e hT
      simp only [mpT_invq] at h
      rw [this] at h; cases h
    | ok ys =>
      obtain ⟨xs, -, h2⟩ := (this.2 ys hT).2 rfl
      simp only [mpT_invq] at h
      rw [h2] at h; cases h; exact ⟨_, rfl⟩

end

/-- An inversion that answers 500 K and 202.65 kg/m3. -/
noncomputable def fixedSol : Sol where
  Ts := fun _ => .ok (fun _ => none)
  d := fun _ => .ok (fun _ => some 202.65)
  Tdp := fun _ => .ok (fun _ => some 500)
  Thp := fun _ _ => .ok (fun _ => some 500)
  Thd := fun _ _ => .ok (fun _ => some 500)
  dhT := fun _ _ => .ok (fun _ => none)

/-- A call that shows `C78_quality_dropped_defect`: at the default pressure of 101325 Pa the enthalpy of
the example is answered by 500 K, with `quality=True` and `p` omitted without the quality. -/
example (y : ℝ) : ∃ t, mpT_invq fullEnv gasSub fixedSol "h" (.scalar y) none none true = .ok ⟨[some t], none⟩ := by
  have hmw : gasSub.mw ≠ 0 := gas_good.dome.mw.ne'
  have ep : argKg fullEnv exampleSys gasSub.mw [("h", .scalar y), ("p", .scalar fullEnv.c.defp)] "p"
      = some ⟨[1.01325 * size (pressure fullEnv.a) "bar"], false⟩ := rfl
  obtain ⟨z, hz⟩ : ∃ z, argKg fullEnv exampleSys gasSub.mw [("h", .scalar y), ("p", .scalar fullEnv.c.defp)] "h"
      = some ⟨[z], false⟩ := ⟨_, rfl⟩
  have hr : mpArgparse fullEnv gasSub fixedSol [] [("h", .scalar y), ("p", .scalar fullEnv.c.defp)]
      = .ok { pts := [onePt (some 500) (some 202.65)], callerP := none } := by
    rw [argparse_two fullEnv_uses hmw]
    have r : mpRules [("h", .scalar y), ("p", .scalar fullEnv.c.defp)] = .ok () := by
      simp [mpRules, mpLegal, Kw.has, List.lookup]
    rw [r, exOk, parsed, arg_none (n := "T") rfl, mpRange_none, exOk, ep, size_bar,
      gas_range (by norm_num [gasSub]) (by norm_num [gasSub]), exOk, hz, arg_none (n := "x") rfl,
      arg_none (n := "d") rfl, arg_none (n := "v") rfl, arg_none (n := "e") rfl, arg_none (n := "s") rfl]
    have hb : betweenP gasSub (some (1.01325 * 100000)) = false := by norm_num [betweenP, gasSub]
    simp only [mpQuality, exOk, mpDensity, mpInv, mpSolve, mpSolveInv, mpHP, broadcast, List.length_cons,
      List.length_nil, if_true, List.zip_cons_cons, List.zip_nil_right, askTs, List.any_cons, List.any_nil, hb,
      Bool.or_false, Bool.false_eq_true, if_false, fixedSol, List.mapIdx_cons, List.mapIdx_nil, satHP]
    rfl
  have h := C78_quality fullEnv gasSub fixedSol [] [("h", .scalar y), ("p", .scalar fullEnv.c.defp)] false .T _ rfl
  have hT : mpMethod .T fullEnv gasSub fixedSol [] [("h", .scalar y), ("p", .scalar fullEnv.c.defp)]
      = .ok [some (fromKelvin exampleSys.T.name 500)] := by
    show mpT _ _ _ _ _ = _
    rw [mpT_eq fullEnv_uses hmw, hr]
    rfl
  exact ⟨_, (h.2 _ hT).1 rfl⟩

end PyroMat.Mp.Props
