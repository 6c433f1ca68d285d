import Verif.Gas.PropsIter
import Verif.Gas.Spec

/-!
# Unit conversions inside the ideal-gas methods (lemmas)
-/

set_option linter.unusedSimpArgs false

namespace PyroMat.Gas.Props

open PyroMat PyroMat.Units PyroMat.Units.Spec PyroMat.Units.Props PyroMat.Gas PyroMat.Gas.Spec
open PyroMat.Config.Defaults

/-- A conversion that succeeds on every value, applying `g` and returning the caller's own object
exactly when `b`. -/
def Acts (f : Val ℝ → Except Err (Res ℝ)) (g : ℝ → ℝ) (b : Bool) : Prop :=
  ∀ v, ∃ r, f v = .ok r ∧ r.ret = v.map g ∧ r.isAlias = b

theorem call_none {c : Conv ℝ} {k : String} (hk : c.configDefault = some k) {cfg : Cfg} {u : String}
    (hu : cfg k = .ok u) (v : Val ℝ) (e : Option ℤ) (ip : Bool) (t : String) :
    c.call cfg v none (some t) e ip = c.call cfg v (some u) (some t) e ip ∧
    c.call cfg v (some t) none e ip = c.call cfg v (some t) (some u) e ip := by
  constructor <;> simp [Conv.call, Conv.resolve, hk, hu, bind, Except.bind]

theorem matter_none {a : SetupArgs ℝ} {cfg : Cfg} {u : String} {mw : ℝ}
    (hu : cfg "unit_matter" = .ok u) (v : Val ℝ) (e : Option ℤ) (ip : Bool) (t : String) :
    matter a cfg v mw none (some t) e ip = matter a cfg v mw (some u) (some t) e ip ∧
    matter a cfg v mw (some t) none e ip = matter a cfg v mw (some t) (some u) e ip := by
  constructor <;> simp [matter, hu, bind, Except.bind, pure, Except.pure]

theorem tscale_none {cfg : Cfg} {u : String} (hu : cfg "unit_temperature" = .ok u) (v : Val ℝ)
    (ip : Bool) (t : String) :
    temperatureScale cfg v none (some t) ip = temperatureScale cfg v (some u) (some t) ip ∧
    temperatureScale cfg v (some t) none ip = temperatureScale cfg v (some t) (some u) ip := by
  constructor <;> simp [temperatureScale, hu, bind, Except.bind, pure, Except.pure]

theorem applyOp_alias (f : ℝ → ℝ) (v : Val ℝ) : (applyOp f v false).isAlias = false := by
  simp [applyOp]

theorem call_acts {c : Conv ℝ} (hc : NonZero c) {a b : String} {ta tb : ℝ}
    (ha : c.table.lookup a = some ta) (hb : c.table.lookup b = some tb) (cfg : Cfg)
    (e : Option ℤ) :
    Acts (fun v => c.call cfg v (some a) (some b) e false) (· * powS (ta / tb) e) (a == b) := by
  intro v
  obtain ⟨r, h1, h2⟩ := call_ret hc ha hb cfg v e false
  refine ⟨r, h1, h2, ?_⟩
  have hta : ta ≠ 0 := hc _ (lookup_mem ha)
  have htb : tb ≠ 0 := hc _ (lookup_mem hb)
  by_cases hab : a = b
  · subst hab
    simp [Conv.call, Conv.resolve, bind, Except.bind, pure, Except.pure] at h1
    rw [← h1]; simp [retSame]
  · simp [Conv.call, Conv.resolve, bind, Except.bind, pure, Except.pure, hab, get_of_lookup ha,
      get_of_lookup hb, pyDiv_of_ne htb, powExp_of_ne (div_ne_zero hta htb)] at h1
    rw [← h1]; simp [applyOp_alias, hab]

theorem matter_acts {a : SetupArgs ℝ} (ha : Positive a) {mw : ℝ} (hmw : mw ≠ 0) {f t : String}
    {x y : ℝ} (hf : matterScale a mw f = some x) (ht : matterScale a mw t = some y) (cfg : Cfg)
    (e : Option ℤ) :
    Acts (fun v => matter a cfg v mw (some f) (some t) e false) (· * powS (x / y) e) (f == t) := by
  intro v
  obtain ⟨r, h1, h2⟩ := matter_ret a ha mw hmw f t x y hf ht cfg v e false
  refine ⟨r, h1, h2, ?_⟩
  by_cases hft : f = t
  · subst hft
    simp [matter, bind, Except.bind, pure, Except.pure] at h1
    rw [← h1]; simp [retSame]
  · -- every other path goes through `applyOp`
    have hcall : ∀ (c : Conv ℝ) r, c.call cfg v (some f) (some t) e false = .ok r →
        r.isAlias = false := by
      intro c r h
      simp only [Conv.call, Conv.resolve, bind, Except.bind, pure, Except.pure, hft, if_false] at h
      cases hg : c.get f with
      | error e' => rw [hg] at h; cases h
      | ok y1 =>
        cases hg2 : c.get t with
        | error e' => rw [hg, hg2] at h; cases h
        | ok y2 =>
          rw [hg, hg2] at h
          dsimp only at h
          cases hg3 : pyDiv y1 y2 with
          | error e' => rw [hg3] at h; cases h
          | ok y3 =>
            rw [hg3] at h
            dsimp only at h
            cases hg4 : powExp y3 e with
            | error e' => rw [hg4] at h; cases h
            | ok y4 =>
              rw [hg4] at h; cases h; exact applyOp_alias _ _
    have hbeq : (f == t) = false := by simpa using hft
    rw [hbeq]
    simp only [matter, bind, Except.bind, pure, Except.pure, hft, if_false] at h1
    split at h1
    · split at h1
      · exact hcall _ _ h1
      · cases hg : (mass a).get f with
        | error e' => rw [hg] at h1; cases h1
        | ok y1 =>
          rw [hg] at h1; dsimp only at h1
          cases hg2 : pyDiv y1 mw with
          | error e' => rw [hg2] at h1; cases h1
          | ok y2 =>
            rw [hg2] at h1; dsimp only at h1
            cases hg3 : (molar a).get t with
            | error e' => rw [hg3] at h1; cases h1
            | ok y3 =>
              rw [hg3] at h1; dsimp only at h1
              cases hg4 : pyDiv y2 y3 with
              | error e' => rw [hg4] at h1; cases h1
              | ok y4 =>
                rw [hg4] at h1; dsimp only at h1
                cases hg5 : powExp y4 e with
                | error e' => rw [hg5] at h1; cases h1
                | ok y5 => rw [hg5] at h1; cases h1; exact applyOp_alias _ _
    · split at h1
      · exact hcall _ _ h1
      · cases hg : (molar a).get f with
        | error e' => rw [hg] at h1; cases h1
        | ok y1 =>
          rw [hg] at h1; dsimp only at h1
          cases hg3 : (mass a).get t with
          | error e' => rw [hg3] at h1; cases h1
          | ok y3 =>
            rw [hg3] at h1; dsimp only at h1
            cases hg4 : pyDiv (y1 * mw) y3 with
            | error e' => rw [hg4] at h1; cases h1
            | ok y4 =>
              rw [hg4] at h1; dsimp only at h1
              cases hg5 : powExp y4 e with
              | error e' => rw [hg5] at h1; cases h1
              | ok y5 => rw [hg5] at h1; cases h1; exact applyOp_alias _ _

theorem tscale_acts (s t : Scale) (cfg : Cfg) :
    Acts (fun v => temperatureScale cfg v (some s.name) (some t.name) false)
      (fun x => fromKelvin t.name (toKelvin s.name x)) (s == t) := by
  intro v
  obtain ⟨r, h1, h2⟩ := tscale_ret (K := ℝ) s t cfg v false
  refine ⟨r, h1, h2, ?_⟩
  by_cases h : s = t
  · subst h
    simp [temperatureScale, bind, Except.bind, pure, Except.pure] at h1
    rw [← h1]; simp [retSame]
  · have hne : s.name ≠ t.name := fun e => h (name_inj e)
    have h3 : s.name ≠ "abs" := by cases s <;> simp [Scale.name]
    have h4 : t.name ≠ "abs" := by cases t <;> simp [Scale.name]
    simp [temperatureScale, bind, Except.bind, pure, Except.pure, hne, resolveAbs, h3, h4] at h1
    rw [← h1]; simp [applyOp_alias, h]

theorem convArg_nil (v : Val ℝ) : convArg v [] = .ok ⟨Val.elems v, v.isArr⟩ := rfl

theorem convFold {fs : List (Val ℝ → Except Err (Res ℝ))} : ∀ {gs : List (ℝ → ℝ)} {bs : List Bool}
    (_ : List.Forall₂ (fun f (q : (ℝ → ℝ) × Bool) => Acts f q.1 q.2) fs (gs.zip bs))
    (_ : gs.length = bs.length) (a : Arg),
    fs.foldlM (fun (a : Arg) f => do
      let r ← f (.arr a.xs)
      .ok ⟨Val.elems r.ret, a.own && r.isAlias⟩) a
      = (.ok ⟨a.xs.map (fun x => gs.foldl (fun x g => g x) x), a.own && bs.all id⟩ : Except Err Arg) := by
  induction fs with
  | nil =>
    intro gs bs h hl a
    cases gs with
    | nil => cases bs with
      | nil => simp [pure, Except.pure]
      | cons b bs => simp at hl
    | cons g gs => cases bs with
      | nil => simp at hl
      | cons b bs => cases h
  | cons f fs ih =>
    intro gs bs h hl a
    cases gs with
    | nil => cases h
    | cons g gs => cases bs with
      | nil => simp at hl
      | cons b bs =>
        cases h with
        | cons hf hrest =>
          obtain ⟨r, h1, h2, h3⟩ := hf (.arr a.xs)
          rw [List.foldlM_cons, h1, exOk, exOk, ih hrest (by simpa using hl)]
          simp [h2, h3, Val.elems, Units.Val.map, List.map_map, Function.comp_def, Bool.and_assoc]

section
variable {E : Env} {S : Sys} (hU : Uses E S)
include hU

theorem size_lookup {c : Conv ℝ} {u : String} (h : c.contains u = true) :
    c.table.lookup u = some (size c u) := by
  obtain ⟨x, hx⟩ := contains_iff.mp h
  rw [size, hx]; rfl

theorem msize_lookup (mw : ℝ) : matterScale E.a mw S.m = some (msize E.a mw S.m) := by
  obtain ⟨x, hx⟩ := matterScale_isSome E.a mw S.m hU.valid.m
  rw [msize, hx]; rfl

theorem nz_pressure : NonZero (pressure E.a) := nonZero_of_mem hU.pos (by simp [allConvs])
theorem nz_volume : NonZero (volume : Conv ℝ) := nonZero_of_mem hU.pos (by simp [allConvs])
theorem nz_energy : NonZero (energy : Conv ℝ) := nonZero_of_mem hU.pos (by simp [allConvs])
theorem nz_temperature : NonZero (temperature : Conv ℝ) :=
  nonZero_of_mem hU.pos (by simp [allConvs])

theorem ps_ne : size (pressure E.a) S.p ≠ 0 :=
  nz_pressure hU _ (lookup_mem (size_lookup hU hU.valid.p))
theorem ps_pos : 0 < size (pressure E.a) S.p :=
  C04_factors_positive E.a hU.pos _ (by simp [allConvs]) _ (lookup_mem (size_lookup hU hU.valid.p))
theorem vs_ne : size volume S.v ≠ 0 := nz_volume hU _ (lookup_mem (size_lookup hU hU.valid.v))
theorem es_ne : size energy S.e ≠ 0 := nz_energy hU _ (lookup_mem (size_lookup hU hU.valid.e))
theorem tcontains : (temperature : Conv ℝ).contains S.T.name = true := by
  cases S.T <;> rfl
theorem ts_ne : size temperature S.T.name ≠ 0 :=
  nz_temperature hU _ (lookup_mem (size_lookup hU (tcontains hU)))
theorem ms_ne {mw : ℝ} (hmw : mw ≠ 0) : msize E.a mw S.m ≠ 0 :=
  matterScale_ne E.a hU.pos mw hmw S.m _ (msize_lookup hU mw)

theorem inUnits_internal {mw : ℝ} (hmw : mw ≠ 0) (k : Kind) (x : ℝ) :
    inUnits E.a S mw k (internal E.a S mw k x) = x := by
  have h1 := ps_ne hU
  have h2 := vs_ne hU
  have h3 := es_ne hU
  have h4 := ts_ne hU
  have h5 := ms_ne hU hmw
  cases k <;> simp only [inUnits, internal]
  · exact from_to _ _
  all_goals field_simp

theorem internal_inUnits {mw : ℝ} (hmw : mw ≠ 0) (k : Kind) (x : ℝ) :
    internal E.a S mw k (inUnits E.a S mw k x) = x := by
  have h1 := ps_ne hU
  have h2 := vs_ne hU
  have h3 := es_ne hU
  have h4 := ts_ne hU
  have h5 := ms_ne hU hmw
  cases k <;> simp only [inUnits, internal]
  · exact to_from _ _
  all_goals field_simp

/-- Whether the working units of an argument are already the internal ones. -/
def isInternal (S : Sys) (name : String) : Bool :=
  match name with
  | "T" => S.T == .K
  | "p" => S.p == "Pa"
  | "d" | "v" => S.v == "m3" && S.m == "kmol"
  | "h" | "e" => S.e == "kJ" && S.m == "kmol"
  | "s" => S.e == "kJ" && S.m == "kmol" && S.T == .K
  | _ => true

theorem kJ_lookup : (energy : Conv ℝ).table.lookup "kJ" = some 1000 := rfl

theorem acts_p : Acts (fun v => (pressure E.a).call E.c.str v none (some "Pa") none false)
    (· * size (pressure E.a) S.p) (S.p == "Pa") := by
  have h := call_acts (nz_pressure hU) (size_lookup hU hU.valid.p) (b := "Pa") (tb := 1) rfl E.c.str none
  intro v
  obtain ⟨r, h1, h2, h3⟩ := h v
  refine ⟨r, ?_, ?_, h3⟩
  · beta_reduce
    rw [(call_none (k := "unit_pressure") rfl hU.p v none false "Pa").1]; exact h1
  · rw [h2]; simp [powS]

theorem acts_v (e : Option ℤ) : Acts (fun v => (volume : Conv ℝ).call E.c.str v none (some "m3") e false)
    (· * powS (size volume S.v) e) (S.v == "m3") := by
  have h := call_acts (nz_volume hU) (size_lookup hU hU.valid.v) (b := "m3") (tb := 1 ^ 3) rfl E.c.str e
  intro v
  obtain ⟨r, h1, h2, h3⟩ := h v
  refine ⟨r, ?_, ?_, h3⟩
  · beta_reduce
    rw [(call_none (k := "unit_volume") rfl hU.v v e false "m3").1]; exact h1
  · rw [h2]; simp

theorem acts_e (e : Option ℤ) : Acts (fun v => (energy : Conv ℝ).call E.c.str v none (some "kJ") e false)
    (· * powS (size energy S.e / 1000) e) (S.e == "kJ") := by
  have h := call_acts (nz_energy hU) (size_lookup hU hU.valid.e) (b := "kJ") (tb := 1000) rfl E.c.str e
  intro v
  obtain ⟨r, h1, h2, h3⟩ := h v
  refine ⟨r, ?_, ?_, h3⟩
  · beta_reduce
    rw [(call_none (k := "unit_energy") rfl hU.e v e false "kJ").1]; exact h1
  · rw [h2]

theorem scale_beq (s t : Scale) : (s.name == t.name) = (s == t) := by
  cases s <;> cases t <;> rfl

theorem acts_t (e : Option ℤ) : Acts (fun v => (temperature : Conv ℝ).call E.c.str v none (some "K") e false)
    (· * powS (size temperature S.T.name / 1.8) e) (S.T == .K) := by
  have h := call_acts (nz_temperature hU) (size_lookup hU (tcontains hU)) (b := "K") (tb := 1.8) rfl E.c.str e
  intro v
  obtain ⟨r, h1, h2, h3⟩ := h v
  refine ⟨r, ?_, ?_, ?_⟩
  · beta_reduce
    rw [(call_none (k := "unit_temperature") rfl hU.T v e false "K").1]; exact h1
  · rw [h2]
  · rw [h3]; exact scale_beq hU S.T .K

theorem acts_m {mw : ℝ} (hmw : mw ≠ 0) (e : Option ℤ) :
    Acts (fun v => matter E.a E.c.str v mw none (some "kmol") e false)
    (· * powS (msize E.a mw S.m) e) (S.m == "kmol") := by
  have h := matter_acts hU.pos hmw (msize_lookup hU mw) (t := "kmol") (y := 1) rfl E.c.str e
  intro v
  obtain ⟨r, h1, h2, h3⟩ := h v
  refine ⟨r, ?_, ?_, h3⟩
  · beta_reduce
    rw [(matter_none hU.m v e false "kmol").1]; exact h1
  · rw [h2]; simp

theorem acts_T : Acts (fun v => temperatureScale E.c.str v none (some "K") false)
    (toKelvin S.T.name) (S.T == .K) := by
  have h := tscale_acts S.T .K E.c.str
  intro v
  obtain ⟨r, h1, h2, h3⟩ := h v
  refine ⟨r, ?_, ?_, h3⟩
  · beta_reduce
    rw [(tscale_none hU.T v false "K").1]; exact h1
  · rw [h2]
    exact Units.Val.map_congr (fun x => frK_K _) v

/-- Step 4 of `_argparse` in closed form. -/
theorem convArg_eq {mw : ℝ} (hmw : mw ≠ 0) (v : Val ℝ) {name : String} (hn : name ∈ legal) :
    convArg v (conversions E mw name)
      = .ok ⟨(Val.elems v).map (internal E.a S mw (kindOf name)), v.isArr && isInternal S name⟩ := by
  have h1 := ps_ne hU
  have h2 := vs_ne hU
  have h3 := es_ne hU
  have h4 := ts_ne hU
  have h5 := ms_ne hU hmw
  have fin : ∀ {f g : ℝ → ℝ} {b b' : Bool}, (∀ x, f x = g x) → b = b' →
      (Except.ok ⟨(Val.elems v).map f, b⟩ : Except Err Arg) = .ok ⟨(Val.elems v).map g, b'⟩ := by
    intro f g b b' hfg hb
    rw [funext hfg, hb]
  simp only [legal, List.mem_cons, List.not_mem_nil, or_false] at hn
  unfold convArg
  rcases hn with rfl | rfl | rfl | rfl | rfl | rfl | rfl
  · rw [show conversions E mw "T" = [fun v => temperatureScale E.c.str v none (some "K") false] from rfl,
      convFold (gs := [_]) (bs := [_]) (.cons (acts_T hU) .nil) rfl]
    exact fin (fun x => rfl) (by simp [isInternal])
  · rw [show conversions E mw "p" = [fun v => (pressure E.a).call E.c.str v none (some "Pa") none false] from rfl,
      convFold (gs := [_]) (bs := [_]) (.cons (acts_p hU) .nil) rfl]
    exact fin (fun x => rfl) (by simp [isInternal])
  · rw [show conversions E mw "d" = [fun v => (volume : Conv ℝ).call E.c.str v none (some "m3") (some (-1)) false,
            fun v => matter E.a E.c.str v mw none (some "kmol") none false] from rfl,
      convFold (gs := [_, _]) (bs := [_, _]) (.cons (acts_v hU _) (.cons (acts_m hU hmw _) .nil)) rfl]
    refine fin (fun x => ?_) (by simp [isInternal])
    simp [powS, internal, kindOf]
    field_simp
  · rw [show conversions E mw "v" = [fun v => (volume : Conv ℝ).call E.c.str v none (some "m3") none false,
            fun v => matter E.a E.c.str v mw none (some "kmol") (some (-1)) false] from rfl,
      convFold (gs := [_, _]) (bs := [_, _]) (.cons (acts_v hU _) (.cons (acts_m hU hmw _) .nil)) rfl]
    refine fin (fun x => ?_) (by simp [isInternal])
    simp [powS, internal, kindOf]
    field_simp
  · rw [show conversions E mw "e" = [fun v => (energy : Conv ℝ).call E.c.str v none (some "kJ") none false,
            fun v => matter E.a E.c.str v mw none (some "kmol") (some (-1)) false] from rfl,
      convFold (gs := [_, _]) (bs := [_, _]) (.cons (acts_e hU _) (.cons (acts_m hU hmw _) .nil)) rfl]
    refine fin (fun x => ?_) (by simp [isInternal])
    simp [powS, internal, kindOf]
    field_simp
  · rw [show conversions E mw "h" = [fun v => (energy : Conv ℝ).call E.c.str v none (some "kJ") none false,
            fun v => matter E.a E.c.str v mw none (some "kmol") (some (-1)) false] from rfl,
      convFold (gs := [_, _]) (bs := [_, _]) (.cons (acts_e hU _) (.cons (acts_m hU hmw _) .nil)) rfl]
    refine fin (fun x => ?_) (by simp [isInternal])
    simp [powS, internal, kindOf]
    field_simp
  · rw [show conversions E mw "s" = [fun v => (energy : Conv ℝ).call E.c.str v none (some "kJ") none false,
            fun v => matter E.a E.c.str v mw none (some "kmol") (some (-1)) false,
            fun v => (temperature : Conv ℝ).call E.c.str v none (some "K") (some (-1)) false] from rfl,
      convFold (gs := [_, _, _]) (bs := [_, _, _]) (.cons (acts_e hU _)
      (.cons (acts_m hU hmw _) (.cons (acts_t hU _) .nil))) rfl]
    refine fin (fun x => ?_) (by simp [isInternal, Bool.and_assoc])
    simp [powS, internal, kindOf]
    field_simp

end
end PyroMat.Gas.Props
