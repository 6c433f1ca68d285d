import Verif.Mp.ConvKg
import Verif.Gas.StateLemmas

/-!
# `_argparse` of the multiphase class in closed form (lemmas)
-/

set_option linter.unusedSimpArgs false

namespace PyroMat.Mp.Props

open PyroMat PyroMat.Units PyroMat.Units.Spec PyroMat.Units.Props PyroMat.Gas PyroMat.Gas.Spec
open PyroMat.Gas.Props PyroMat.Mp PyroMat.Mp.Spec PyroMat.Config.Defaults

/-- The keyword `name` in internal units. -/
noncomputable def argKg (E : Env) (U : Sys) (mw : ℝ) (kw : Kw) (name : String) : Option Arg :=
  (kw.lookup name).map (fun v =>
    ⟨(Val.elems v).map (internalKg E.a U mw (kindOf name)), v.isArr && isInternalKg U name⟩)

theorem argKg_isSome (E : Env) (U : Sys) (mw : ℝ) (kw : Kw) (name : String) :
    (argKg E U mw kw name).isSome = kw.has name := by
  simp [argKg, Kw.has]

/-- Steps 4 to 6 in closed form. -/
noncomputable def parsed (E : Env) (U : Sys) (B : Sub) (kw : Kw) : Except Err MStd := do
  let T ← mpRange B.Tlo B.Thi (argKg E U B.mw kw "T")
  let p ← mpRange B.plo B.phi (argKg E U B.mw kw "p")
  mpQuality (argKg E U B.mw kw "x")
  .ok { T, p, d := mpDensity (argKg E U B.mw kw "d") (argKg E U B.mw kw "v"),
        x := argKg E U B.mw kw "x",
        inv := mpInv (argKg E U B.mw kw "e") (argKg E U B.mw kw "h") (argKg E U B.mw kw "s") }

section
variable {E : Env} {U : Sys} (hU : Uses E U)
include hU

theorem mpConvKw_eq {mw : ℝ} (hmw : mw ≠ 0) (kw : Kw) {name : String} (hn : name ∈ mpLegal) :
    mpConvKw E mw kw name = .ok (argKg E U mw kw name) := by
  unfold mpConvKw argKg
  cases kw.lookup name with
  | none => rfl
  | some v => simp only [mpConvArg_eq hU hmw v hn]; rfl

theorem mpConvert_eq {B : Sub} (hmw : B.mw ≠ 0) (kw : Kw) : mpConvert E B kw = parsed E U B kw := by
  unfold mpConvert parsed
  simp only [mpConvKw_eq hU hmw kw (show "T" ∈ mpLegal by simp [mpLegal]),
    mpConvKw_eq hU hmw kw (show "p" ∈ mpLegal by simp [mpLegal]),
    mpConvKw_eq hU hmw kw (show "d" ∈ mpLegal by simp [mpLegal]),
    mpConvKw_eq hU hmw kw (show "v" ∈ mpLegal by simp [mpLegal]),
    mpConvKw_eq hU hmw kw (show "e" ∈ mpLegal by simp [mpLegal]),
    mpConvKw_eq hU hmw kw (show "h" ∈ mpLegal by simp [mpLegal]),
    mpConvKw_eq hU hmw kw (show "x" ∈ mpLegal by simp [mpLegal]),
    mpConvKw_eq hU hmw kw (show "s" ∈ mpLegal by simp [mpLegal]), exOk]

/-- `_argparse` after the positional arguments have their names. -/
noncomputable def afterPos (E : Env) (U : Sys) (B : Sub) (S : Sol) (kw : Kw) : Except Err MOut :=
  applyDefaults E kw >>= fun kw => mpRules kw >>= fun _ => parsed E U B kw >>= mpSolve B S

theorem mpArgparse_eq {B : Sub} (hmw : B.mw ≠ 0) (S : Sol) (varg : List (Val ℝ)) (kw : Kw) :
    mpArgparse E B S varg kw = (bindPos varg kw >>= afterPos E U B S) := by
  unfold mpArgparse afterPos
  simp only [mpConvert_eq hU hmw]

end

/-! ## The range test -/

open Classical in
/-- A number, or NaN when it is out of range. -/
noncomputable def clip (lo hi x : ℝ) : Nan := if x < lo ∨ x > hi then none else some x

theorem clip_of_mem {lo hi x : ℝ} (h1 : lo ≤ x) (h2 : x ≤ hi) : clip lo hi x = some x :=
  if_neg (by rintro (h | h) <;> linarith)

theorem clip_some {lo hi x y : ℝ} (h : clip lo hi x = some y) : y = x ∧ lo ≤ y ∧ y ≤ hi := by
  unfold clip at h
  split at h
  · cases h
  · rename_i hc
    push Not at hc
    cases h
    exact ⟨rfl, hc.1, hc.2⟩

theorem clip_none {lo hi x : ℝ} : clip lo hi x = none ↔ x < lo ∨ x > hi := by
  unfold clip
  split
  · rename_i h; simp only [h]
  · rename_i h; simp only [h, reduceCtorEq]

theorem mpRange_none (lo hi : ℝ) : mpRange lo hi none = .ok none := rfl

theorem mpRange_some {lo hi : ℝ} {a : Arg} (h : ∃ x ∈ a.xs, lo ≤ x ∧ x ≤ hi) :
    mpRange lo hi (some a) = .ok (some ⟨a.xs.map (clip lo hi), a.own⟩) := by
  unfold mpRange
  dsimp only
  rw [if_neg]
  · rfl
  · rw [List.all_eq_true]
    intro hc
    obtain ⟨x, hx, h1, h2⟩ := h
    have := hc x hx
    simp only [decide_eq_true_eq] at this
    rcases this with h | h <;> linarith

theorem mpRange_bad {lo hi : ℝ} {a : Arg} (h : ∀ x ∈ a.xs, x < lo ∨ x > hi) :
    mpRange lo hi (some a) = .error .param := by
  unfold mpRange
  dsimp only
  rw [if_pos]
  rw [List.all_eq_true]
  intro x hx
  simpa using h x hx

theorem mpRange_cases (lo hi : ℝ) (A : Option Arg) :
    mpRange lo hi A = .error .param ∨
    mpRange lo hi A = .ok (A.map (fun a => ⟨a.xs.map (clip lo hi), a.own⟩)) := by
  cases A with
  | none => exact Or.inr rfl
  | some a =>
    by_cases h : ∃ x ∈ a.xs, lo ≤ x ∧ x ≤ hi
    · exact Or.inr (mpRange_some h)
    · left
      apply mpRange_bad
      intro x hx
      push Not at h
      by_cases h1 : x < lo
      · exact Or.inl h1
      · exact Or.inr (h x hx (not_lt.mp h1))

theorem mpQuality_cases (A : Option Arg) :
    (mpQuality A = .error .param ∧ ∃ a, A = some a ∧ ∃ x ∈ a.xs, x > 1 ∨ x < -1) ∨
    (mpQuality A = .ok () ∧ ∀ a, A = some a → ∀ x ∈ a.xs, -1 ≤ x ∧ x ≤ 1) := by
  cases A with
  | none => exact Or.inr ⟨rfl, fun a h => by cases h⟩
  | some a =>
    by_cases h : ∃ x ∈ a.xs, x > 1 ∨ x < -1
    · left
      refine ⟨?_, a, rfl, h⟩
      unfold mpQuality
      dsimp only
      rw [if_pos]
      rw [List.any_eq_true]
      obtain ⟨x, hx, h⟩ := h
      exact ⟨x, hx, by simpa using h⟩
    · right
      refine ⟨?_, ?_⟩
      · unfold mpQuality
        dsimp only
        rw [if_neg]
        rw [List.any_eq_true]
        rintro ⟨x, hx, h2⟩
        exact h ⟨x, hx, by simpa using h2⟩
      · intro a' ha x hx
        cases ha
        push Not at h
        exact ⟨(h x hx).2, (h x hx).1⟩

/-- What steps 4 to 6 leave. -/
structure Parsed (E : Env) (U : Sys) (B : Sub) (kw : Kw) (k : MStd) : Prop where
  T : k.T = (argKg E U B.mw kw "T").map (fun a => ⟨a.xs.map (clip B.Tlo B.Thi), a.own⟩)
  p : k.p = (argKg E U B.mw kw "p").map (fun a => ⟨a.xs.map (clip B.plo B.phi), a.own⟩)
  d : k.d = mpDensity (argKg E U B.mw kw "d") (argKg E U B.mw kw "v")
  x : k.x = argKg E U B.mw kw "x"
  inv : k.inv = mpInv (argKg E U B.mw kw "e") (argKg E U B.mw kw "h") (argKg E U B.mw kw "s")
  quality : ∀ a, k.x = some a → ∀ x ∈ a.xs, -1 ≤ x ∧ x ≤ 1

theorem parsed_cases (E : Env) (U : Sys) (B : Sub) (kw : Kw) :
    parsed E U B kw = .error .param ∨ ∃ k, parsed E U B kw = .ok k ∧ Parsed E U B kw k := by
  unfold parsed
  rcases mpRange_cases B.Tlo B.Thi (argKg E U B.mw kw "T") with h | h
  · left; rw [h, exErr]
  rw [h, exOk]
  rcases mpRange_cases B.plo B.phi (argKg E U B.mw kw "p") with h | h
  · left; rw [h, exErr]
  rw [h, exOk]
  rcases mpQuality_cases (argKg E U B.mw kw "x") with ⟨h, -⟩ | ⟨h, hq⟩
  · left; rw [h, exErr]
  rw [h, exOk]
  exact Or.inr ⟨_, rfl, rfl, rfl, rfl, rfl, rfl, hq⟩

theorem Parsed.T_isSome {E : Env} {U : Sys} {B : Sub} {kw : Kw} {k : MStd} (h : Parsed E U B kw k) :
    k.T.isSome = kw.has "T" := by rw [h.T, Option.isSome_map, argKg_isSome]

theorem Parsed.p_isSome {E : Env} {U : Sys} {B : Sub} {kw : Kw} {k : MStd} (h : Parsed E U B kw k) :
    k.p.isSome = kw.has "p" := by rw [h.p, Option.isSome_map, argKg_isSome]

theorem Parsed.x_isSome {E : Env} {U : Sys} {B : Sub} {kw : Kw} {k : MStd} (h : Parsed E U B kw k) :
    k.x.isSome = kw.has "x" := by rw [h.x, argKg_isSome]

theorem Parsed.d_isSome {E : Env} {U : Sys} {B : Sub} {kw : Kw} {k : MStd} (h : Parsed E U B kw k) :
    k.d.isSome = (kw.has "d" || kw.has "v") := by
  rw [h.d, ← argKg_isSome E U B.mw, ← argKg_isSome E U B.mw]
  unfold mpDensity
  split <;> rename_i hv <;> simp [hv]

theorem Parsed.inv_isSome {E : Env} {U : Sys} {B : Sub} {kw : Kw} {k : MStd} (h : Parsed E U B kw k) :
    k.inv.isSome = (kw.has "e" || kw.has "h" || kw.has "s") := by
  rw [h.inv, ← argKg_isSome E U B.mw, ← argKg_isSome E U B.mw, ← argKg_isSome E U B.mw]
  unfold mpInv
  split <;> simp_all

/-! ## The rules -/

/-- What step 2 checks. -/
structure RulesOk (names : List String) : Prop where
  known : ∀ n ∈ names, n ∈ mpLegal
  few : names.length ≤ 2 ∨ ∀ n ∈ names, n ∈ ["T", "p", "x"]
  one_ehs : ∀ a ∈ names, ∀ b ∈ names, a ∈ ["e", "h", "s"] → b ∈ ["e", "h", "s"] → a = b
  not_dv : ¬ ("d" ∈ names ∧ "v" ∈ names)

theorem filter_le_one {l : List String} (hl : l.Nodup) (kw : Kw) :
    (l.filter (fun k => kw.has k)).length ≤ 1 ↔
      ∀ a ∈ kw.map (·.1), ∀ b ∈ kw.map (·.1), a ∈ l → b ∈ l → a = b := by
  simp only [← has_iff]
  constructor
  · intro h a ha b hb ha' hb'
    have hA : a ∈ l.filter (fun k => kw.has k) := List.mem_filter.mpr ⟨ha', ha⟩
    have hB : b ∈ l.filter (fun k => kw.has k) := List.mem_filter.mpr ⟨hb', hb⟩
    generalize l.filter (fun k => kw.has k) = l at *
    match l, h with
    | [x], _ => simp at hA hB; rw [hA, hB]
    | [], _ => simp at hA
  · intro h
    by_contra hc
    have hnd : (l.filter (fun k => kw.has k)).Nodup := List.Nodup.filter _ hl
    have hall : ∀ a ∈ l.filter (fun k => kw.has k), ∀ b ∈ l.filter (fun k => kw.has k), a = b := by
      intro a ha b hb
      rw [List.mem_filter] at ha hb
      exact h a ha.2 b hb.2 ha.1 hb.1
    generalize l.filter (fun k => kw.has k) = l at *
    match l with
    | [] => simp at hc
    | [x] => simp at hc
    | x :: y :: l =>
      have := hall x (by simp) y (by simp)
      subst this
      simp at hnd

theorem mpRules_cases (kw : Kw) :
    (mpRules kw = .ok () ∧ RulesOk (kw.map (·.1))) ∨
    (mpRules kw = .error .param ∧ ¬ RulesOk (kw.map (·.1))) := by
  unfold mpRules
  by_cases h1 : (kw.length > 2 && kw.any (fun q => !(["T", "p", "x"].contains q.1))) = true
  · rw [if_pos h1]
    refine Or.inr ⟨rfl, fun h => ?_⟩
    simp only [Bool.and_eq_true, decide_eq_true_eq, List.any_eq_true] at h1
    obtain ⟨hl, q, hq, hn⟩ := h1
    rcases h.few with h2 | h2
    · simp at h2; omega
    · have := h2 q.1 (List.mem_map_of_mem hq)
      simp [this] at hn
  rw [if_neg h1]
  have few : (kw.map (·.1)).length ≤ 2 ∨ ∀ n ∈ kw.map (·.1), n ∈ ["T", "p", "x"] := by
    by_cases hl : kw.length > 2
    · right
      intro n hn
      obtain ⟨q, hq, rfl⟩ := List.mem_map.mp hn
      by_contra hc
      apply h1
      simp only [Bool.and_eq_true, decide_eq_true_eq, List.any_eq_true]
      exact ⟨hl, q, hq, by simpa using hc⟩
    · left; simpa using hl
  by_cases h2 : (kw.any (fun q => !mpLegal.contains q.1)) = true
  · rw [if_pos h2]
    refine Or.inr ⟨rfl, fun h => ?_⟩
    rw [List.any_eq_true] at h2
    obtain ⟨q, hq, hq2⟩ := h2
    have := h.known q.1 (List.mem_map_of_mem hq)
    simp [this] at hq2
  rw [if_neg h2]
  have known : ∀ n ∈ kw.map (·.1), n ∈ mpLegal := by
    intro n hn
    obtain ⟨q, hq, rfl⟩ := List.mem_map.mp hn
    by_contra hc
    apply h2
    rw [List.any_eq_true]
    exact ⟨q, hq, by simpa using hc⟩
  have hf := filter_le_one (l := ["e", "h", "s"]) (by decide) kw
  by_cases h3 : (["e", "h", "s"].filter (fun k => kw.has k)).length > 1
  · rw [if_pos h3]
    refine Or.inr ⟨rfl, fun h => ?_⟩
    have := hf.mpr h.one_ehs
    omega
  rw [if_neg h3]
  by_cases h4 : (kw.has "v" && kw.has "d") = true
  · rw [if_pos h4]
    refine Or.inr ⟨rfl, fun h => ?_⟩
    rw [Bool.and_eq_true, has_iff, has_iff] at h4
    exact h.not_dv ⟨h4.2, h4.1⟩
  rw [if_neg h4]
  refine Or.inl ⟨rfl, known, few, hf.mp (by omega), ?_⟩
  rw [Bool.and_eq_true, has_iff, has_iff] at h4
  exact fun h => h4 ⟨h.2, h.1⟩

theorem rulesOk_perm {l l' : List String} (h : l.Perm l') (r : RulesOk l) : RulesOk l' :=
  ⟨fun n hn => r.known n (h.mem_iff.mpr hn),
    r.few.imp (fun hh => h.length_eq ▸ hh) (fun hh n hn => hh n (h.mem_iff.mpr hn)),
    fun a ha b hb => r.one_ehs a (h.mem_iff.mpr ha) b (h.mem_iff.mpr hb),
    fun hh => r.not_dv ⟨h.mem_iff.mpr hh.1, h.mem_iff.mpr hh.2⟩⟩

theorem mpAdmissible_perm {l l' : List String} (h : l.Perm l') : MpAdmissible l ↔ MpAdmissible l' := by
  have key : ∀ {l l' : List String}, l.Perm l' → MpAdmissible l → MpAdmissible l' := by
    rintro l l' h ⟨h1, h2, h3, h4, h5, h6⟩
    have r := rulesOk_perm h ⟨h2, h3, h4, h5⟩
    exact ⟨h.nodup_iff.mp h1, r.known, r.few, r.one_ehs, r.not_dv,
      fun hx b hb => h6 (h.mem_iff.mpr hx) b (h.mem_iff.mpr hb)⟩
  exact ⟨key h, key h.symm⟩

end PyroMat.Mp.Props
