import Verif.Gas.Conv
import Verif.Gas.PropsInner

/-!
# C29: argument checking of the ideal-gas methods
-/

set_option linter.unusedSimpArgs false

namespace PyroMat.Gas.Props

open PyroMat PyroMat.Units PyroMat.Units.Spec PyroMat.Units.Props PyroMat.Gas PyroMat.Gas.Spec
open PyroMat.Config.Defaults

/-- The keyword `name` in internal units. -/
noncomputable def stdArg (E : Env) (S : Sys) (mw : ℝ) (kw : Kw) (name : String) : Option Arg :=
  (kw.lookup name).map (fun v =>
    ⟨(Val.elems v).map (internal E.a S mw (kindOf name)), v.isArr && isInternal S name⟩)

/-- All of them. -/
noncomputable def stdOf (E : Env) (S : Sys) (mw : ℝ) (kw : Kw) : Std where
  T := stdArg E S mw kw "T"
  p := stdArg E S mw kw "p"
  d := stdArg E S mw kw "d"
  v := stdArg E S mw kw "v"
  h := stdArg E S mw kw "h"
  e := stdArg E S mw kw "e"
  s := stdArg E S mw kw "s"

section
variable {E : Env} {S : Sys} (hU : Uses E S)
include hU

theorem convKw_eq {mw : ℝ} (hmw : mw ≠ 0) (kw : Kw) {name : String} (hn : name ∈ legal) :
    convKw E mw kw name = .ok (stdArg E S mw kw name) := by
  unfold convKw stdArg
  cases kw.lookup name with
  | none => rfl
  | some v => simp only [convArg_eq hU hmw v hn]; rfl

theorem convert_eq {mw : ℝ} (hmw : mw ≠ 0) (kw : Kw) :
    convert E mw kw = .ok (stdOf E S mw kw) := by
  unfold convert
  simp only [convKw_eq hU hmw kw (show "T" ∈ legal by simp [legal]),
    convKw_eq hU hmw kw (show "p" ∈ legal by simp [legal]),
    convKw_eq hU hmw kw (show "d" ∈ legal by simp [legal]),
    convKw_eq hU hmw kw (show "v" ∈ legal by simp [legal]),
    convKw_eq hU hmw kw (show "e" ∈ legal by simp [legal]),
    convKw_eq hU hmw kw (show "h" ∈ legal by simp [legal]),
    convKw_eq hU hmw kw (show "s" ∈ legal by simp [legal]), exOk]
  rfl

theorem defT_eq : ∃ s : Scale, E.c.str "def_T_unit" = .ok s.name ∧
    retOf (defT E.c) = .ok (.scalar (fromKelvin S.T.name (toKelvin s.name E.c.defT))) := by
  obtain ⟨s, hs⟩ := hU.defT
  refine ⟨s, hs, ?_⟩
  unfold defT
  rw [hs, exOk, (tscale_none hU.T _ false s.name).2]
  obtain ⟨r, h1, h2⟩ := tscale_ret (K := ℝ) s S.T E.c.str (.scalar E.c.defT) false
  rw [h1]
  simp [retOf, Except.map, h2, Units.Val.map]

theorem defp_eq : ∃ u, E.c.str "def_p_unit" = .ok u ∧ (pressure E.a).contains u = true ∧
    retOf (defp E.a E.c) = .ok (.scalar (E.c.defp * size (pressure E.a) u / size (pressure E.a) S.p)) := by
  obtain ⟨u, hu, hc⟩ := hU.defp
  refine ⟨u, hu, hc, ?_⟩
  unfold defp
  rw [hu, exOk, (call_none (k := "unit_pressure") rfl hU.p _ none false u).2]
  obtain ⟨r, h1, h2⟩ := call_ret (nz_pressure hU) (size_lookup hU hc) (size_lookup hU hU.valid.p)
    E.c.str (.scalar E.c.defp) none false
  rw [h1]
  simp [retOf, Except.map, h2, Units.Val.map, powS, mul_div_assoc]

end

/-! ## Keyword dictionaries -/

theorem lookup_isSome_iff {α : Type} (l : List (String × α)) (k : String) :
    (l.lookup k).isSome = true ↔ k ∈ l.map (·.1) := by
  induction l with
  | nil => simp
  | cons q l ih =>
    rcases q with ⟨j, x⟩
    rw [List.lookup_cons]
    by_cases h : k = j
    · subst h; simp
    · have : (k == j) = false := by simpa using h
      rw [this]
      simp only [List.map_cons, List.mem_cons, h, false_or]
      exact ih

theorem has_iff (kw : Kw) (k : String) : kw.has k = true ↔ k ∈ kw.map (·.1) :=
  lookup_isSome_iff kw k

theorem has_false_iff (kw : Kw) (k : String) : kw.has k = false ↔ k ∉ kw.map (·.1) := by
  rw [← has_iff]; simp

/-- The names left after `checkRules` succeeds. -/
theorem checkRules_ok (kw : Kw) :
    checkRules kw = .ok () ↔
      kw.length ≤ 2 ∧ (∀ n ∈ kw.map (·.1), n ∈ legal) ∧
      (["T", "e", "h"].filter (fun k => kw.has k)).length ≤ 1 ∧
      ¬ (kw.has "v" = true ∧ kw.has "d" = true) := by
  unfold checkRules
  by_cases h1 : kw.length > 2
  · rw [if_pos h1]; simp; intro h; omega
  rw [if_neg h1]
  by_cases h2 : (kw.any (fun q => !legal.contains q.1)) = true
  · rw [if_pos h2]
    simp only [reduceCtorEq, false_iff]
    rintro ⟨-, h, -⟩
    rw [List.any_eq_true] at h2
    obtain ⟨q, hq, hq2⟩ := h2
    have := h q.1 (List.mem_map_of_mem hq)
    simp [this] at hq2
  rw [if_neg h2]
  have h2' : ∀ n ∈ kw.map (·.1), n ∈ legal := by
    intro n hn
    obtain ⟨q, hq, rfl⟩ := List.mem_map.mp hn
    by_contra hc
    apply h2
    rw [List.any_eq_true]
    exact ⟨q, hq, by simpa using hc⟩
  by_cases h3 : (["T", "e", "h"].filter (fun k => kw.has k)).length > 1
  · rw [if_pos h3]
    simp only [reduceCtorEq, false_iff]
    rintro ⟨-, -, h, -⟩
    omega
  rw [if_neg h3]
  by_cases h4 : (kw.has "v" && kw.has "d") = true
  · rw [if_pos h4]
    simp only [reduceCtorEq, false_iff]
    rintro ⟨-, -, -, h⟩
    rw [Bool.and_eq_true] at h4
    exact h h4
  rw [if_neg h4]
  simp only [true_iff]
  refine ⟨by omega, h2', by omega, ?_⟩
  rw [Bool.and_eq_true] at h4
  exact h4

theorem checkRules_cases (kw : Kw) : checkRules kw = .ok () ∨ checkRules kw = .error .param := by
  unfold checkRules
  split
  · exact Or.inr rfl
  split
  · exact Or.inr rfl
  split
  · exact Or.inr rfl
  split
  · exact Or.inr rfl
  exact Or.inl rfl

/-- `checkRules` in terms of the documented rule. -/
theorem checkRules_admissible (kw : Kw) (hn : (kw.map (·.1)).Nodup) :
    checkRules kw = .ok () ↔ Admissible (kw.map (·.1)) := by
  rw [checkRules_ok]
  have hTeh : (["T", "e", "h"].filter (fun k => kw.has k)).length ≤ 1 ↔
      ∀ a ∈ kw.map (·.1), ∀ b ∈ kw.map (·.1), a ∈ ["T", "e", "h"] → b ∈ ["T", "e", "h"] → a = b := by
    simp only [← has_iff]
    constructor
    · intro h a ha b hb ha' hb'
      have hA : a ∈ ["T", "e", "h"].filter (fun k => kw.has k) := List.mem_filter.mpr ⟨ha', ha⟩
      have hB : b ∈ ["T", "e", "h"].filter (fun k => kw.has k) := List.mem_filter.mpr ⟨hb', hb⟩
      generalize ["T", "e", "h"].filter (fun k => kw.has k) = l at *
      match l, h with
      | [x], _ => simp at hA hB; rw [hA, hB]
      | [], _ => simp at hA
    · intro h
      by_contra hc
      have hnd : (["T", "e", "h"].filter (fun k => kw.has k)).Nodup :=
        List.Nodup.filter _ (by decide)
      have hall : ∀ a ∈ ["T", "e", "h"].filter (fun k => kw.has k),
          ∀ b ∈ ["T", "e", "h"].filter (fun k => kw.has k), a = b := by
        intro a ha b hb
        rw [List.mem_filter] at ha hb
        exact h a ha.2 b hb.2 ha.1 hb.1
      generalize ["T", "e", "h"].filter (fun k => kw.has k) = l at *
      match l with
      | [] => simp at hc
      | [x] => simp at hc
      | x :: y :: l =>
        have := hall x (by simp) y (by simp)
        subst this
        simp at hnd
  rw [hTeh]
  constructor
  · rintro ⟨h1, h2, h3, h4⟩
    refine ⟨by simpa using h1, hn, h2, h3, ?_⟩
    rw [has_iff, has_iff] at h4
    exact fun h => h4 ⟨h.2, h.1⟩
  · rintro ⟨h1, _, h2, h3, h4⟩
    refine ⟨by simpa using h1, h2, h3, ?_⟩
    rw [has_iff, has_iff]
    exact fun h => h4 ⟨h.2, h.1⟩

theorem bindPos_ok {varg : List (Val ℝ)} {kw kw' : Kw} (h : bindPos varg kw = .ok kw') :
    varg.length ≤ 2 ∧ (kw'.map (·.1)).Perm (given varg kw) ∧
    ((kw.map (·.1)).Nodup → (kw'.map (·.1)).Nodup) := by
  unfold bindPos at h
  match varg with
  | [] => simp at h; subst h; simp [given]
  | [T] =>
    simp only at h
    split at h
    · cases h
    · rename_i hT
      cases h
      have hT' : "T" ∉ kw.map (·.1) := by
        rw [← has_iff]; simpa using hT
      refine ⟨by simp, by simp [given], fun hn => ?_⟩
      rw [List.map_cons]
      exact List.nodup_cons.mpr ⟨hT', hn⟩
  | [T, p] =>
    simp only at h
    split at h
    · cases h
    · rename_i hT
      split at h
      · cases h
      · rename_i hp
        cases h
        have hT' : "T" ∉ kw.map (·.1) := by rw [← has_iff]; simpa using hT
        have hp' : "p" ∉ kw.map (·.1) := by rw [← has_iff]; simpa using hp
        refine ⟨by simp, ?_, fun hn => ?_⟩
        · simp only [given, List.map_cons, List.length_cons, List.length_nil]
          exact List.Perm.swap _ _ _
        · rw [List.map_cons, List.map_cons, List.nodup_cons, List.nodup_cons]
          refine ⟨?_, hT', hn⟩
          rw [List.mem_cons]
          rintro (h | h)
          · exact absurd h (show ¬ "p" = "T" by decide)
          · exact hp' h
  | _ :: _ :: _ :: _ => cases h

theorem bindPos_error {varg : List (Val ℝ)} {kw : Kw} {e : Err} (h : bindPos varg kw = .error e) :
    e = .param ∧ (¬ varg.length ≤ 2 ∨ ¬ (given varg kw).Nodup) := by
  unfold bindPos at h
  match varg with
  | [] => cases h
  | [T] =>
    simp only at h
    split at h
    · rename_i hT
      cases h
      refine ⟨rfl, Or.inr ?_⟩
      intro hn
      rw [has_iff] at hT
      simp only [given, List.length_cons, List.length_nil] at hn
      exact (List.nodup_cons.mp hn).1 hT
    · cases h
  | [T, p] =>
    simp only at h
    split at h
    · rename_i hT
      cases h
      refine ⟨rfl, Or.inr ?_⟩
      intro hn
      rw [has_iff] at hT
      simp only [given, List.length_cons, List.length_nil] at hn
      exact (List.nodup_cons.mp hn).1 (List.mem_cons_of_mem _ hT)
    · split at h
      · rename_i hp
        cases h
        refine ⟨rfl, Or.inr ?_⟩
        intro hn
        rw [has_iff] at hp
        simp only [given, List.length_cons, List.length_nil] at hn
        exact (List.nodup_cons.mp (List.nodup_cons.mp hn).2).1 hp
      · cases h
  | _ :: _ :: _ :: _ => cases h; exact ⟨rfl, Or.inl (by simp)⟩

theorem admissible_perm {l l' : List String} (h : l.Perm l') : Admissible l ↔ Admissible l' := by
  constructor
  · rintro ⟨h1, h2, h3, h4, h5⟩
    exact ⟨h.length_eq ▸ h1, h.nodup_iff.mp h2, fun n hn => h3 n (h.mem_iff.mpr hn),
      fun a ha b hb => h4 a (h.mem_iff.mpr ha) b (h.mem_iff.mpr hb),
      fun hh => h5 ⟨h.mem_iff.mpr hh.1, h.mem_iff.mpr hh.2⟩⟩
  · rintro ⟨h1, h2, h3, h4, h5⟩
    exact ⟨h.length_eq ▸ h1, h.nodup_iff.mpr h2, fun n hn => h3 n (h.mem_iff.mp hn),
      fun a ha b hb => h4 a (h.mem_iff.mp ha) b (h.mem_iff.mp hb),
      fun hh => h5 ⟨h.mem_iff.mp hh.1, h.mem_iff.mp hh.2⟩⟩

/-- Everything after the argument rules and before the range test. -/
noncomputable def pre (E : Env) (G : Gas) (S : Sys) (kw : Kw) : Except Err State :=
  tempOf G (stdOf E S G.mw kw) >>= fun T => solve E G (stdOf E S G.mw kw) T

/-- What the defaults make of the arguments. -/
noncomputable def completed (E : Env) (kw : Kw) : Except Err Kw := applyDefaults E kw

theorem argparse_eq {E : Env} {S : Sys} (hU : Uses E S) {G : Gas} (hmw : G.mw ≠ 0)
    (varg : List (Val ℝ)) (kw : Kw) :
    argparse E G varg kw = (bindPos varg kw >>= fun kw => applyDefaults E kw >>= fun kw =>
      checkRules kw >>= fun _ => pre E G S kw >>= rangeTest G) := by
  unfold argparse pre
  simp only [convert_eq hU hmw, exOk, bind_assoc]

/-- The names after defaults are applied. -/
theorem applyDefaults_spec {E : Env} {S : Sys} (hU : Uses E S) (kw : Kw) :
    ∃ kw', applyDefaults E kw = .ok kw' ∧
      (kw.length ≥ 2 → kw' = kw) ∧
      (kw.length = 0 → kw'.map (·.1) = ["p", "T"]) ∧
      (∀ q, kw = [q] → kw'.map (·.1) = if q.1 ≠ "T" then ["T", q.1] else ["p", q.1]) := by
  obtain ⟨s, hs, hT⟩ := defT_eq hU
  obtain ⟨u, hu, hc, hp⟩ := defp_eq hU
  match kw with
  | [] => exact ⟨_, by simp only [applyDefaults, hT, hp, exOk]; rfl, by simp, by simp, by simp⟩
  | [q] =>
    by_cases hq : q.1 ≠ "T"
    · refine ⟨_, by simp [applyDefaults, hT, hq, exOk]; rfl, by simp, by simp, ?_⟩
      intro q' hq'; simp at hq'; subst hq'; simp [hq]
    · refine ⟨_, by simp [applyDefaults, hp, hq, exOk]; rfl, by simp, by simp, ?_⟩
      intro q' hq'; simp at hq'; subst hq'; simp [hq]
  | a :: b :: l => exact ⟨_, rfl, by simp, by simp, by simp⟩

/-! ## C29 -/

/-- C29, rejection.  In any valid unit system a call whose arguments break the documented rule -
more than two positional arguments, a property given twice, more than two properties, an unknown
name, two of T, e, h, or both d and v - raises `PMParamError`, whatever the values. -/
theorem C29_rejects (E : Env) (S : Sys) (hU : Uses E S) (G : Gas) (hmw : G.mw ≠ 0)
    (varg : List (Val ℝ)) (kw : Kw) (hkw : (kw.map (·.1)).Nodup)
    (h : ¬ (varg.length ≤ 2 ∧ Admissible (given varg kw))) :
    argparse E G varg kw = .error .param := by
  rw [argparse_eq hU hmw]
  cases hb : bindPos varg kw with
  | error e => rw [exErr, (bindPos_error hb).1]
  | ok kw1 =>
    obtain ⟨h1, h2, h3⟩ := bindPos_ok hb
    have hna : ¬ Admissible (kw1.map (·.1)) := by
      rw [admissible_perm h2]
      exact fun ha => h ⟨h1, ha⟩
    obtain ⟨kw2, e1, e2, e3, e4⟩ := applyDefaults_spec hU kw1
    rw [exOk, e1, exOk]
    have hbad : checkRules kw2 ≠ .ok () := by
      match kw1, hna, e2, e3, e4, h3 with
      | [], hna, _, _, _, _ =>
        exact absurd ⟨by simp, by simp, by simp, by simp, by simp⟩ hna
      | [q], hna, _, _, e4, _ =>
        have hk := e4 q rfl
        intro hok
        have hnd : (kw2.map (·.1)).Nodup := by
          rw [hk]
          split
          · rename_i hq; simpa using Ne.symm hq
          · rename_i hq
            have : q.1 = "T" := by simpa using hq
            rw [this]; decide
        rw [checkRules_admissible _ hnd, hk] at hok
        apply hna
        have hq : q.1 ∈ ["T", "p", "d", "v", "e", "h", "s"] := by
          apply hok.known
          split <;> simp
        refine ⟨by simp, by simp, ?_, ?_, ?_⟩
        · intro n hn; simp at hn; subst hn; exact hq
        · intro a ha b hb _ _
          simp at ha hb; rw [ha, hb]
        · rintro ⟨ha, hb⟩; simp at ha hb; rw [← ha] at hb; exact absurd hb (by decide)
      | a :: b :: l, hna, e2, _, _, h3 =>
        rw [e2 (by simp)]
        intro hok
        rw [checkRules_admissible _ (h3 hkw)] at hok
        exact hna hok
    rcases checkRules_cases kw2 with hc | hc
    · exact absurd hc hbad
    · rw [hc, exErr]

/-- C29 fails for a single energy or enthalpy: `cp(h=...)` follows the documented rule (one
property, the other defaulted) but is always rejected, because the default added is a
temperature. -/
theorem C29_single_energy_defect (E : Env) (S : Sys) (hU : Uses E S) (G : Gas) (hmw : G.mw ≠ 0)
    (k : String) (hk : k = "e" ∨ k = "h") (v : Val ℝ) :
    Admissible (given [] [(k, v)]) ∧ argparse E G [] [(k, v)] = .error .param := by
  constructor
  · rcases hk with rfl | rfl <;>
    exact ⟨by simp [given], by simp [given], by simp [given], by simp [given], by simp [given]⟩
  · rw [argparse_eq hU hmw]
    obtain ⟨kw2, e1, e2, e3, e4⟩ := applyDefaults_spec hU [(k, v)]
    have hk' := e4 _ rfl
    simp only [bindPos, exOk, e1]
    rcases checkRules_cases kw2 with hc | hc
    · exfalso
      have hnd : (kw2.map (·.1)).Nodup := by
        rw [hk']; rcases hk with rfl | rfl <;> simp
      rw [checkRules_admissible _ hnd, hk'] at hc
      have := hc.one_of_Teh "T" (by rcases hk with rfl | rfl <;> simp) k
        (by rcases hk with rfl | rfl <;> simp) (by simp) (by rcases hk with rfl | rfl <;> simp)
      rcases hk with rfl | rfl <;> exact absurd this (by decide)
    · rw [hc, exErr]

theorem broadcast_error {α β : Type} {xs : List α} {ys : List β} {e : Err}
    (h : broadcast xs ys = .error e) : e = .value := by
  unfold broadcast at h
  split at h
  · cases h
  · split at h <;> cases h
    rfl

theorem iter1_error {fy : List ((ℝ → Option (ℝ × ℝ)) × ℝ)} {x0 xmin xmax ep : ℝ} {Nmax : Nat}
    {e : Err} (h : iter1 fy x0 xmin xmax ep Nmax = .error e) : e = .analysis :=
  ((C35_elementwise fy x0 xmin xmax ep Nmax).1 e h).1

theorem tempOf_error {G : Gas} {k : Std} {e : Err} (h : tempOf G k = .error e) : e = .analysis := by
  unfold tempOf at h
  split at h
  · rename_i a _
    cases hi : iter1 (a.xs.map (fun y => (G.e, y))) (0.5 * (G.Tlo + G.Thi)) G.Tlo G.Thi with
    | error e' => rw [hi, exErr] at h; cases h; exact iter1_error hi
    | ok r => rw [hi, exOk] at h; cases h
  · split at h
    · rename_i a _
      cases hi : iter1 (a.xs.map (fun y => (G.h, y))) (0.5 * (G.Tlo + G.Thi)) G.Tlo G.Thi with
      | error e' => rw [hi, exErr] at h; cases h; exact iter1_error hi
      | ok r => rw [hi, exOk] at h; cases h
    · cases h

theorem bind_error {α β : Type} {m : Except Err α} {f : α → Except Err β} {e : Err}
    (h : (m >>= f) = .error e) : m = .error e ∨ ∃ x, m = .ok x ∧ f x = .error e := by
  cases m with
  | error e' => rw [exErr] at h; cases h; exact Or.inl rfl
  | ok x => exact Or.inr ⟨x, rfl, h⟩

/-- The case split fails with a parameter error only when it has not got a pair it can use. -/
theorem solve_error {E : Env} {G : Gas} {k : Std} {T : Option TArg} {e : Err}
    (hok : (k.s.isSome ∧ ((densityOf k).isSome ∨ k.p.isSome ∨ T.isSome)) ∨
      (T.isSome ∧ (k.p.isSome ∨ (densityOf k).isSome)) ∨ (k.p.isSome ∧ (densityOf k).isSome))
    (h : solve E G k T = .error e) : e = .value ∨ e = .analysis := by
  unfold solve at h
  dsimp only at h
  have hb : ∀ {α β γ : Type} {xs : List α} {ys : List β} {f : List α × List β → Except Err γ},
      (broadcast xs ys >>= f) = .error e → (∀ q, f q = .error e → e = .value ∨ e = .analysis) →
      e = .value ∨ e = .analysis := by
    intro α β γ xs ys f h1 h2
    rcases bind_error h1 with h3 | ⟨x, -, h3⟩
    · exact Or.inl (broadcast_error h3)
    · exact h2 _ h3
  have hi : ∀ {γ : Type} {fy x0} {f : _ → Except Err γ},
      (iter1 fy x0 G.Tlo G.Thi >>= f) = .error e → (∀ q, f q ≠ .error e) → e = .value ∨ e = .analysis := by
    intro γ fy x0 f h1 h2
    rcases bind_error h1 with h3 | ⟨x, -, h3⟩
    · exact Or.inr (iter1_error h3)
    · exact absurd h3 (h2 _)
  split at h
  · split at h
    · exact hb h (fun q hq => hi hq (fun _ hh => by cases hh))
    · split at h
      · refine hb h (fun q hq => ?_)
        rename_i s _ _ _ p _
        rcases bind_error hq with h3 | ⟨x, -, h3⟩
        · unfold adjustS at h3
          refine hb h3 (fun q hq => ?_)
          dsimp only at hq
          split at hq
          · split at hq <;> cases hq
          · cases hq
        · exact hi h3 (fun _ hh => by cases hh)
      · split at h
        · exact hb h (fun q hq => by cases hq)
        · simp_all
  · split at h
    · split at h
      · exact hb h (fun q hq => by cases hq)
      · split at h
        · exact hb h (fun q hq => by cases hq)
        · simp_all
    · split at h
      · split at h
        · exact hb h (fun q hq => by cases hq)
        · simp_all
      · simp_all

/-- Which quantities the case split finds, by the names given. -/
theorem presence {E : Env} {G : Gas} {S : Sys} {a b : String} {va vb : Val ℝ} {T : Option TArg}
    (hT : tempOf G (stdOf E S G.mw [(a, va), (b, vb)]) = .ok T) :
    (stdOf E S G.mw [(a, va), (b, vb)]).s.isSome = ((a == "s") || (b == "s")) ∧
    (densityOf (stdOf E S G.mw [(a, va), (b, vb)])).isSome
        = ((a == "d") || (b == "d") || (a == "v") || (b == "v")) ∧
    (stdOf E S G.mw [(a, va), (b, vb)]).p.isSome = ((a == "p") || (b == "p")) ∧
    T.isSome = ((a == "T") || (b == "T") || (a == "e") || (b == "e") || (a == "h") || (b == "h")) := by
  have hTs : T.isSome = ((a == "T") || (b == "T") || (a == "e") || (b == "e") || (a == "h") || (b == "h")) := by
    unfold tempOf at hT
    cases he : (stdOf E S G.mw [(a, va), (b, vb)]).e with
    | some x =>
      rw [he] at hT
      simp only at hT
      have hab' : ((a == "e") || (b == "e")) = true := by
        by_contra hc
        simp only [Bool.or_eq_true, beq_iff_eq, not_or] at hc
        have h1 : ("e" == a) = false := by simpa using Ne.symm hc.1
        have h2 : ("e" == b) = false := by simpa using Ne.symm hc.2
        simp [stdOf, stdArg, List.lookup_cons, h1, h2] at he
      cases hi : iter1 (x.xs.map (fun y => (G.e, y))) (0.5 * (G.Tlo + G.Thi)) G.Tlo G.Thi with
      | error e' => rw [hi, exErr] at hT; cases hT
      | ok r =>
        rw [hi, exOk] at hT; cases hT
        simp only [Option.isSome_some]
        rcases (Bool.or_eq_true _ _).mp hab' with h | h <;> simp [h]
    | none =>
      rw [he] at hT
      simp only at hT
      have hne : ((a == "e") || (b == "e")) = false := by
        by_contra hc
        simp only [Bool.not_eq_false, Bool.or_eq_true, beq_iff_eq] at hc
        have : ((([(a, va), (b, vb)] : Kw).lookup "e").isSome) = true := by
          rw [lookup_isSome_iff]; rcases hc with h | h <;> simp [h]
        simp only [stdOf, stdArg, Option.map_eq_none_iff] at he
        rw [he] at this; cases this
      cases hh : (stdOf E S G.mw [(a, va), (b, vb)]).h with
      | some x =>
        rw [hh] at hT
        simp only at hT
        have hab' : ((a == "h") || (b == "h")) = true := by
          by_contra hc
          simp only [Bool.or_eq_true, beq_iff_eq, not_or] at hc
          have h1 : ("h" == a) = false := by simpa using Ne.symm hc.1
          have h2 : ("h" == b) = false := by simpa using Ne.symm hc.2
          simp [stdOf, stdArg, List.lookup_cons, h1, h2] at hh
        cases hi : iter1 (x.xs.map (fun y => (G.h, y))) (0.5 * (G.Tlo + G.Thi)) G.Tlo G.Thi with
        | error e' => rw [hi, exErr] at hT; cases hT
        | ok r =>
          rw [hi, exOk] at hT; cases hT
          simp only [Option.isSome_some]
          rcases (Bool.or_eq_true _ _).mp hab' with h | h <;> simp [h]
      | none =>
        rw [hh] at hT
        simp only [Except.ok.injEq] at hT
        have hnh : ((a == "h") || (b == "h")) = false := by
          by_contra hc
          simp only [Bool.not_eq_false, Bool.or_eq_true, beq_iff_eq] at hc
          have : ((([(a, va), (b, vb)] : Kw).lookup "h").isSome) = true := by
            rw [lookup_isSome_iff]; rcases hc with h | h <;> simp [h]
          simp only [stdOf, stdArg, Option.map_eq_none_iff] at hh
          rw [hh] at this; cases this
        rw [Bool.or_eq_false_iff] at hne hnh
        rw [hne.1, hne.2, hnh.1, hnh.2, ← hT, Bool.eq_iff_iff]
        simp only [stdOf, stdArg, Option.isSome_map, lookup_isSome_iff]
        simp only [List.map_cons, List.map_nil, List.mem_cons, List.not_mem_nil, or_false, Bool.or_false, Bool.or_eq_true, beq_iff_eq, @eq_comm _ "T"]
  have hP : ∀ n, (stdArg E S G.mw [(a, va), (b, vb)] n).isSome = ((a == n) || (b == n)) := by
    intro n
    rw [Bool.eq_iff_iff]
    simp only [stdArg, Option.isSome_map, lookup_isSome_iff]
    simp only [List.map_cons, List.map_nil, List.mem_cons, List.not_mem_nil, or_false, Bool.or_false, Bool.or_eq_true, beq_iff_eq, @eq_comm _ n]
  have hD : (densityOf (stdOf E S G.mw [(a, va), (b, vb)])).isSome
      = ((a == "d") || (b == "d") || (a == "v") || (b == "v")) := by
    unfold densityOf
    have hv := hP "v"
    have hd := hP "d"
    cases hx : (stdOf E S G.mw [(a, va), (b, vb)]).v with
    | some x =>
      have : (stdArg E S G.mw [(a, va), (b, vb)] "v").isSome = true := by
        have : stdArg E S G.mw [(a, va), (b, vb)] "v" = some x := hx
        rw [this]; rfl
      rw [this] at hv
      simp only [Option.isSome_some]
      rcases (Bool.or_eq_true _ _).mp hv.symm with h | h <;> simp [h]
    | none =>
      have : (stdArg E S G.mw [(a, va), (b, vb)] "v").isSome = false := by
        have : stdArg E S G.mw [(a, va), (b, vb)] "v" = none := hx
        rw [this]; rfl
      rw [this] at hv
      rw [eq_comm, Bool.or_eq_false_iff] at hv
      rw [hv.1, hv.2]
      simp only [Bool.or_false]
      exact hd
  have hS : (stdOf E S G.mw [(a, va), (b, vb)]).s.isSome = ((a == "s") || (b == "s")) := hP "s"
  have hpp : (stdOf E S G.mw [(a, va), (b, vb)]).p.isSome = ((a == "p") || (b == "p")) := hP "p"
  exact ⟨hS, hD, hpp, hTs⟩

theorem pre_error {E : Env} {G : Gas} {S : Sys} {a b : String} {va vb : Val ℝ}
    (hadm : Admissible [a, b]) {e : Err} (h : pre E G S [(a, va), (b, vb)] = .error e) :
    e = .value ∨ e = .analysis := by
  unfold pre at h
  rcases bind_error h with h1 | ⟨T, hT, h1⟩
  · exact Or.inr (tempOf_error h1)
  · refine solve_error ?_ h1
    have ha := hadm.known a (by simp)
    have hb := hadm.known b (by simp)
    have hab : a ≠ b := by simpa using hadm.distinct
    have hdv := hadm.not_dv
    have hTeh := hadm.one_of_Teh a (by simp) b (by simp)
    obtain ⟨hS, hD, hpp, hTs⟩ := presence hT
    rw [hS, hD, hpp, hTs]
    simp only [List.mem_cons, List.not_mem_nil, or_false] at ha hb
    rcases ha with rfl | rfl | rfl | rfl | rfl | rfl | rfl <;>
      rcases hb with rfl | rfl | rfl | rfl | rfl | rfl | rfl <;>
      first
        | exact absurd rfl hab
        | (simp; done)
        | (exfalso; revert hTeh; decide)
        | (exfalso; revert hdv; decide)

/-- C29, acceptance.  A call that follows the documented rule (and is not a single e or h) gets
past the argument checks: its outcome is that of a computation which never raises a parameter
error (only a broadcasting error or a failed inversion), followed by the temperature range test. -/
theorem C29_accepts (E : Env) (S : Sys) (hU : Uses E S) (G : Gas) (hmw : G.mw ≠ 0)
    (varg : List (Val ℝ)) (kw : Kw) (hkw : (kw.map (·.1)).Nodup) (hlen : varg.length ≤ 2)
    (h : Admissible (given varg kw)) (hne : given varg kw ≠ ["e"]) (hnh : given varg kw ≠ ["h"]) :
    ∃ compute : Except Err State, argparse E G varg kw = (compute >>= rangeTest G) ∧
      ∀ e, compute = .error e → e = .value ∨ e = .analysis := by
  rw [argparse_eq hU hmw]
  cases hb : bindPos varg kw with
  | error e =>
    rcases (bindPos_error hb).2 with h1 | h1
    · exact absurd hlen h1
    · exact absurd h.distinct h1
  | ok kw1 =>
    obtain ⟨h1, h2, h3⟩ := bindPos_ok hb
    have hadm1 := (admissible_perm h2).mpr h
    obtain ⟨kw2, e1, e2, e3, e4⟩ := applyDefaults_spec hU kw1
    rw [exOk, e1, exOk]
    have hadm2 : Admissible (kw2.map (·.1)) ∧ (kw2.map (·.1)).length = 2 := by
      match kw1, hadm1, e2, e3, e4, h3, h2 with
      | [], _, _, e3, _, _, _ =>
        rw [e3 rfl]
        exact ⟨⟨by simp, by simp, by simp, by simp, by simp⟩, rfl⟩
      | [q], ha, _, _, e4, _, hperm =>
        rw [e4 q rfl]
        have hq := ha.known q.1 (by simp)
        have hgiven : given varg kw = [q.1] := by
          have := hperm.symm
          simpa using List.perm_singleton.mp this
        rw [hgiven] at hne hnh
        simp only [List.mem_cons, List.not_mem_nil, or_false] at hq
        rcases hq with hq | hq | hq | hq | hq | hq | hq <;> rw [hq]
        · exact ⟨⟨by simp, by simp, by simp, by simp, by simp⟩, rfl⟩
        · exact ⟨⟨by simp, by simp, by simp, by simp, by simp⟩, rfl⟩
        · exact ⟨⟨by simp, by simp, by simp, by simp, by simp⟩, rfl⟩
        · exact ⟨⟨by simp, by simp, by simp, by simp, by simp⟩, rfl⟩
        · exact absurd (by rw [hq]) hne
        · exact absurd (by rw [hq]) hnh
        · exact ⟨⟨by simp, by simp, by simp, by simp, by simp⟩, rfl⟩
      | a :: b :: l, ha, e2, _, _, _, _ =>
        rw [e2 (by simp)]
        refine ⟨ha, ?_⟩
        have := ha.two
        simp at this ⊢
        omega
    refine ⟨pre E G S kw2, ?_, ?_⟩
    · rw [(checkRules_admissible kw2 hadm2.1.distinct).mpr hadm2.1, exOk]
    · match kw2, hadm2 with
      | [(a, va), (b, vb)], hadm2 => exact fun e he => pre_error hadm2.1 he
      | [], hadm2 => simp at hadm2
      | [_], hadm2 => simp at hadm2
      | _ :: _ :: _ :: _, hadm2 => simp at hadm2

theorem lookup_perm {α : Type} {l l' : List (String × α)} (hp : l.Perm l')
    (hn : (l.map (·.1)).Nodup) (k : String) : l.lookup k = l'.lookup k := by
  induction hp with
  | nil => rfl
  | cons x hp ih =>
    rcases x with ⟨j, x⟩
    rw [List.lookup_cons, List.lookup_cons]
    rw [List.map_cons, List.nodup_cons] at hn
    rw [ih hn.2]
  | swap x y l =>
    rcases x with ⟨j, x⟩
    rcases y with ⟨i, y⟩
    simp only [List.lookup_cons]
    simp only [List.map_cons, List.nodup_cons, List.mem_cons, not_or] at hn
    by_cases h1 : k = i
    · by_cases h2 : k = j
      · exact absurd (h1.symm.trans h2) hn.1.1
      · have : (k == j) = false := by simpa using h2
        simp [h1, this]
        have : (i == j) = false := by rw [← h1]; simpa using h2
        rw [this]
    · have : (k == i) = false := by simpa using h1
      rw [this]
  | trans h1 h2 ih1 ih2 =>
    rw [ih1 hn, ih2 ((h1.map _).nodup_iff.mp hn)]

/-- C29, order.  The order in which keywords are written does not matter. -/
theorem C29_keyword_order (E : Env) (G : Gas) (varg : List (Val ℝ)) (kw kw' : Kw)
    (hp : kw.Perm kw') (hn : (kw.map (·.1)).Nodup) :
    argparse E G varg kw = argparse E G varg kw' := by
  -- the later stages depend on lookups, the length and the set of names only
  have tail : ∀ kw kw' : Kw, kw.Perm kw' → (kw.map (·.1)).Nodup →
      (applyDefaults E kw >>= fun kw => checkRules kw >>= fun _ => convert E G.mw kw >>= fun k =>
        tempOf G k >>= fun T => solve E G k T >>= rangeTest G)
      = (applyDefaults E kw' >>= fun kw => checkRules kw >>= fun _ => convert E G.mw kw >>= fun k =>
        tempOf G k >>= fun T => solve E G k T >>= rangeTest G) := by
    intro kw kw' hp hn
    match kw, kw', hp, hn with
    | [], kw', hp, _ => rw [List.nil_perm.mp hp]
    | [q], kw', hp, _ => rw [List.singleton_perm.mp hp]
    | a :: b :: l, kw', hp, hn =>
      have hlen := hp.length_eq
      match kw', hp, hlen with
      | [], _, hlen => simp at hlen
      | [_], _, hlen => simp at hlen
      | a' :: b' :: l', hp, hlen =>
        simp only [applyDefaults, exOk]
        have hhas : ∀ k, Kw.has (a :: b :: l) k = Kw.has (a' :: b' :: l') k := by
          intro k; unfold Kw.has; rw [lookup_perm hp hn]
        have hc : checkRules (a :: b :: l) = checkRules (a' :: b' :: l') := by
          unfold checkRules
          simp only [hhas, hlen]
          have : (a :: b :: l).any (fun q => !legal.contains q.1)
              = (a' :: b' :: l').any (fun q => !legal.contains q.1) := by
            rw [Bool.eq_iff_iff, List.any_eq_true, List.any_eq_true]
            constructor
            · rintro ⟨x, hx, h⟩; exact ⟨x, hp.mem_iff.mp hx, h⟩
            · rintro ⟨x, hx, h⟩; exact ⟨x, hp.mem_iff.mpr hx, h⟩
          rw [this]
        have hcv : convert E G.mw (a :: b :: l) = convert E G.mw (a' :: b' :: l') := by
          unfold convert convKw
          simp only [lookup_perm hp hn]
        rw [hc, hcv]
  have hhas : ∀ k, Kw.has kw k = Kw.has kw' k := by
    intro k; unfold Kw.has; rw [lookup_perm hp hn]
  unfold argparse
  match varg with
  | [] => simp only [bindPos, exOk]; exact tail kw kw' hp hn
  | [T] =>
    simp only [bindPos, hhas]
    split
    · rfl
    · rename_i h
      simp only [exOk]
      refine tail _ _ (hp.cons _) ?_
      rw [List.map_cons, List.nodup_cons]
      refine ⟨?_, hn⟩
      rw [← has_iff, hhas]; simpa using h
  | [T, p] =>
    simp only [bindPos, hhas]
    split
    · rfl
    · rename_i h
      split
      · rfl
      · rename_i h'
        simp only [exOk]
        refine tail _ _ ((hp.cons _).cons _) ?_
        rw [List.map_cons, List.map_cons, List.nodup_cons, List.nodup_cons, List.mem_cons]
        refine ⟨?_, ?_, hn⟩
        · rintro (h2 | h2)
          · exact absurd h2 (show ¬ "p" = "T" by decide)
          · rw [← has_iff, hhas] at h2; exact h' h2
        · rw [← has_iff, hhas]; simpa using h
  | _ :: _ :: _ :: _ => rfl

/-- The shipped unit system meets the hypotheses, with a call `d(T=..., s=...)`. -/
noncomputable def exampleEnv : Env where
  a := SetupArgs.default
  c := { defT := 298.15, defp := 1.01325, str := fun k => match k with
    | "unit_temperature" => .ok "K" | "unit_pressure" => .ok "bar" | "unit_volume" => .ok "m3"
    | "unit_energy" => .ok "kJ" | "unit_matter" => .ok "kg" | "def_T_unit" => .ok "K"
    | "def_p_unit" => .ok "bar" | _ => .error .param }
  cell := fun _ ws => ws.getLastD 0

def exampleSys : Sys := ⟨.K, "bar", "m3", "kJ", "kg"⟩

theorem exampleEnv_uses : Uses exampleEnv exampleSys where
  pos := by constructor <;> norm_num [exampleEnv, SetupArgs.default]
  valid := ⟨rfl, rfl, rfl, Or.inl rfl⟩
  T := rfl
  p := rfl
  v := rfl
  e := rfl
  m := rfl
  defT := ⟨.K, rfl⟩
  defp := ⟨"bar", rfl, rfl⟩

example : Admissible (given [] [("s", .scalar 7), ("T", .scalar 300)]) ∧
    ¬ Admissible (given [.scalar 300] [("h", .scalar 300)]) ∧
    (ig exampleData).mw ≠ 0 := by
  refine ⟨⟨by simp [given], by simp [given], by simp [given], by simp [given], by simp [given]⟩, ?_, ?_⟩
  · intro h
    have := h.one_of_Teh "T" (by simp [given]) "h" (by simp [given]) (by simp) (by simp)
    exact absurd this (by decide)
  · norm_num [ig, exampleData]

end PyroMat.Gas.Props
