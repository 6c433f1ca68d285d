import Verif.Mp.Hybrid
import Mathlib.Topology.Order.IntermediateValue
import Mathlib.Topology.Algebra.Order.LiminfLimsup
import Mathlib.Tactic.Linarith
import Mathlib.Tactic.NormNum
import Mathlib.Tactic.FieldSimp
import Mathlib.Tactic.Ring
import Mathlib.Logic.Function.Iterate
import Mathlib.Topology.Instances.Real.Lemmas

/-!
# The bracketed solver (C52, C53)
-/

set_option linter.unusedSimpArgs false

namespace PyroMat.Mp.Props

open PyroMat PyroMat.Mp

/-! ### The loop, element by element -/

theorem hstep_inactive (P : Prob) (ep : ℝ) (s : HSt) (h : s.active = false) : hstep P ep s = s := by
  unfold hstep; simp [h]

theorem hloop_eq (ep : ℝ) : ∀ (n : Nat) (l : List (Prob × HSt)),
    hloop ep n l = (l.map (fun e => (e.1, (hstep e.1 ep)^[n] e.2)),
      (l.map (fun e => (e.1, (hstep e.1 ep)^[n] e.2))).any (·.2.active)) := by
  intro n
  induction n with
  | zero => intro l; simp [hloop]
  | succ n ih =>
    intro l
    unfold hloop
    by_cases h : l.any (·.2.active) = true
    · rw [if_pos h, ih, List.map_map]
      rfl
    · rw [if_neg h]
      have h' : ∀ e ∈ l, e.2.active = false := by
        intro e he
        by_contra hc
        exact h (List.any_eq_true.mpr ⟨e, he, by simpa using hc⟩)
      have fixed : ∀ e ∈ l, (hstep e.1 ep)^[n + 1] e.2 = e.2 := fun e he =>
        Function.iterate_fixed (hstep_inactive e.1 ep e.2 (h' e he)) _
      have e1 : l.map (fun e => (e.1, (hstep e.1 ep)^[n + 1] e.2)) = l := by
        conv_rhs => rw [← List.map_id l]
        refine List.map_congr_left (fun e he => ?_)
        rw [fixed e he]; rfl
      rw [e1]
      simpa using h

/-- The state in which the loop leaves an element. -/
noncomputable def final (ep : ℝ) (Nmax : Nat) (e : HIn) : HSt :=
  (hstep e.P ep)^[Nmax + 1] (hinit e).2

theorem hinit_fst (e : HIn) : (hinit e).1 = e.P := by
  unfold hinit; split_ifs <;> rfl

theorem hybrid1_ok {ep : ℝ} {Nmax : Nat} {l : List HIn} {xs : List (Option ℝ)} {w : Bool}
    (h : hybrid1 ep Nmax l = .ok (xs, w)) :
    xs = l.map (fun e => (final ep Nmax e).x) ∧ w = (l.map (final ep Nmax)).any (·.active) ∧
    ¬ (l.any (·.ids) = true ∧ ∀ e ∈ l, e.ids = true → unbracketed e.P e.xmin e.xmax) := by
  unfold hybrid1 at h
  split_ifs at h with hc
  simp only [hloop_eq, Except.ok.injEq, Prod.mk.injEq, List.map_map] at h
  refine ⟨?_, ?_, hc⟩
  · rw [← h.1]
    refine List.map_congr_left (fun e _ => ?_)
    simp only [Function.comp_apply, hinit_fst]
    rfl
  · rw [← h.2]
    simp only [List.any_map]
    congr 1
    funext e
    simp only [Function.comp_apply, hinit_fst]
    rfl

/-! ### The invariant -/

/-- The values at the limits lie on both sides of the target. -/
def Sides (P : Prob) (s : HSt) : Prop :=
  if s.swap then P.y ≤ P.f s.xmin ∧ P.f s.xmax ≤ P.y else P.f s.xmin ≤ P.y ∧ P.y ≤ P.f s.xmax

structure Inv (P : Prob) (lo hi : ℝ) (s : HSt) : Prop where
  lo : lo ≤ s.xmin
  ord : s.xmin ≤ s.xmax
  hi : s.xmax ≤ hi
  mid : s.xc = 1 / 2 * (s.xmin + s.xmax)
  sides : Sides P s

theorem not_oob_fin {s : HSt} {r : ℝ} (h : ¬ oob s (.fin r)) : s.xmin ≤ r ∧ r ≤ s.xmax := by
  unfold oob Cand.lt at h
  push Not at h
  exact h

theorem guess_mem {P : Prob} {lo hi : ℝ} {s : HSt} (hI : Inv P lo hi s) {x : ℝ} (h : guess s = .fin x) :
    s.xmin ≤ x ∧ x ≤ s.xmax := by
  have hc : s.xmin ≤ s.xc ∧ s.xc ≤ s.xmax := by
    have := hI.ord
    rw [hI.mid]; constructor <;> linarith
  unfold guess at h
  by_cases hb : oob s s.xb
  · rw [if_pos hb] at h; cases h; exact hc
  rw [if_neg hb] at h
  by_cases ha : oob s s.xa
  · rw [if_pos ha] at h; cases h; exact hc
  rw [if_neg ha] at h
  unfold middle at h
  simp only at h
  split_ifs at h
  · cases h; exact hc
  · rw [h] at hb; exact not_oob_fin hb
  · rw [h] at ha; exact not_oob_fin ha

theorem update_inv {P : Prob} {ep lo hi : ℝ} {s : HSt} (hI : Inv P lo hi s) {x : ℝ}
    (h1 : s.xmin ≤ x) (h2 : x ≤ s.xmax) :
    Inv P lo hi (update P ep s x) ∧ s.xmin ≤ (update P ep s x).xmin ∧
      (update P ep s x).xmax ≤ s.xmax := by
  have hs := hI.sides
  have := hI.lo
  have := hI.hi
  unfold update
  by_cases hl : low P s.swap x
  · simp only [hl, if_true]
    refine ⟨⟨by simp only; linarith, h2, by simp only; linarith, by simp only; ring, ?_⟩, h1, le_refl _⟩
    unfold Sides low at *
    cases hsw : s.swap <;> simp only [hsw, if_true, if_false, Bool.false_eq_true] at hs hl ⊢
    · exact ⟨hl, hs.2⟩
    · exact ⟨le_of_lt hl, hs.2⟩
  · simp only [hl, if_false]
    refine ⟨⟨by simp only; linarith, h1, by simp only; linarith, by simp only; ring, ?_⟩, le_refl _, h2⟩
    unfold Sides low at *
    cases hsw : s.swap <;> simp only [hsw, if_true, if_false, Bool.false_eq_true, not_le, not_lt] at hs hl ⊢
    · exact ⟨hs.1, le_of_lt hl⟩
    · exact ⟨hs.1, hl⟩

theorem hstep_inv {P : Prob} {ep lo hi : ℝ} {s : HSt} (hI : Inv P lo hi s) :
    Inv P lo hi (hstep P ep s) ∧ s.xmin ≤ (hstep P ep s).xmin ∧ (hstep P ep s).xmax ≤ s.xmax := by
  unfold hstep
  split
  · split
    · rename_i x hx
      obtain ⟨h1, h2⟩ := guess_mem hI hx
      exact update_inv hI h1 h2
    · exact ⟨⟨hI.lo, hI.ord, hI.hi, hI.mid, hI.sides⟩, le_refl _, le_refl _⟩
  · exact ⟨hI, le_refl _, le_refl _⟩

theorem iterate_inv {P : Prob} {ep lo hi : ℝ} {s : HSt} (hI : Inv P lo hi s) (n : Nat) :
    Inv P lo hi ((hstep P ep)^[n] s) := by
  induction n with
  | zero => exact hI
  | succ n ih => rw [Function.iterate_succ_apply']; exact (hstep_inv ih).1

theorem start_inv {P : Prob} {lo hi : ℝ} (hle : lo ≤ hi) (hb : ¬ unbracketed P lo hi) (x : Option ℝ) :
    Inv P lo hi (hstart P lo hi x) := by
  refine ⟨le_refl _, hle, le_refl _, rfl, ?_⟩
  unfold Sides hstart
  unfold unbracketed at hb
  simp only [decide_eq_true_eq]
  by_cases h : P.y ≤ P.f lo
  · rw [if_pos h]
    have : ¬ P.y ≤ P.f hi := fun h' => hb ⟨fun _ => h', fun _ => h⟩
    exact ⟨h, le_of_lt (not_le.mp this)⟩
  · rw [if_neg h]
    have : P.y ≤ P.f hi := by
      by_contra h'
      exact hb ⟨fun a => absurd a h, fun a => absurd a h'⟩
    exact ⟨le_of_lt (not_le.mp h), this⟩

theorem hinit_good {e : HIn} (h1 : e.ids = true) (h2 : ¬ unbracketed e.P e.xmin e.xmax) :
    (hinit e).2 = hstart e.P e.xmin e.xmax e.x := by
  unfold hinit; rw [if_pos h1, if_neg h2]

theorem hinit_bad {e : HIn} (h1 : e.ids = true) (h2 : unbracketed e.P e.xmin e.xmax) :
    (hinit e).2.active = false ∧ (hinit e).2.x = none := by
  unfold hinit; rw [if_pos h1, if_pos h2]; exact ⟨rfl, rfl⟩

theorem hinit_off {e : HIn} (h1 : e.ids = false) :
    (hinit e).2.active = false ∧ (hinit e).2.x = e.x := by
  unfold hinit; simp [h1, hstart]

theorem final_inactive {ep : ℝ} {N : Nat} {e : HIn} (h : (hinit e).2.active = false) :
    final ep N e = (hinit e).2 :=
  Function.iterate_fixed (hstep_inactive e.P ep _ h) _

/-- After the first pass an active or finished element stands at a limit of its bracket. -/
structure AtLimit (P : Prob) (ep : ℝ) (s : HSt) (x : ℝ) : Prop where
  val : s.x = some x
  lim : x = s.xmin ∨ x = s.xmax
  act : s.active = true ↔ relGt (s.xmax - s.xmin) x ep ∧ relGt (P.f x - P.y) P.y ep

theorem update_limit (P : Prob) (ep : ℝ) (s : HSt) (x : ℝ) : AtLimit P ep (update P ep s x) x := by
  by_cases hl : low P s.swap x
  · exact ⟨rfl, Or.inl (by simp [update, hl]), by simp [update, hl]⟩
  · exact ⟨rfl, Or.inr (by simp [update, hl]), by simp [update, hl]⟩

theorem iterate_limit {P : Prob} {ep : ℝ} {s : HSt} (ha : s.active = true) (n : Nat) :
    (∃ x, AtLimit P ep ((hstep P ep)^[n + 1] s) x) ∨
      (((hstep P ep)^[n + 1] s).x = none ∧ ((hstep P ep)^[n + 1] s).active = false) := by
  induction n with
  | zero =>
    simp only [zero_add, Function.iterate_one]
    unfold hstep
    rw [if_pos ha]
    split
    · exact Or.inl ⟨_, update_limit P ep s _⟩
    · exact Or.inr ⟨rfl, rfl⟩
  | succ n ih =>
    rw [Function.iterate_succ_apply']
    set t := (hstep P ep)^[n + 1] s
    by_cases hact : t.active = true
    · unfold hstep
      rw [if_pos hact]
      split
      · exact Or.inl ⟨_, update_limit P ep t _⟩
      · exact Or.inr ⟨rfl, rfl⟩
    · rw [hstep_inactive P ep t (by simpa using hact)]
      exact ih

/-! ### The properties -/

/-- C52, answers.  Every number the solver returns for a selected element lies within the limits
given for that element, whatever the function and the derivative values, and whether or not the
iteration converged. -/
theorem C52_in_bracket (ep : ℝ) (Nmax : Nat) (l : List HIn) (xs : List (Option ℝ)) (w : Bool)
    (h : hybrid1 ep Nmax l = .ok (xs, w)) (i : Nat) (e : HIn) (he : l[i]? = some e)
    (hs : e.ids = true) (hle : e.xmin ≤ e.xmax) (x : ℝ) (hx : xs[i]? = some (some x)) :
    e.xmin ≤ x ∧ x ≤ e.xmax := by
  obtain ⟨rfl, -, -⟩ := hybrid1_ok h
  rw [List.getElem?_map, he] at hx
  simp only [Option.map_some, Option.some.injEq] at hx
  by_cases hu : unbracketed e.P e.xmin e.xmax
  · have := hinit_bad hs hu
    rw [final_inactive this.1, this.2] at hx
    cases hx
  · unfold final at hx
    rw [hinit_good hs hu] at hx
    have hI := iterate_inv (ep := ep) (start_inv hle hu e.x) (Nmax + 1)
    rcases iterate_limit (P := e.P) (ep := ep) (s := hstart e.P e.xmin e.xmax e.x) rfl Nmax with ⟨z, hz⟩ | hz
    · rw [hz.val] at hx
      cases hx
      have h1 := hI.lo
      have h2 := hI.hi
      have h3 := hI.ord
      rcases hz.lim with h | h <;> rw [h] <;> constructor <;> linarith
    · rw [hz.1] at hx; cases hx

/-- C52, evaluations.  The function is never consulted outside the limits: if every element of a
second call has the same target, limits and selection, and a function and derivative that agree
within the limits, the outcome is the same (the same error, or the same numbers and warning). -/
theorem C52_never_outside (ep : ℝ) (Nmax : Nat) (l : List HIn) (g g' : HIn → ℝ → ℝ)
    (hle : ∀ e ∈ l, e.xmin ≤ e.xmax)
    (hg : ∀ e ∈ l, ∀ x, e.xmin ≤ x → x ≤ e.xmax → g e x = e.P.f x ∧ g' e x = e.P.df x) :
    hybrid1 ep Nmax (l.map (fun e => { e with P := ⟨g e, g' e, e.P.y⟩ })) = hybrid1 ep Nmax l := by
  have hub : ∀ e ∈ l, (unbracketed ⟨g e, g' e, e.P.y⟩ e.xmin e.xmax ↔ unbracketed e.P e.xmin e.xmax) := by
    intro e he
    unfold unbracketed
    dsimp only
    rw [(hg e he e.xmin (le_refl _) (hle e he)).1, (hg e he e.xmax (hle e he) (le_refl _)).1]
  have hnew : ∀ e ∈ l, ∀ x, e.xmin ≤ x → x ≤ e.xmax → newton ⟨g e, g' e, e.P.y⟩ x = newton e.P x := by
    intro e he x h1 h2
    simp only [newton, (hg e he x h1 h2).1, (hg e he x h1 h2).2]
  have hst : ∀ e ∈ l, ∀ x, hstart ⟨g e, g' e, e.P.y⟩ e.xmin e.xmax x = hstart e.P e.xmin e.xmax x := by
    intro e he x
    unfold hstart
    rw [hnew e he _ (le_refl _) (hle e he), hnew e he _ (hle e he) (le_refl _),
      show (⟨g e, g' e, e.P.y⟩ : Prob).f e.xmin = e.P.f e.xmin from (hg e he e.xmin (le_refl _) (hle e he)).1]
  have hin : ∀ e ∈ l, (hinit { e with P := ⟨g e, g' e, e.P.y⟩ }).2 = (hinit e).2 := by
    intro e he
    unfold hinit
    simp only [hst e he]
    by_cases h1 : e.ids = true
    · by_cases h2 : unbracketed e.P e.xmin e.xmax
      · rw [if_pos h1, if_pos h1, if_pos h2, if_pos ((hub e he).mpr h2)]
      · rw [if_pos h1, if_pos h1, if_neg h2, if_neg (fun h => h2 ((hub e he).mp h))]
    · rw [if_neg h1, if_neg h1]
  have hstp : ∀ e ∈ l, ∀ s, Inv e.P e.xmin e.xmax s →
      hstep ⟨g e, g' e, e.P.y⟩ ep s = hstep e.P ep s := by
    intro e he s hI
    unfold hstep
    split
    · split
      · rename_i x hx
        obtain ⟨h1, h2⟩ := guess_mem hI hx
        have b1 : e.xmin ≤ x := le_trans hI.lo h1
        have b2 : x ≤ e.xmax := le_trans h2 hI.hi
        have hl : low ⟨g e, g' e, e.P.y⟩ s.swap x = low e.P s.swap x := by
          unfold low; dsimp only; rw [(hg e he x b1 b2).1]
        unfold update
        by_cases hlo : low e.P s.swap x
        · have hlo' : low ⟨g e, g' e, e.P.y⟩ s.swap x := hl ▸ hlo
          simp only [hlo, hlo', if_true, hnew e he x b1 b2, HSt.mk.injEq, and_true, true_and, decide_eq_decide]
          rw [(hg e he x b1 b2).1]
        · have hlo' : ¬ low ⟨g e, g' e, e.P.y⟩ s.swap x := hl ▸ hlo
          simp only [hlo, hlo', if_false, hnew e he x b1 b2, HSt.mk.injEq, and_true, true_and, decide_eq_decide]
          rw [(hg e he x b1 b2).1]
      · rfl
    · rfl
  have hit : ∀ e ∈ l, ∀ n s, Inv e.P e.xmin e.xmax s →
      (hstep ⟨g e, g' e, e.P.y⟩ ep)^[n] s = (hstep e.P ep)^[n] s := by
    intro e he n s hI
    induction n with
    | zero => rfl
    | succ n ih =>
      rw [Function.iterate_succ_apply', Function.iterate_succ_apply', ih,
        hstp e he _ (iterate_inv hI n)]
  have hfin : ∀ e ∈ l, final ep Nmax { e with P := ⟨g e, g' e, e.P.y⟩ } = final ep Nmax e := by
    intro e he
    by_cases ha : (hinit e).2.active = false
    · rw [final_inactive ha, final_inactive (by rw [hin e he]; exact ha), hin e he]
    · have h1 : e.ids = true := by
        by_contra hc; exact ha (hinit_off (by simpa using hc)).1
      have h2 : ¬ unbracketed e.P e.xmin e.xmax := fun hc => ha (hinit_bad h1 hc).1
      unfold final
      rw [hin e he, hinit_good h1 h2]
      exact hit e he _ _ (start_inv (hle e he) h2 _)
  have hcond : ((l.map (fun e => { e with P := ⟨g e, g' e, e.P.y⟩ })).any (·.ids) = true ∧
      ∀ e ∈ l.map (fun e => ({ e with P := ⟨g e, g' e, e.P.y⟩ } : HIn)), e.ids = true →
        unbracketed e.P e.xmin e.xmax) ↔
      (l.any (·.ids) = true ∧ ∀ e ∈ l, e.ids = true → unbracketed e.P e.xmin e.xmax) := by
    rw [List.any_map]
    refine and_congr Iff.rfl ?_
    constructor
    · intro h e he hi
      exact (hub e he).mp (h _ (List.mem_map_of_mem he) hi)
    · intro h e' he' hi
      obtain ⟨e, he, rfl⟩ := List.mem_map.mp he'
      exact (hub e he).mpr (h e he hi)
  unfold hybrid1
  by_cases hc : l.any (·.ids) = true ∧ ∀ e ∈ l, e.ids = true → unbracketed e.P e.xmin e.xmax
  · rw [if_pos hc, if_pos (hcond.mpr hc)]
  · rw [if_neg hc, if_neg (fun h => hc (hcond.mp h))]
    simp only [hloop_eq, List.map_map, Except.ok.injEq, Prod.mk.injEq]
    have key : ∀ e ∈ l, (hstep (hinit { e with P := ⟨g e, g' e, e.P.y⟩ }).1 ep)^[Nmax + 1]
        (hinit { e with P := ⟨g e, g' e, e.P.y⟩ }).2
        = (hstep (hinit e).1 ep)^[Nmax + 1] (hinit e).2 := by
      intro e he
      rw [hinit_fst, hinit_fst]
      exact hfin e he
    constructor
    · exact List.map_congr_left (fun e he => by simp only [Function.comp_apply]; rw [key e he])
    · rw [Bool.eq_iff_iff, List.any_eq_true, List.any_eq_true]
      constructor
      · rintro ⟨q, hq, ha⟩
        obtain ⟨e, he, rfl⟩ := List.mem_map.mp hq
        exact ⟨_, List.mem_map_of_mem he, by simp only [Function.comp_apply] at ha ⊢; rwa [← key e he]⟩
      · rintro ⟨q, hq, ha⟩
        obtain ⟨e, he, rfl⟩ := List.mem_map.mp hq
        exact ⟨_, List.mem_map_of_mem he, by simp only [Function.comp_apply] at ha ⊢; rwa [key e he]⟩

/-- C52, bracket.  From limits whose values lie on both sides of the target, after any number of
passes: the limits have only moved inward, they still enclose a solution if the function is
continuous, and the next pass moves them only inward again. -/
theorem C52_bracket (P : Prob) (ep lo hi : ℝ) (hle : lo ≤ hi)
    (hb : P.f lo < P.y ∧ P.y ≤ P.f hi ∨ P.f hi < P.y ∧ P.y ≤ P.f lo)
    (hc : ContinuousOn P.f (Set.Icc lo hi)) (x : Option ℝ) (n : Nat) :
    let s := (hstep P ep)^[n] (hstart P lo hi x)
    let t := (hstep P ep)^[n + 1] (hstart P lo hi x)
    lo ≤ s.xmin ∧ s.xmax ≤ hi ∧ s.xmin ≤ t.xmin ∧ t.xmax ≤ s.xmax ∧
      ∃ z, s.xmin ≤ z ∧ z ≤ s.xmax ∧ P.f z = P.y := by
  have hu : ¬ unbracketed P lo hi := by
    unfold unbracketed
    rcases hb with ⟨h1, h2⟩ | ⟨h1, h2⟩
    · exact fun h => absurd (h.mpr h2) (not_le.mpr h1)
    · exact fun h => absurd (h.mp h2) (not_le.mpr h1)
  have hI := iterate_inv (ep := ep) (start_inv hle hu x) n
  have hn := hstep_inv (ep := ep) hI
  simp only [Function.iterate_succ_apply']
  generalize (hstep P ep)^[n] (hstart P lo hi x) = s at *
  refine ⟨hI.lo, hI.hi, hn.2.1, hn.2.2, ?_⟩
  have hc' : ContinuousOn P.f (Set.Icc s.xmin s.xmax) :=
    hc.mono (Set.Icc_subset_Icc hI.lo hI.hi)
  have hs := hI.sides
  unfold Sides at hs
  split_ifs at hs
  · obtain ⟨z, hz, e⟩ := intermediate_value_Icc' hI.ord hc' ⟨hs.2, hs.1⟩
    exact ⟨z, hz.1, hz.2, e⟩
  · obtain ⟨z, hz, e⟩ := intermediate_value_Icc hI.ord hc' ⟨hs.1, hs.2⟩
    exact ⟨z, hz.1, hz.2, e⟩

/-- C52, reporting.  An element whose target is beyond the values at both limits is never answered
with a number: the call fails with a parameter error or the entry is NaN.  If no selected element is
bracketed the call always fails; if one is, it never does. -/
theorem C52_reports (ep : ℝ) (Nmax : Nat) (l : List HIn) :
    (∀ (xs : List (Option ℝ)) (w : Bool), hybrid1 ep Nmax l = .ok (xs, w) →
      ∀ (i : Nat) (e : HIn), l[i]? = some e → e.ids = true →
        (e.P.y < e.P.f e.xmin ∧ e.P.y < e.P.f e.xmax ∨ e.P.f e.xmin < e.P.y ∧ e.P.f e.xmax < e.P.y) →
        xs[i]? = some none) ∧
    ((∃ e ∈ l, e.ids = true) → (∀ e ∈ l, e.ids = true →
      (e.P.y < e.P.f e.xmin ∧ e.P.y < e.P.f e.xmax ∨ e.P.f e.xmin < e.P.y ∧ e.P.f e.xmax < e.P.y)) →
      hybrid1 ep Nmax l = .error .param) ∧
    ((∃ e ∈ l, e.ids = true ∧
      (e.P.f e.xmin < e.P.y ∧ e.P.y < e.P.f e.xmax ∨ e.P.f e.xmax < e.P.y ∧ e.P.y < e.P.f e.xmin)) →
      ∃ r, hybrid1 ep Nmax l = .ok r) := by
  have hub : ∀ e : HIn, (e.P.y < e.P.f e.xmin ∧ e.P.y < e.P.f e.xmax ∨
      e.P.f e.xmin < e.P.y ∧ e.P.f e.xmax < e.P.y) → unbracketed e.P e.xmin e.xmax := by
    rintro e (⟨h1, h2⟩ | ⟨h1, h2⟩)
    · exact ⟨fun _ => le_of_lt h2, fun _ => le_of_lt h1⟩
    · exact ⟨fun h => absurd h (not_le.mpr h1), fun h => absurd h (not_le.mpr h2)⟩
  refine ⟨?_, ?_, ?_⟩
  · intro xs w h i e he hs hy
    obtain ⟨rfl, -, -⟩ := hybrid1_ok h
    have := hinit_bad hs (hub e hy)
    rw [List.getElem?_map, he]
    simp only [Option.map_some]
    rw [final_inactive this.1, this.2]
  · rintro ⟨e, he, hs⟩ hall
    unfold hybrid1
    rw [if_pos ⟨List.any_eq_true.mpr ⟨e, he, hs⟩, fun e he hs => hub e (hall e he hs)⟩]
  · rintro ⟨e, he, hs, hy⟩
    unfold hybrid1
    rw [if_neg]
    · exact ⟨_, rfl⟩
    · rintro ⟨-, hall⟩
      have := hall e he hs
      unfold unbracketed at this
      rcases hy with ⟨h1, h2⟩ | ⟨h1, h2⟩
      · exact absurd (this.mpr (le_of_lt h2)) (not_le.mpr h1)
      · exact absurd (this.mp (le_of_lt h2)) (not_le.mpr h1)

/-- C52, independence.  The answer for an element does not depend on the other elements of the
array, nor on its place in it; elements that were not selected are left as they were. -/
theorem C52_elementwise (ep : ℝ) (Nmax : Nat) (l l' : List HIn) (xs xs' : List (Option ℝ)) (w w' : Bool)
    (h : hybrid1 ep Nmax l = .ok (xs, w)) (h' : hybrid1 ep Nmax l' = .ok (xs', w')) (i j : Nat) (e : HIn)
    (hi : l[i]? = some e) (hj : l'[j]? = some e) :
    xs.length = l.length ∧ xs[i]? = xs'[j]? ∧ (e.ids = false → xs[i]? = some e.x) := by
  obtain ⟨rfl, -, -⟩ := hybrid1_ok h
  obtain ⟨rfl, -, -⟩ := hybrid1_ok h'
  refine ⟨by simp, by rw [List.getElem?_map, List.getElem?_map, hi, hj], fun hs => ?_⟩
  rw [List.getElem?_map, hi]
  simp only [Option.map_some]
  rw [final_inactive (hinit_off hs).1, (hinit_off hs).2]

theorem relGt_false {a b ep : ℝ} (h : ¬ relGt a b ep) : |a| ≤ ep * |b| := by
  unfold relGt at h
  by_cases hb : b = 0
  · rw [if_pos hb] at h
    have : a = 0 := by simpa using h
    simp [this, hb]
  · rw [if_neg hb] at h
    rw [not_lt, abs_div, div_le_iff₀ (abs_pos.mpr hb)] at h
    exact h

/-- C53.  If the solver gave no warning, then for every selected element that was answered with a
number, the function there matches the target to the relative tolerance, or an exact solution lies
within the relative tolerance of the number. -/
theorem C53_accurate (ep : ℝ) (Nmax : Nat) (l : List HIn) (xs : List (Option ℝ))
    (h : hybrid1 ep Nmax l = .ok (xs, false)) (i : Nat) (e : HIn) (he : l[i]? = some e)
    (hs : e.ids = true) (hle : e.xmin ≤ e.xmax) (hc : ContinuousOn e.P.f (Set.Icc e.xmin e.xmax))
    (x : ℝ) (hx : xs[i]? = some (some x)) :
    |e.P.f x - e.P.y| ≤ ep * |e.P.y| ∨
      ∃ z, e.xmin ≤ z ∧ z ≤ e.xmax ∧ e.P.f z = e.P.y ∧ |z - x| ≤ ep * |x| := by
  obtain ⟨rfl, hw, -⟩ := hybrid1_ok h
  rw [List.getElem?_map, he] at hx
  simp only [Option.map_some, Option.some.injEq] at hx
  by_cases hu : unbracketed e.P e.xmin e.xmax
  · have := hinit_bad hs hu
    rw [final_inactive this.1, this.2] at hx
    cases hx
  have hna : (final ep Nmax e).active = false := by
    have hm : final ep Nmax e ∈ l.map (final ep Nmax) :=
      List.mem_map_of_mem (List.mem_of_getElem? he)
    by_contra hc
    have := List.any_eq_true.mpr ⟨_, hm, by simpa using hc⟩
    rw [← hw] at this
    cases this
  have hI := iterate_inv (ep := ep) (start_inv hle hu e.x) (Nmax + 1)
  have hl := iterate_limit (P := e.P) (ep := ep) (s := hstart e.P e.xmin e.xmax e.x) rfl Nmax
  unfold final at hx hna
  rw [hinit_good hs hu] at hx hna
  generalize (hstep e.P ep)^[Nmax + 1] (hstart e.P e.xmin e.xmax e.x) = s at *
  rcases hl with ⟨z, hz⟩ | hz
  swap
  · rw [hz.1] at hx; cases hx
  rw [hz.val] at hx
  cases hx
  have hact : ¬ (relGt (s.xmax - s.xmin) x ep ∧ relGt (e.P.f x - e.P.y) e.P.y ep) := by
    rw [← hz.act, hna]; simp
  by_cases h1 : relGt (e.P.f x - e.P.y) e.P.y ep
  · right
    have h2 := relGt_false (fun h2 => hact ⟨h2, h1⟩)
    have hc' : ContinuousOn e.P.f (Set.Icc s.xmin s.xmax) :=
      hc.mono (Set.Icc_subset_Icc hI.lo hI.hi)
    have hsd := hI.sides
    have : ∃ z ∈ Set.Icc s.xmin s.xmax, e.P.f z = e.P.y := by
      unfold Sides at hsd
      split_ifs at hsd
      · exact intermediate_value_Icc' hI.ord hc' ⟨hsd.2, hsd.1⟩
      · exact intermediate_value_Icc hI.ord hc' ⟨hsd.1, hsd.2⟩
    obtain ⟨z, ⟨z1, z2⟩, e1⟩ := this
    refine ⟨z, le_trans hI.lo z1, le_trans z2 hI.hi, e1, le_trans ?_ h2⟩
    rw [abs_of_nonneg (by linarith : (0:ℝ) ≤ s.xmax - s.xmin), abs_le]
    rcases hz.lim with h | h <;> rw [h] <;> constructor <;> linarith
  · exact Or.inl (relGt_false h1)

/-! ### NaN -/

theorem newton_ne_nan {P : Prob} {x : ℝ} (h : P.f x ≠ P.y) : newton P x ≠ .nan := by
  unfold newton
  intro hc
  split_ifs at hc
  exact h (le_antisymm (not_lt.mp ‹_›) (not_lt.mp ‹_›))

theorem guess_fin {s : HSt} (ha : s.xa ≠ .nan) (hb : s.xb ≠ .nan) : ∃ x, guess s = .fin x := by
  have key : ∀ c : Cand, c ≠ .nan → ¬ oob s c → ∃ x, c = .fin x := by
    intro c h1 h2
    cases c with
    | fin r => exact ⟨r, rfl⟩
    | pinf => exact absurd (Or.inr trivial) h2
    | ninf => exact absurd (Or.inl trivial) h2
    | nan => exact absurd rfl h1
  unfold guess
  by_cases h1 : oob s s.xb
  · rw [if_pos h1]; exact ⟨_, rfl⟩
  rw [if_neg h1]
  by_cases h2 : oob s s.xa
  · rw [if_pos h2]; exact ⟨_, rfl⟩
  rw [if_neg h2]
  obtain ⟨a, ha⟩ := key _ ha h2
  obtain ⟨b, hb⟩ := key _ hb h1
  unfold middle
  simp only
  split_ifs
  · exact ⟨_, rfl⟩
  · exact ⟨b, hb⟩
  · exact ⟨a, ha⟩

theorem relGt_zero {b ep : ℝ} (hep : 0 ≤ ep) : ¬ relGt 0 b ep := by
  unfold relGt
  split_ifs <;> simp [hep]

theorem iterate_number {P : Prob} {ep : ℝ} (hep : 0 ≤ ep) {s : HSt} (hact : s.active = true)
    (ha : s.xa ≠ .nan) (hb : s.xb ≠ .nan) (n : Nat) :
    let t := (hstep P ep)^[n + 1] s
    (∃ x, t.x = some x) ∧ (t.active = true → t.xa ≠ .nan ∧ t.xb ≠ .nan) := by
  have step : ∀ t : HSt, t.active = true → t.xa ≠ .nan → t.xb ≠ .nan →
      (∃ x, (hstep P ep t).x = some x) ∧
        ((hstep P ep t).active = true → (hstep P ep t).xa ≠ .nan ∧ (hstep P ep t).xb ≠ .nan) := by
    intro t h0 h1 h2
    obtain ⟨x, hx⟩ := guess_fin h1 h2
    unfold hstep
    rw [if_pos h0, hx]
    refine ⟨⟨x, rfl⟩, fun h => ?_⟩
    have hne : P.f x ≠ P.y := by
      intro hc
      have := ((update_limit P ep t x).act.mp h).2
      rw [hc, sub_self] at this
      exact relGt_zero hep this
    have hn := newton_ne_nan hne
    unfold update
    by_cases hl : low P t.swap x
    · simp only [hl, if_true]; exact ⟨hn, h2⟩
    · simp only [hl, if_false]; exact ⟨h1, hn⟩
  intro t
  induction n with
  | zero => exact step s hact ha hb
  | succ n ih =>
    have et : t = hstep P ep ((hstep P ep)^[n + 1] s) := Function.iterate_succ_apply' _ _ _
    rw [et]
    by_cases h : ((hstep P ep)^[n + 1] s).active = true
    · exact step _ h (ih.2 h).1 (ih.2 h).2
    · rw [hstep_inactive P ep _ (by simpa using h)]
      exact ih

/-- C52, completeness.  A selected element whose target lies strictly between the values at its
limits is always answered with a number. -/
theorem C52_answers (ep : ℝ) (hep : 0 ≤ ep) (Nmax : Nat) (l : List HIn) (i : Nat) (e : HIn)
    (he : l[i]? = some e) (hs : e.ids = true)
    (hy : e.P.f e.xmin < e.P.y ∧ e.P.y < e.P.f e.xmax ∨ e.P.f e.xmax < e.P.y ∧ e.P.y < e.P.f e.xmin) :
    ∃ xs w x, hybrid1 ep Nmax l = .ok (xs, w) ∧ xs[i]? = some (some x) := by
  obtain ⟨⟨xs, w⟩, h⟩ := (C52_reports ep Nmax l).2.2 ⟨e, List.mem_of_getElem? he, hs, hy⟩
  have hu : ¬ unbracketed e.P e.xmin e.xmax := by
    unfold unbracketed
    rcases hy with ⟨h1, h2⟩ | ⟨h1, h2⟩
    · exact fun h => absurd (h.mpr (le_of_lt h2)) (not_le.mpr h1)
    · exact fun h => absurd (h.mp (le_of_lt h2)) (not_le.mpr h1)
  have hne : e.P.f e.xmin ≠ e.P.y ∧ e.P.f e.xmax ≠ e.P.y := by
    rcases hy with ⟨h1, h2⟩ | ⟨h1, h2⟩
    · exact ⟨ne_of_lt h1, ne_of_gt h2⟩
    · exact ⟨ne_of_gt h2, ne_of_lt h1⟩
  obtain ⟨x, hx⟩ := (iterate_number (P := e.P) hep (s := hstart e.P e.xmin e.xmax e.x) rfl
    (newton_ne_nan hne.1) (newton_ne_nan hne.2) Nmax).1
  refine ⟨xs, w, x, h, ?_⟩
  obtain ⟨rfl, -, -⟩ := hybrid1_ok h
  rw [List.getElem?_map, he]
  simp only [Option.map_some, Option.some.injEq]
  unfold final
  rw [hinit_good hs hu]
  exact hx

/-- **C52 disagreement.**  A target that the function takes exactly at the lower limit (of an
increasing function) is refused as not bracketed, although the limit is a solution. -/
theorem C52_endpoint_defect (ep : ℝ) (Nmax : Nat) :
    hybrid1 ep Nmax [⟨⟨fun x => x, fun _ => 1, 1⟩, 1, 2, true, none⟩] = .error .param := by
  unfold hybrid1
  rw [if_pos]
  refine ⟨rfl, fun e he _ => ?_⟩
  simp only [List.mem_singleton] at he
  subst he
  unfold unbracketed
  norm_num

/-- **C52 disagreement.**  A bracketed target may be answered with NaN without any error or warning:
`1 - 2x² + x³` decreases from 1 to 0 on [0, 1] with derivative `-4x + 3x²`; asked for 1, which it takes
at 0, where the slope is 0, the first guess is 0/0. -/
theorem C52_nan_defect (ep : ℝ) (Nmax : Nat) :
    hybrid1 ep Nmax [⟨⟨fun x => 1 - 2 * x ^ 2 + x ^ 3, fun x => -4 * x + 3 * x ^ 2, 1⟩, 0, 1, true, none⟩]
      = .ok ([none], false) := by
  set P : Prob := ⟨fun x => 1 - 2 * x ^ 2 + x ^ 3, fun x => -4 * x + 3 * x ^ 2, 1⟩ with hP
  have hu : ¬ unbracketed P 0 1 := by unfold unbracketed; norm_num [hP]
  have na : newton P 0 = .nan := by norm_num [newton, hP]
  have nb : newton P 1 = .fin 0 := by norm_num [newton, hP]
  have hg : guess (hstart P 0 1 none) = .nan := by
    unfold guess middle hstart
    rw [na, nb]
    norm_num [oob, Cand.lt]
  have hst : hstep P ep (hstart P 0 1 none) = { hstart P 0 1 none with active := false, x := none } := by
    unfold hstep
    rw [hg]
    rfl
  have hfin : final ep Nmax ⟨P, 0, 1, true, none⟩ = { hstart P 0 1 none with active := false, x := none } := by
    unfold final
    rw [hinit_good rfl hu, Function.iterate_succ_apply, hst]
    exact Function.iterate_fixed (hstep_inactive P ep _ rfl) _
  have hi : (hstep (hinit ⟨P, 0, 1, true, none⟩).1 ep)^[Nmax + 1] (hinit ⟨P, 0, 1, true, none⟩).2
      = { hstart P 0 1 none with active := false, x := none } := by
    rw [hinit_fst]; exact hfin
  unfold hybrid1
  rw [if_neg]
  · simp only [hloop_eq, List.map_cons, List.map_nil, hi, List.any_cons, List.any_nil, Bool.or_self]
  · rintro ⟨-, h⟩
    exact hu (h ⟨P, 0, 1, true, none⟩ (by simp) rfl)

/-- The hypotheses are met by the square on [0, 2], asked for 2. -/
example : ∃ xs w x, hybrid1 1e-6 20 [⟨⟨fun x => x ^ 2, fun x => 2 * x, 2⟩, 0, 2, true, none⟩] = .ok (xs, w) ∧
    xs[0]? = some (some x) ∧ 0 ≤ x ∧ x ≤ 2 := by
  obtain ⟨xs, w, x, h, hx⟩ := C52_answers 1e-6 (by norm_num) 20
    [⟨⟨fun x => x ^ 2, fun x => 2 * x, 2⟩, 0, 2, true, none⟩] 0 _ rfl rfl (by norm_num)
  have := C52_in_bracket _ _ _ _ _ h 0 _ rfl rfl (by norm_num) x hx
  exact ⟨xs, w, x, h, hx, this.1, this.2⟩

/-- A call without warning: the identity on [0, 2], asked for 1, is solved in the first pass. -/
example : hybrid1 1e-6 20 [⟨⟨fun x => x, fun _ => 1, 1⟩, 0, 2, true, none⟩] = .ok ([some 1], false) := by
  set P : Prob := ⟨fun x => x, fun _ => 1, 1⟩ with hP
  have hu : ¬ unbracketed P 0 2 := by unfold unbracketed; norm_num [hP]
  have na : newton P 0 = .fin 1 := by norm_num [newton, hP]
  have nb : newton P 2 = .fin 1 := by norm_num [newton, hP]
  have hg : guess (hstart P 0 2 none) = .fin 1 := by
    unfold guess middle hstart
    rw [na, nb]
    norm_num [oob, Cand.lt]
  have hst : hstep P 1e-6 (hstart P 0 2 none) = update P 1e-6 (hstart P 0 2 none) 1 := by
    unfold hstep; rw [hg]; rfl
  have hact : (update P 1e-6 (hstart P 0 2 none) 1).active = false := by
    have h1 : ¬ relGt (P.f 1 - P.y) P.y 1e-6 := by
      have : P.f 1 - P.y = 0 := by norm_num [hP]
      rw [this]; exact relGt_zero (by norm_num)
    by_contra hc
    exact h1 ((update_limit P 1e-6 _ 1).act.mp (by simpa using hc)).2
  have hi : (hstep (hinit ⟨P, 0, 2, true, none⟩).1 1e-6)^[20 + 1] (hinit ⟨P, 0, 2, true, none⟩).2
      = update P 1e-6 (hstart P 0 2 none) 1 := by
    rw [hinit_fst, hinit_good rfl hu, Function.iterate_succ_apply, hst]
    exact Function.iterate_fixed (hstep_inactive P _ _ hact) _
  unfold hybrid1
  rw [if_neg]
  · simp only [hloop_eq, List.map_cons, List.map_nil, hi, List.any_cons, List.any_nil, hact, Bool.or_self]
    rfl
  · rintro ⟨-, h⟩
    exact hu (h ⟨P, 0, 2, true, none⟩ (by simp) rfl)

end PyroMat.Mp.Props
