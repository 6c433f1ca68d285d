import Verif.Data.Check
import Verif.Data.RepairSpec

/-!
# Helper lemmas for repairing and updating data files
-/

set_option linter.unusedSimpArgs false

namespace PyroMat.Data.Props

open PyroMat PyroMat.Data PyroMat.Data.Spec

/-! ## What is read -/

theorem recordAt_eq (fs : Flat) (p : String) : recordAt fs p = (fs p).bind (loadFile p) := by
  unfold recordAt
  cases fs p with
  | none => rfl
  | some c =>
    cases c with
    | bad => rfl
    | json i c d r => cases i <;> cases c <;> cases d <;> rfl

theorem sortNames_sorted {α : Type} (l : List (String × α))
    (h : (l.map Prod.fst).Pairwise (· ≤ ·)) : sortNames l = l := by
  unfold sortNames
  apply List.mergeSort_of_pairwise
  rw [List.pairwise_map] at h
  exact h.imp (fun h => by simpa using h)

theorem listing_entries (recursive : Bool) (pl : Places) (fs : Flat) (d : String) (ns : List String) :
    records ((visitEntries recursive d
        (ns.filterMap fun n => (fs (join d n)).map fun c => (n, Node.file c))).flatMap Prod.snd)
      = ((ns.filter fun n => @decide (HasExt n ".hpd") (Classical.propDecidable _)).map
          fun n => d ++ "/" ++ n).filterMap (recordAt fs) ∧
    ((visitEntries recursive d
        (ns.filterMap fun n => (fs (join d n)).map fun c => (n, Node.file c))).map Prod.fst).Sublist ns := by
  induction ns with
  | nil => simp [visitEntries, records]
  | cons n ns ih =>
    rw [List.filterMap_cons]
    cases hf : fs (join d n) with
    | none =>
      simp only [Option.map_none]
      refine ⟨?_, ih.2.cons n⟩
      rw [ih.1, List.filter_cons]
      split
      · simp only [List.map_cons, List.filterMap_cons]
        have : recordAt fs (d ++ "/" ++ n) = none := by
          rw [recordAt_eq]
          have hf' : fs (d ++ "/" ++ n) = none := hf
          rw [hf']; rfl
        rw [this]
      · rfl
    | some c =>
      have hf' : fs (d ++ "/" ++ n) = some c := hf
      simp only [Option.map_some, visitEntries, List.flatMap_cons, records_append, List.map_cons]
      refine ⟨?_, ih.2.cons_cons n⟩
      rw [ih.1, List.filter_cons]
      by_cases hx : HasExt n ".hpd"
      · rw [if_pos (Or.inr hx)]
        simp only [hx, decide_true, if_true, List.map_cons, List.filterMap_cons, visits]
        rw [recordAt_eq, hf']
        simp only [records, List.filterMap_cons, List.filterMap_nil, record?_eq, Option.bind_some]
        cases loadFile (d ++ "/" ++ n) c <;> rfl
      · have : ¬((recursive = true ∧ (Node.file c).isDir = true) ∨ HasExt n ".hpd") := by
          rintro (h | h)
          · simp [Node.isDir] at h
          · exact hx h
        rw [if_neg this]
        simp only [hx, decide_false, Bool.false_eq_true, if_false]
        split <;> simp [records, Visit.record?]

theorem records_view (recursive : Bool) (pl : Places) (ht : Tidy pl) (fs : Flat) :
    records (allVisits recursive (view pl fs) pl.dirs) = onFile pl fs := by
  have key : ∀ ds : List String, (∀ d ∈ ds, d ∈ pl.dirs) →
      records (allVisits recursive (view pl fs) ds) =
        (ds.flatMap fun d => (pl.names.filter fun n =>
          @decide (HasExt n ".hpd") (Classical.propDecidable _)).map fun n => d ++ "/" ++ n).filterMap
          (recordAt fs) := by
    intro ds
    induction ds with
    | nil => intro _; rfl
    | cons d ds ih =>
      intro hds
      have hd := hds d List.mem_cons_self
      have ih := ih (fun x hx => hds x (List.mem_cons_of_mem _ hx))
      unfold allVisits at ih ⊢
      rw [List.flatMap_cons, records_append, ih, List.flatMap_cons, List.filterMap_append]
      congr 1
      simp only [view, if_pos hd, visits]
      have h := listing_entries recursive pl fs d pl.names
      rw [sortNames_sorted]
      · exact h.1
      · exact ht.sorted.sublist h.2
  exact key pl.dirs (fun d h => h)

theorem mem_onFile (pl : Places) (fs : Flat) (r : Rec) :
    r ∈ onFile pl fs ↔ r.fromfile ∈ paths pl ∧ recordAt fs r.fromfile = some r := by
  have hfrom : ∀ p, recordAt fs p = some r → r.fromfile = p := by
    intro p h
    unfold recordAt at h
    split at h
    · cases h; rfl
    · cases h
  unfold onFile
  rw [List.mem_filterMap]
  constructor
  · rintro ⟨p, hp, h⟩
    have := hfrom p h
    subst this
    exact ⟨hp, h⟩
  · rintro ⟨h1, h2⟩
    exact ⟨_, h1, h2⟩

theorem paths_hpd (pl : Places) (p : String) (h : p ∈ paths pl) : HasExt p ".hpd" := by
  unfold paths at h
  simp only [List.mem_flatMap, List.mem_map, List.mem_filter, decide_eq_true_eq] at h
  obtain ⟨d, -, n, ⟨-, stem, hs, rfl⟩, rfl⟩ := h
  refine ⟨d ++ "/" ++ stem, ?_, by simp only [String.append_assoc]⟩
  intro h
  have := congrArg (fun s => s.toList.length) h
  simp at this

theorem hpd_ne_tilde {p q : String} (hp : HasExt p ".hpd") (hq : HasExt q ".hpd") : p ≠ q ++ "~" := by
  rintro rfl
  exact hasExt_unique_char hp (hasExt_tilde hq)

/-! ## Suppressing and deleting lists of files -/

theorem suppress_one (fs : Flat) (p : String) (hp : HasExt p ".hpd") :
    Suppressed (fun q => q = p) fs (suppressFile fs p).1 := by
  have h1 : isHpd p = true := (isHpd_iff p).mpr hp
  have hne := ne_tilde p
  cases hf : fs p with
  | none =>
    rw [(C20_missing fs p hf).1]
    exact ⟨by rintro q rfl; exact hf, by rintro q c rfl hc; rw [hf] at hc; simp at hc, fun _ _ _ => rfl⟩
  | some c =>
    have : (suppressFile fs p).1 = fun q => if q = p ++ "~" then some c else if q = p then none else fs q := by
      simp only [suppressFile, h1, if_true, rename, hf]
    rw [this]
    refine ⟨?_, ?_, ?_⟩
    · rintro q rfl
      simp [hne]
    · rintro q c' rfl hc
      rw [hf] at hc
      simp [hc]
    · intro q hq hr
      have := hr p rfl (by rw [hf]; simp)
      simp [hq, this]

theorem suppress_list (vs : List String) (hv : ∀ p ∈ vs, HasExt p ".hpd") :
    ∀ fs : Flat, Suppressed (fun q => q ∈ vs) fs (vs.foldl (fun fs p => (suppressFile fs p).1) fs) := by
  induction vs with
  | nil => intro fs; exact ⟨by simp, by simp, fun _ _ _ => rfl⟩
  | cons p vs ih =>
    intro fs
    have hp := hv p List.mem_cons_self
    have hvs := fun q hq => hv q (List.mem_cons_of_mem p hq)
    obtain ⟨g1, k1, r1⟩ := suppress_one fs p hp
    obtain ⟨g2, k2, r2⟩ := ih hvs (suppressFile fs p).1
    rw [List.foldl_cons]
    have keepp : ∀ q, HasExt q ".hpd" → ∀ x ∈ vs, q ≠ x ++ "~" := fun q hq x hx => hpd_ne_tilde hq (hvs x hx)
    have tilde : ∀ x, HasExt x ".hpd" → x ++ "~" ∉ vs := fun x hx hm => hpd_ne_tilde (hvs _ hm) hx rfl
    refine ⟨?_, ?_, ?_⟩
    · intro q hq
      by_cases hm : q ∈ vs
      · exact g2 q hm
      · have hqp : q = p := by rcases List.mem_cons.mp hq with h | h <;> [exact h; exact absurd h hm]
        subst hqp
        rw [r2 q hm (fun x hx _ => keepp q hp x hx)]
        exact g1 q rfl
    · intro q c hq hc
      by_cases hqp : q = p
      · subst hqp
        rw [r2 (q ++ "~") (tilde q hp) ?_]
        · exact k1 q c rfl hc
        · intro x hx hne heq
          have hxq : x = q := by
            have := congrArg dropLastChar heq
            rw [dropLast_tilde, dropLast_tilde] at this
            exact this.symm
          subst hxq
          exact hne (g1 x rfl)
      · have hm : q ∈ vs := by rcases List.mem_cons.mp hq with h | h <;> [exact absurd h hqp; exact h]
        apply k2 q c hm
        rw [r1 q hqp ?_]
        · exact hc
        · rintro x rfl _
          exact hpd_ne_tilde (hvs q hm) hp
    · intro q hq hr
      have hqp : q ≠ p := fun h => hq (by simp [h])
      have hqv : q ∉ vs := fun h => hq (List.mem_cons_of_mem p h)
      rw [r2 q hqv ?_, r1 q hqp ?_]
      · rintro x rfl hne
        exact hr x List.mem_cons_self hne
      · intro x hx hne
        by_cases hxp : x = p
        · subst hxp
          exact absurd (g1 x rfl) hne
        · rw [r1 x hxp ?_] at hne
          · exact hr x (List.mem_cons_of_mem p hx) hne
          · rintro y rfl _
            exact hpd_ne_tilde (hvs x hx) hp

theorem remove_one (can : String → Bool) (hcan : ∀ p, can p = true) (fs : Flat) (p : String) :
    (removeFile can fs p).1 = fun q => if q = p then none else fs q := by
  unfold removeFile
  cases hf : fs p with
  | none =>
    funext q
    by_cases h : q = p
    · simp [h, hf]
    · simp [h]
  | some c => simp [hcan]

theorem remove_list (can : String → Bool) (hcan : ∀ p, can p = true) (vs : List String) :
    ∀ fs : Flat, Deleted (fun q => q ∈ vs) fs (vs.foldl (fun fs p => (removeFile can fs p).1) fs) := by
  induction vs with
  | nil => intro fs; exact ⟨by simp, fun _ _ => rfl⟩
  | cons p vs ih =>
    intro fs
    obtain ⟨g, r⟩ := ih (removeFile can fs p).1
    rw [List.foldl_cons]
    refine ⟨?_, ?_⟩
    · intro q hq
      by_cases hm : q ∈ vs
      · exact g q hm
      · have hqp : q = p := by rcases List.mem_cons.mp hq with h | h <;> [exact h; exact absurd h hm]
        rw [r q hm, remove_one can hcan]
        simp [hqp]
    · intro q hq
      have hqp : q ≠ p := fun h => hq (by simp [h])
      rw [r q (fun h => hq (List.mem_cons_of_mem p h)), remove_one can hcan]
      simp [hqp]

/-! ## The loop over a conflict -/

/-- The files of a list other than the selected one, counted from `i`. -/
def others (select : Int) : Nat → List String → List String
  | _, [] => []
  | i, f :: files =>
    if (i : Int) ≠ select then f :: others select (i + 1) files else others select (i + 1) files

theorem sweep_eq (act : Flat → String → Flat × Option Err) (select : Int) (files : List String) :
    ∀ (i : Nat) (fs : Flat), sweep act select i files fs
      = (others select i files).foldl (fun fs p => (act fs p).1) fs := by
  induction files with
  | nil => intro i fs; rfl
  | cons f files ih =>
    intro i fs
    rw [sweep, others, ih]
    split <;> rfl

theorem mem_others (select : Int) (files : List String) (q : String) :
    ∀ i : Nat, q ∈ others select i files ↔ ∃ j : Nat, files[j]? = some q ∧ ((i + j : Nat) : Int) ≠ select := by
  induction files with
  | nil => intro i; simp [others]
  | cons f files ih =>
    intro i
    have hstep : (∃ j : Nat, (f :: files)[j]? = some q ∧ ((i + j : Nat) : Int) ≠ select) ↔
        (f = q ∧ (i : Int) ≠ select) ∨ ∃ j : Nat, files[j]? = some q ∧ ((i + 1 + j : Nat) : Int) ≠ select := by
      constructor
      · rintro ⟨j, h1, h2⟩
        cases j with
        | zero => exact Or.inl ⟨by simpa using h1, by simpa using h2⟩
        | succ j =>
          right
          refine ⟨j, by simpa using h1, ?_⟩
          rw [show i + 1 + j = i + (j + 1) by omega]; exact h2
      · rintro (⟨h1, h2⟩ | ⟨j, h1, h2⟩)
        · exact ⟨0, by simp [h1], by simpa using h2⟩
        · exact ⟨j + 1, by simpa using h1, by rw [show i + (j + 1) = i + 1 + j by omega]; exact h2⟩
    rw [hstep, others]
    split
    · rename_i h
      rw [List.mem_cons, ih]
      constructor
      · rintro (h' | h')
        · exact Or.inl ⟨h'.symm, h⟩
        · exact Or.inr h'
      · rintro (h' | h')
        · exact Or.inl h'.1.symm
        · exact Or.inr h'
    · rename_i h
      rw [ih]
      constructor
      · exact Or.inr
      · rintro (h' | h')
        · exact absurd h'.2 h
        · exact h'

theorem mem_others_zero (select : Int) (files : List String) (q : String) :
    q ∈ others select 0 files ↔ NotSelected select files q := by
  rw [mem_others]
  simp [NotSelected]

theorem mem_notSelected {select : Int} {files : List String} {q : String}
    (h : NotSelected select files q) : q ∈ files := by
  obtain ⟨i, h, -⟩ := h
  exact List.mem_of_getElem? h

/-! ## The answers of the user -/

/-- Whatever the answers, a selection that leads to a repair is within the list. -/
theorem menu_range (parse : String → Option Int) (n : Nat) (inputs : List String) :
    ∀ (m : Option String) (a : String) (i : Int) (rest : List String),
      (∀ x, m = some x → inDs x = true) →
      menu parse n m inputs = .ok ((a, i), rest) →
      (a = "d" ∨ a = "s") → 0 ≤ i ∧ i < n := by
  induction inputs with
  | nil => intro m a i rest _ h; cases m <;> simp [menu] at h
  | cons x inputs ih =>
    intro m a i rest hm h ha
    cases m with
    | none =>
      simp only [menu] at h
      by_cases h1 : inIds (lower x) = true
      · rw [if_pos h1] at h
        by_cases h2 : inDs (lower x) = true
        · rw [if_pos h2] at h
          exact ih (some (lower x)) a i rest (by rintro y hy; cases hy; exact h2) h ha
        · rw [if_neg h2] at h
          simp only [Except.ok.injEq, Prod.mk.injEq] at h
          obtain ⟨⟨h3, -⟩, -⟩ := h
          exfalso; apply h2
          rw [h3]
          rcases ha with rfl | rfl <;> decide
      · rw [if_neg h1] at h
        exact ih none a i rest (by simp) h ha
    | some b =>
      simp only [menu] at h
      by_cases h1 : (lower x) = "b"
      · rw [if_pos h1] at h
        exact ih none a i rest (by simp) h ha
      · rw [if_neg h1] at h
        cases hp : parse (lower x) with
        | none => rw [hp] at h; exact ih (some b) a i rest hm h ha
        | some j =>
          rw [hp] at h
          simp only at h
          split at h
          · exact ih (some b) a i rest hm h ha
          · rename_i hr
            simp only [Except.ok.injEq, Prod.mk.injEq] at h
            obtain ⟨⟨-, rfl⟩, -⟩ := h
            push Not at hr
            exact hr

/-! ## The report's list of conflicts -/

theorem addRedundant_keys (red : List (String × List String)) (id first file : String)
    (h : (red.map Prod.fst).Nodup) :
    ((addRedundant red id first file).map Prod.fst).Nodup ∧
      ∀ k, k ∈ (addRedundant red id first file).map Prod.fst → k = id ∨ k ∈ red.map Prod.fst := by
  induction red with
  | nil => simp [addRedundant]
  | cons x red ih =>
    obtain ⟨k, fs⟩ := x
    simp only [List.map_cons, List.nodup_cons] at h
    obtain ⟨i1, i2⟩ := ih h.2
    simp only [addRedundant]
    split
    · rename_i hk
      subst hk
      exact ⟨by simpa using h, fun j hj => Or.inr (by simpa using hj)⟩
    · rename_i hk
      refine ⟨?_, ?_⟩
      · simp only [List.map_cons, List.nodup_cons, i1, and_true]
        intro hm
        rcases i2 k hm with h' | h'
        · exact hk h'
        · exact h.1 h'
      · intro j hj
        simp only [List.map_cons, List.mem_cons] at hj ⊢
        rcases hj with h' | h'
        · exact Or.inr (Or.inl h')
        · rcases i2 j h' with h'' | h''
          · exact Or.inl h''
          · exact Or.inr (Or.inr h'')

theorem construct_redundant (reg : Registry) (data : Coll) (rep rep' : Report) (t : Rec) (e : Option Err)
    (h : construct reg ⟨data, some rep⟩ t = (⟨data, some rep'⟩, e)) : rep'.redundant = rep.redundant := by
  unfold construct at h
  split at h
  · simp at h; rw [← h.1]
  · split at h
    · simp at h; rw [← h.1]
    · simp only [St.store, Prod.mk.injEq, St.mk.injEq, Option.some.injEq, true_and] at h
      rw [← h.1]

theorem act_redkeys (cfg : Cfg) (reg : Registry) (v : Visit) (data : Coll) (rep rep' : Report) (e : Option Err)
    (h : Visit.act (fileAct cfg reg) supAct v ⟨data, some rep⟩ = (⟨data, some rep'⟩, e))
    (hn : (rep.redundant.map Prod.fst).Nodup) : (rep'.redundant.map Prod.fst).Nodup := by
  cases v with
  | sup p =>
    simp only [Visit.act, supAct, Prod.mk.injEq, St.mk.injEq, Option.some.injEq, true_and] at h
    rw [← h.1]; exact hn
  | file p c =>
    simp only [Visit.act, fileAct] at h
    cases hl : loadFile p c with
    | none =>
      rw [hl] at h
      simp only [Prod.mk.injEq, St.mk.injEq, Option.some.injEq, true_and] at h
      rw [← h.1]; exact hn
    | some t =>
      rw [hl] at h
      simp only [St.loadto] at h
      cases ho : rep.data.lookup t.id with
      | none =>
        rw [ho] at h
        simp only at h
        rw [construct_redundant reg data _ rep' t e h]
        unfold noteNew
        simp only
        split
        · exact hn
        · split <;> exact hn
      | some old =>
        rw [ho] at h
        simp only at h
        have hn' := (addRedundant_keys rep.redundant t.id old.fromfile p hn).1
        split at h
        · simp only [Prod.mk.injEq, St.mk.injEq, Option.some.injEq, true_and] at h
          rw [← h.1]; exact hn'
        · split at h
          · simp only [Prod.mk.injEq, St.mk.injEq, Option.some.injEq, true_and] at h
            rw [← h.1]; exact hn'
          · rw [construct_redundant reg data _ rep' t e h]; exact hn'

theorem runs_redkeys (cfg : Cfg) (reg : Registry) (data : Coll) (ws : List Visit) :
    ∀ (rep rep' : Report) (e : Option Err), (rep.redundant.map Prod.fst).Nodup →
      runActs (ws.map (Visit.act (fileAct cfg reg) supAct)) ⟨data, some rep⟩ = (⟨data, some rep'⟩, e) →
      (rep'.redundant.map Prod.fst).Nodup := by
  induction ws with
  | nil =>
    intro rep rep' e hn h
    simp only [List.map_nil, runActs, Prod.mk.injEq, St.mk.injEq, Option.some.injEq, true_and] at h
    rw [← h.1]; exact hn
  | cons v ws ih =>
    intro rep rep' e hn h
    simp only [List.map_cons, runActs] at h
    obtain ⟨rep1, e1, h1⟩ := act_keeps cfg reg v data rep
    rw [h1] at h
    have hn1 := act_redkeys cfg reg v data rep rep1 e1 h1 hn
    cases e1 with
    | some e1 =>
      simp only [Prod.mk.injEq, St.mk.injEq, Option.some.injEq, true_and] at h
      rw [← h.1]; exact hn1
    | none => exact ih rep1 rep' e hn1 h

theorem check_redkeys (cfg : Cfg) (reg : Registry) (fs : Resolve) (dirs : List String)
    (data : Coll) (rep : Report) (h : (check cfg reg fs dirs data).2 = .ok rep) :
    (rep.redundant.map Prod.fst).Nodup := by
  unfold check at h
  rw [loadDirs_eq] at h
  obtain ⟨rep', e, h1⟩ := runs_keep cfg reg data (allVisits cfg.recursive fs dirs) (Report.start data)
  rw [h1] at h
  cases e with
  | some e => simp at h
  | none =>
    simp only [Except.ok.injEq] at h
    subst h
    exact runs_redkeys cfg reg data _ _ _ none (by simp [Report.start]) h1

theorem lookup_of_mem {β : Type} (l : List (String × β)) (h : (l.map Prod.fst).Nodup) (k : String) (b : β) :
    (k, b) ∈ l ↔ l.lookup k = some b := by
  induction l with
  | nil => simp
  | cons x l ih =>
    obtain ⟨j, c⟩ := x
    simp only [List.map_cons, List.nodup_cons] at h
    rw [List.lookup_cons, List.mem_cons]
    by_cases hk : k = j
    · subst hk
      simp only [beq_self_eq_true, Option.some.injEq]
      constructor
      · rintro (h' | h')
        · exact (Prod.mk.inj h').2.symm
        · exact absurd (List.mem_map.mpr ⟨_, h', rfl⟩) h.1
      · rintro rfl; exact Or.inl rfl
    · have : (k == j) = false := by simpa using hk
      rw [this]
      simp only [← ih h.2]
      constructor
      · rintro (h' | h')
        · exact absurd (Prod.mk.inj h').1 hk
        · exact h'
      · exact Or.inr

end PyroMat.Data.Props
