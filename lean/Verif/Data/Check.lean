import Verif.Data.Props

/-!
# C23: check mode
-/

set_option linter.unusedSimpArgs false

namespace PyroMat.Data.Props

open PyroMat PyroMat.Data PyroMat.Data.Spec

/-- What the report of a check says, in terms of the visited files and the collection. -/
structure Describes (overwrite : Bool) (data : Coll) (vs : List Visit) (rep : Report) : Prop where
  bad : rep.bad = unreadable vs
  suppressed : rep.suppressed = suppressedIn vs
  onDisk : ∀ k, rep.data.lookup k = winner overwrite none (withId k (records vs))
  removed : ∀ k, k ∈ rep.removed ↔ (∃ r ∈ records vs, r.id = k) ∧ data.lookup k = none
  added : ∀ k, k ∈ rep.added ↔ k ∈ data.map Prod.fst ∧ ¬ ∃ r ∈ records vs, r.id = k
  changed : ∀ k, k ∈ rep.changed ↔ ∃ r old, (withId k (records vs)).head? = some r ∧
    data.lookup k = some old ∧ old ≠ r
  redundant : ∀ k, rep.redundant.lookup k =
    if 2 ≤ (withId k (records vs)).length then some ((withId k (records vs)).map Rec.fromfile)
    else none

theorem records_append (vs ws : List Visit) : records (vs ++ ws) = records vs ++ records ws := by
  simp [records]

theorem withId_append (k : String) (a b : List Rec) : withId k (a ++ b) = withId k a ++ withId k b := by
  simp [withId]

theorem withId_single (k : String) (t : Rec) : withId k [t] = if t.id = k then [t] else [] := by
  simp [withId, List.filter_cons]

theorem withId_ne_nil {k : String} {rs : List Rec} : withId k rs ≠ [] ↔ ∃ r ∈ rs, r.id = k := by
  constructor
  · intro h
    obtain ⟨r, l, hr⟩ := List.exists_cons_of_ne_nil h
    have : r ∈ withId k rs := by rw [hr]; simp
    simp only [withId, List.mem_filter, decide_eq_true_eq] at this
    exact ⟨r, this⟩
  · rintro ⟨r, h1, h2⟩ h
    have : r ∈ withId k rs := by simp [withId, h1, h2]
    rw [h] at this
    simp at this

theorem winner_none_iff (ow : Bool) (l : List Rec) : winner ow none l = none ↔ l = [] := by
  cases ow <;> cases l <;> simp [winner, List.getLast?_cons]

theorem lookup_addRedundant (red : List (String × List String)) (id first file k : String) :
    (addRedundant red id first file).lookup k =
      if k = id then
        (match red.lookup id with
          | some fs => some (fs ++ [file])
          | none => some [first, file])
      else red.lookup k := by
  induction red with
  | nil =>
    by_cases hk : k = id
    · simp [addRedundant, hk, List.lookup_cons]
    · have : (k == id) = false := by simpa using hk
      simp [addRedundant, hk, List.lookup_cons, this]
  | cons p red ih =>
    obtain ⟨j, fs⟩ := p
    simp only [addRedundant]
    by_cases hj : j = id
    · subst hj
      by_cases hk : k = j
      · subst hk; simp [List.lookup_cons]
      · have : (k == j) = false := by simpa using hk
        simp [List.lookup_cons, this, hk]
    · rw [if_neg hj]
      have hj' : (id == j) = false := by simpa using fun e => hj e.symm
      by_cases hk : k = j
      · subst hk
        have : ¬ k = id := hj
        simp [List.lookup_cons, this]
      · have hkj : (k == j) = false := by simpa using hk
        rw [List.lookup_cons, hkj, List.lookup_cons, hj', List.lookup_cons, hkj]
        exact ih

/-- `construct` in check mode. -/
theorem construct_check (reg : Registry) (data : Coll) (rep : Report) (t : Rec) (s' : St)
    (h : construct reg ⟨data, some rep⟩ t = (s', none)) :
    s' = ⟨data, some { rep with data := rep.data.set t.id t }⟩ := by
  unfold construct at h
  cases h1 : reg t.cls with
  | none => rw [h1] at h; simp at h
  | some mk =>
    rw [h1] at h
    simp only at h
    cases h2 : mk t with
    | none => rw [h2] at h; simp only [Prod.mk.injEq, and_true] at h; rw [← h]; rfl
    | some e => rw [h2] at h; simp at h

theorem construct_data (reg : Registry) (data : Coll) (rep : Report) (t : Rec) :
    (construct reg ⟨data, some rep⟩ t).1.data = data ∧
    (construct reg ⟨data, some rep⟩ t).1.check.isSome := by
  unfold construct
  cases reg t.cls with
  | none => exact ⟨rfl, rfl⟩
  | some mk => cases h : mk t <;> simp [h, St.store]

theorem head?_append_withId (k : String) (rs : List Rec) (t : Rec) :
    (withId k (rs ++ [t])).head? = if withId k rs = [] ∧ t.id = k then some t
      else (withId k rs).head? := by
  rw [withId_append, withId_single]
  cases h : withId k rs with
  | nil => by_cases hk : t.id = k <;> simp [hk]
  | cons r l => simp

theorem step_describes (cfg : Cfg) (reg : Registry) (data : Coll) (vs : List Visit)
    (rep : Report) (v : Visit) (s' : St) (hn : rep.added.Nodup)
    (hinv : Describes cfg.overwrite data vs rep)
    (h : Visit.act (fileAct cfg reg) supAct v ⟨data, some rep⟩ = (s', none)) :
    ∃ rep', s' = ⟨data, some rep'⟩ ∧ rep'.added.Nodup ∧
      Describes cfg.overwrite data (vs ++ [v]) rep' := by
  cases v with
  | sup p =>
    simp only [Visit.act, supAct, Prod.mk.injEq, and_true] at h
    refine ⟨_, h.symm, hn, ?_⟩
    have hr : records (vs ++ [.sup p]) = records vs := by simp [records, Visit.record?]
    constructor
    · simp [unreadable, hinv.bad]
    · simp [suppressedIn, hinv.suppressed]
    · rw [hr]; exact hinv.onDisk
    · rw [hr]; exact hinv.removed
    · rw [hr]; exact hinv.added
    · rw [hr]; exact hinv.changed
    · rw [hr]; exact hinv.redundant
  | file p c =>
    simp only [Visit.act] at h
    unfold fileAct at h
    have hsup : suppressedIn (vs ++ [.file p c]) = suppressedIn vs := by simp [suppressedIn]
    cases hl : loadFile p c with
    | none =>
      rw [hl] at h
      simp only [Prod.mk.injEq, and_true] at h
      have hrec : Visit.record? (.file p c) = none := by rw [record?_eq, hl]
      have hr : records (vs ++ [.file p c]) = records vs := by simp [records, hrec]
      refine ⟨_, h.symm, hn, ?_⟩
      constructor
      · simp [unreadable, hinv.bad, hrec]
      · rw [hsup]; exact hinv.suppressed
      · rw [hr]; exact hinv.onDisk
      · rw [hr]; exact hinv.removed
      · rw [hr]; exact hinv.added
      · rw [hr]; exact hinv.changed
      · rw [hr]; exact hinv.redundant
    | some t =>
      rw [hl] at h
      have hrec : Visit.record? (.file p c) = some t := by rw [record?_eq, hl]
      have hpath : t.fromfile = p := by
        cases c with
        | bad => simp [Visit.record?] at hrec
        | json i cl d rest =>
          cases i <;> cases cl <;> cases d <;> simp [Visit.record?] at hrec
          rw [← hrec]
      have hr : records (vs ++ [.file p c]) = records vs ++ [t] := by
        rw [records_append]; simp [records, hrec]
      have hbad : unreadable (vs ++ [.file p c]) = unreadable vs := by
        simp [unreadable, hrec]
      simp only [St.loadto] at h
      cases hold : rep.data.lookup t.id with
      | some old =>
        rw [hold] at h
        simp only at h
        have hne : withId t.id (records vs) ≠ [] := by
          intro e
          have := hinv.onDisk t.id
          rw [hold, e] at this
          simp [winner] at this
        have hex : ∃ r ∈ records vs, r.id = t.id := withId_ne_nil.mp hne
        have hexk : ∀ k, (∃ r ∈ records vs ++ [t], r.id = k) ↔ ∃ r ∈ records vs, r.id = k := by
          intro k
          constructor
          · rintro ⟨r, h1, h2⟩
            rcases List.mem_append.mp h1 with h1 | h1
            · exact ⟨r, h1, h2⟩
            · simp at h1; subst h1; subst h2; exact hex
          · rintro ⟨r, h1, h2⟩; exact ⟨r, by simp [h1], h2⟩
        have hhead : ∀ k, (withId k (records vs ++ [t])).head? = (withId k (records vs)).head? := by
          intro k
          rw [head?_append_withId, if_neg]
          rintro ⟨h1, h2⟩
          subst h2
          exact hne h1
        have hred : ∀ k, (addRedundant rep.redundant t.id old.fromfile p).lookup k =
            if 2 ≤ (withId k (records vs ++ [t])).length then
              some ((withId k (records vs ++ [t])).map Rec.fromfile) else none := by
          intro k
          rw [lookup_addRedundant]
          by_cases hk : k = t.id
          · subst hk
            rw [if_pos rfl, hinv.redundant t.id]
            have hw : withId t.id (records vs ++ [t]) = withId t.id (records vs) ++ [t] := by
              rw [withId_append, withId_single, if_pos rfl]
            rw [hw]
            have hlen : 2 ≤ (withId t.id (records vs) ++ [t]).length := by
              have := List.length_pos_iff.mpr hne
              simp; omega
            rw [if_pos hlen]
            by_cases h2 : 2 ≤ (withId t.id (records vs)).length
            · rw [if_pos h2]; simp [hpath]
            · rw [if_neg h2]
              obtain ⟨r, l, hrl⟩ := List.exists_cons_of_ne_nil hne
              rw [hrl] at h2
              have hl0 : l = [] := by
                cases l with
                | nil => rfl
                | cons => simp at h2
              subst hl0
              have := hinv.onDisk t.id
              rw [hold, hrl] at this
              have : old = r := by
                cases hov : cfg.overwrite <;> rw [hov] at this <;> simpa [winner] using this
              subst this
              simp [hrl, hpath]
          · rw [if_neg hk, hinv.redundant k]
            have hk' : ¬ t.id = k := fun e => hk e.symm
            rw [withId_append, withId_single, if_neg hk', List.append_nil]
        have key : ∀ d : Coll, (∀ k, d.lookup k = winner cfg.overwrite none (withId k (records vs ++ [t]))) →
            Describes cfg.overwrite data (vs ++ [.file p c])
              ⟨rep.changed, rep.added, rep.removed, addRedundant rep.redundant t.id old.fromfile p,
                rep.suppressed, rep.bad, d⟩ := by
          intro d hd
          constructor
          · rw [hbad]; exact hinv.bad
          · rw [hsup]; exact hinv.suppressed
          · rw [hr]; exact hd
          · intro k; rw [hr, hexk]; exact hinv.removed k
          · intro k; rw [hr, hexk]; exact hinv.added k
          · intro k; rw [hr, hhead]; exact hinv.changed k
          · intro k; rw [hr]; exact hred k
        cases hf : cfg.fatal with
        | true => rw [hf] at h; simp at h
        | false =>
          rw [hf] at h
          cases ho : cfg.overwrite with
          | false =>
            rw [ho] at h
            simp only [Bool.false_eq_true, if_false, Bool.not_false, if_true, Prod.mk.injEq,
              and_true] at h
            refine ⟨_, h.symm, hn, ?_⟩
            rw [← ho]
            apply key
            intro k
            rw [hinv.onDisk k, ho]
            simp only [winner, Bool.false_eq_true, if_false, hhead]
          | true =>
            rw [ho] at h
            simp only [Bool.false_eq_true, if_false, Bool.not_true] at h
            have hc := construct_check reg data _ t s' h
            refine ⟨_, hc, hn, ?_⟩
            rw [← ho]
            apply key
            intro k
            rw [lookup_set, hinv.onDisk k, ho]
            rw [withId_append, withId_single]
            by_cases hk : k = t.id
            · subst hk; simp [winner]
            · have hk' : ¬ t.id = k := fun e => hk e.symm
              simp [hk, hk']
      | none =>
        rw [hold] at h
        simp only at h
        have hnil : withId t.id (records vs) = [] := by
          have := hinv.onDisk t.id
          rw [hold] at this
          exact (winner_none_iff _ _).mp this.symm
        have hno : ¬ ∃ r ∈ records vs, r.id = t.id := fun e => withId_ne_nil.mpr e hnil
        have hc := construct_check reg data _ t s' h
        refine ⟨_, hc, ?_, ?_⟩
        · have : (noteNew data rep t).added = rep.added.erase t.id := by
            unfold noteNew
            cases data.lookup t.id with
            | none => rfl
            | some old => simp only; split <;> rfl
          show (noteNew data rep t).added.Nodup
          rw [this]
          exact hn.erase _
        · have hexk : ∀ k, (∃ r ∈ records vs ++ [t], r.id = k) ↔ (∃ r ∈ records vs, r.id = k) ∨ k = t.id := by
            intro k
            constructor
            · rintro ⟨r, h1, h2⟩
              rcases List.mem_append.mp h1 with h1 | h1
              · exact Or.inl ⟨r, h1, h2⟩
              · simp at h1; subst h1; exact Or.inr h2.symm
            · rintro (⟨r, h1, h2⟩ | h1)
              · exact ⟨r, by simp [h1], h2⟩
              · exact ⟨t, by simp, h1.symm⟩
          have f1 : (noteNew data rep t).bad = rep.bad ∧ (noteNew data rep t).suppressed = rep.suppressed ∧
              (noteNew data rep t).redundant = rep.redundant ∧ (noteNew data rep t).data = rep.data ∧
              (noteNew data rep t).added = rep.added.erase t.id := by
            unfold noteNew
            cases data.lookup t.id with
            | none => exact ⟨rfl, rfl, rfl, rfl, rfl⟩
            | some old => simp only; split <;> exact ⟨rfl, rfl, rfl, rfl, rfl⟩
          obtain ⟨f1, f2, f3, f4, f5⟩ := f1
          constructor
          · show (noteNew data rep t).bad = _
            rw [hbad, f1]; exact hinv.bad
          · show (noteNew data rep t).suppressed = _
            rw [hsup, f2]; exact hinv.suppressed
          · intro k
            show ((noteNew data rep t).data.set t.id t).lookup k = _
            rw [f4, lookup_set, hr, withId_append, withId_single]
            by_cases hk : k = t.id
            · subst hk
              rw [hnil]
              cases cfg.overwrite <;> simp [winner]
            · have hk' : ¬ t.id = k := fun e => hk e.symm
              simp [hk, hk', hinv.onDisk k]
          · intro k
            show k ∈ (noteNew data rep t).removed ↔ _
            rw [hr, hexk]
            unfold noteNew
            cases hd : data.lookup t.id with
            | none =>
              simp only [List.mem_append, List.mem_singleton, hinv.removed k]
              constructor
              · rintro (⟨h1, h2⟩ | h1)
                · exact ⟨Or.inl h1, h2⟩
                · subst h1; exact ⟨Or.inr rfl, hd⟩
              · rintro ⟨h1 | h1, h2⟩
                · exact Or.inl ⟨h1, h2⟩
                · exact Or.inr h1
            | some old =>
              have : ∀ b : Prop, ∀ _ : Decidable b, ∀ x y : Report, x.removed = rep.removed →
                  y.removed = rep.removed → (if b then x else y).removed = rep.removed := by
                intro b _ x y hx hy
                split
                · exact hx
                · exact hy
              simp only
              rw [this]
              · rw [hinv.removed k]
                constructor
                · rintro ⟨h1, h2⟩; exact ⟨Or.inl h1, h2⟩
                · rintro ⟨h1 | h1, h2⟩
                  · exact ⟨h1, h2⟩
                  · subst h1; rw [hd] at h2; cases h2
              · rfl
              · rfl
          · intro k
            show k ∈ (noteNew data rep t).added ↔ _
            rw [f5, hr, hexk, hn.mem_erase_iff, hinv.added k]
            constructor
            · rintro ⟨h1, h2, h3⟩
              exact ⟨h2, fun h4 => h4.elim h3 h1⟩
            · rintro ⟨h1, h2⟩
              exact ⟨fun h3 => h2 (Or.inr h3), h1, fun h3 => h2 (Or.inl h3)⟩
          · intro k
            show k ∈ (noteNew data rep t).changed ↔ _
            rw [hr, head?_append_withId]
            unfold noteNew
            cases hd : data.lookup t.id with
            | none =>
              simp only [hinv.changed k]
              by_cases hk : t.id = k
              · subst hk; simp [hnil, hd]
              · simp [hk]
            | some old =>
              by_cases hot : old = t
              · simp only [hot, ne_eq, not_true_eq_false, if_false, hinv.changed k]
                by_cases hk : t.id = k
                · subst hk
                  simp [hnil, hd, hot]
                · simp [hk]
              · simp only [hot, ne_eq, not_false_eq_true, if_true, List.mem_append,
                  List.mem_singleton, hinv.changed k]
                by_cases hk : t.id = k
                · subst hk
                  simp [hnil, hd, hot]
                · have hk' : ¬ k = t.id := fun e => hk e.symm
                  simp [hk, hk']
          · intro k
            show (noteNew data rep t).redundant.lookup k = _
            rw [f3, hr, hinv.redundant k]
            by_cases hk : t.id = k
            · subst hk
              rw [withId_append, hnil, withId_single, if_pos rfl]
              simp
            · rw [withId_append, withId_single, if_neg hk, List.append_nil]

theorem act_keeps (cfg : Cfg) (reg : Registry) (v : Visit) (data : Coll) (rep : Report) :
    ∃ rep' e, Visit.act (fileAct cfg reg) supAct v ⟨data, some rep⟩ = (⟨data, some rep'⟩, e) := by
  have mk : ∀ (r : St × Option Err), r.1.data = data → r.1.check.isSome →
      ∃ rep' e, r = ((⟨data, some rep'⟩ : St), e) := by
    rintro ⟨⟨d, ck⟩, e⟩ h1 h2
    simp only at h1 h2
    obtain ⟨rep', hrep⟩ := Option.isSome_iff_exists.mp h2
    exact ⟨rep', e, by rw [h1, hrep]⟩
  cases v with
  | sup p => exact ⟨_, _, rfl⟩
  | file p c =>
    simp only [Visit.act]
    unfold fileAct
    cases loadFile p c with
    | none => exact ⟨_, _, rfl⟩
    | some t =>
      simp only [St.loadto]
      cases rep.data.lookup t.id with
      | none =>
        have := construct_data reg data (noteNew data rep t) t
        exact mk _ this.1 this.2
      | some old =>
        simp only
        split
        · exact ⟨_, _, rfl⟩
        · split
          · exact ⟨_, _, rfl⟩
          · have := construct_data reg data
              { rep with redundant := addRedundant rep.redundant t.id old.fromfile p } t
            exact mk _ this.1 this.2

theorem runs_keep (cfg : Cfg) (reg : Registry) (data : Coll) (ws : List Visit) :
    ∀ rep : Report, ∃ rep' e,
      runActs (ws.map (Visit.act (fileAct cfg reg) supAct)) ⟨data, some rep⟩
        = (⟨data, some rep'⟩, e) := by
  induction ws with
  | nil => intro rep; exact ⟨rep, none, rfl⟩
  | cons v ws ih =>
    intro rep
    obtain ⟨rep', e, h⟩ := act_keeps cfg reg v data rep
    simp only [List.map_cons, runActs, h]
    cases e with
    | none => exact ih rep'
    | some e => exact ⟨rep', some e, rfl⟩

theorem runs_describe (cfg : Cfg) (reg : Registry) (data : Coll) (ws : List Visit) :
    ∀ (vs : List Visit) (rep : Report) (s' : St), rep.added.Nodup →
      Describes cfg.overwrite data vs rep →
      runActs (ws.map (Visit.act (fileAct cfg reg) supAct)) ⟨data, some rep⟩ = (s', none) →
      ∃ rep', s' = ⟨data, some rep'⟩ ∧ Describes cfg.overwrite data (vs ++ ws) rep' := by
  induction ws with
  | nil =>
    intro vs rep s' hn hd h
    simp only [List.map_nil, runActs, Prod.mk.injEq, and_true] at h
    exact ⟨rep, h.symm, by simpa using hd⟩
  | cons v ws ih =>
    intro vs rep s' hn hd h
    simp only [List.map_cons, runActs] at h
    obtain ⟨s1, e, h1⟩ : ∃ s1 e, Visit.act (fileAct cfg reg) supAct v ⟨data, some rep⟩ = (s1, e) :=
      ⟨_, _, rfl⟩
    rw [h1] at h
    cases e with
    | some e => simp at h
    | none =>
      obtain ⟨rep', hs, hn', hd'⟩ := step_describes cfg reg data vs rep v s1 hn hd h1
      subst hs
      obtain ⟨rep2, h2, h3⟩ := ih (vs ++ [v]) rep' s' hn' hd' h
      exact ⟨rep2, h2, by simpa using h3⟩

/-- C23, no effect: a check never changes the collection, whether it returns or raises. -/
theorem C23_check_changes_nothing (cfg : Cfg) (reg : Registry) (fs : Resolve) (dirs : List String)
    (data : Coll) : (check cfg reg fs dirs data).1 = data := by
  unfold check
  rw [loadDirs_eq]
  obtain ⟨rep', e, h⟩ := runs_keep cfg reg data (allVisits cfg.recursive fs dirs) (Report.start data)
  simp only [h]

/-- C23, the report of a check that returns says exactly: which files are unreadable and which
suppressed; which identifiers are on disk but not in memory ("removed") and in memory but not on
disk ("added"); which identifiers have a record in memory different from the *first* file's
("changed"); and, for every identifier with two or more files, all of them in order
("redundant"). -/
theorem C23_check_report (cfg : Cfg) (reg : Registry) (fs : Resolve) (dirs : List String)
    (data : Coll) (rep : Report) (hk : (data.map Prod.fst).Nodup)
    (h : (check cfg reg fs dirs data).2 = .ok rep) :
    Describes cfg.overwrite data (allVisits cfg.recursive fs dirs) rep := by
  unfold check at h
  rw [loadDirs_eq] at h
  have h0 : Describes cfg.overwrite data [] (Report.start data) := by
    constructor <;> intros <;> simp [Report.start, unreadable, suppressedIn, records, withId, winner]
  obtain ⟨s1, e, h1⟩ : ∃ s1 e, runActs ((allVisits cfg.recursive fs dirs).map
      (Visit.act (fileAct cfg reg) supAct)) ⟨data, some (Report.start data)⟩ = (s1, e) := ⟨_, _, rfl⟩
  rw [h1] at h
  cases e with
  | some e => simp at h
  | none =>
    obtain ⟨rep', hs, hd⟩ := runs_describe cfg reg data _ [] (Report.start data) s1 hk h0 h1
    subst hs
    simp only [Except.ok.injEq] at h
    subst h
    simpa using hd

/-- The collection's keys stay distinct, as the previous theorem requires. -/
theorem set_keys (data : Coll) (k : String) (r : Rec) (h : (data.map Prod.fst).Nodup) :
    ((data.set k r).map Prod.fst).Nodup ∧
    ∀ j, j ∈ (data.set k r).map Prod.fst ↔ j = k ∨ j ∈ data.map Prod.fst := by
  induction data with
  | nil => simp [Coll.set]
  | cons p data ih =>
    obtain ⟨j, s⟩ := p
    simp only [List.map_cons, List.nodup_cons] at h
    obtain ⟨ih1, ih2⟩ := ih h.2
    simp only [Coll.set]
    split
    · rename_i hj
      subst hj
      exact ⟨by simpa using h, by simp⟩
    · rename_i hj
      refine ⟨?_, ?_⟩
      · simp only [List.map_cons, List.nodup_cons, ih1, and_true]
        rw [ih2]
        rintro (h' | h')
        · exact hj h'
        · exact h.1 h'
      · intro i
        simp only [List.map_cons, List.mem_cons, ih2]
        tauto

/-- C23, distinct keys are an invariant of loading. -/
theorem C23_keys_distinct (cfg : Cfg) (reg : Registry) (fs : Resolve) (dirs : List String)
    (data : Coll) (h : (data.map Prod.fst).Nodup) :
    ((load cfg reg fs dirs data).1.map Prod.fst).Nodup := by
  rw [load_eq]
  generalize records (allVisits cfg.recursive fs dirs) = rs
  induction rs generalizing data with
  | nil => exact h
  | cons t rs ih =>
    simp only [List.map_cons, runActs]
    rcases recAct_cases cfg reg t data with ⟨-, -, hr⟩ | ⟨-, -, -, hr⟩ | ⟨-, -, hr⟩ | ⟨-, -, e, hr⟩
    · rw [hr]; exact h
    · rw [hr]; exact ih data h
    · rw [hr]; exact ih _ (set_keys data t.id t h).1
    · rw [hr]; exact h

/-- C23, clean after a load: loading into an empty collection and then checking the same files
reports nothing added, removed or redundant, and - provided no identifier has two files - nothing
changed. -/
theorem C23_clean_after_load_partial (cfg : Cfg) (reg : Registry) (fs : Resolve) (dirs : List String)
    (data : Coll) (rep : Report)
    (hl : load cfg reg fs dirs [] = (data, none))
    (hd : ((records (allVisits cfg.recursive fs dirs)).map Rec.id).Nodup)
    (h : (check cfg reg fs dirs data).2 = .ok rep) :
    rep.added = [] ∧ rep.removed = [] ∧ rep.changed = [] ∧ ∀ k, rep.redundant.lookup k = none := by
  have hkeys : (data.map Prod.fst).Nodup := by
    have := C23_keys_distinct cfg reg fs dirs [] (by simp)
    rw [hl] at this; exact this
  have D := C23_check_report cfg reg fs dirs data rep hkeys h
  have W := C21_precedence cfg reg fs dirs [] data hl
  obtain ⟨rs, hrs⟩ : ∃ rs, rs = records (allVisits cfg.recursive fs dirs) := ⟨_, rfl⟩
  rw [← hrs] at hd
  simp only [← hrs] at W
  have Da := D.added
  have Dr := D.removed
  have Dc := D.changed
  have Dd := D.redundant
  simp only [← hrs] at Da Dr Dc Dd
  have hone : ∀ k, (withId k rs).length ≤ 1 := by
    intro k
    clear D W hl h Da Dr Dc Dd hrs
    induction rs with
    | nil => simp [withId]
    | cons t rs ih =>
      simp only [List.map_cons, List.nodup_cons] at hd
      simp only [withId, List.filter_cons]
      by_cases hk : t.id = k
      · have : withId k rs = [] := by
          by_contra hne
          obtain ⟨r, h1, h2⟩ := withId_ne_nil.mp hne
          exact hd.1 (List.mem_map.mpr ⟨r, h1, by rw [h2, hk]⟩)
        have h' : rs.filter (fun r => decide (r.id = k)) = [] := this
        simp [hk, h']
      · simpa [hk, withId] using ih hd.2
  have hlk : ∀ k, data.lookup k = (withId k rs).head? := by
    intro k
    rw [W k]
    have := hone k
    match hw : withId k rs with
    | [] => cases cfg.overwrite <;> simp [winner]
    | [a] => cases cfg.overwrite <;> simp [winner]
    | a :: b :: l => rw [hw] at this; simp at this
  refine ⟨?_, ?_, ?_, ?_⟩
  · apply List.eq_nil_iff_forall_not_mem.mpr
    intro k hk
    obtain ⟨h1, h2⟩ := (Da k).mp hk
    have h3 : withId k rs = [] := by
      by_contra hne; exact h2 (withId_ne_nil.mp hne)
    have h4 := hlk k
    rw [h3] at h4
    have : get data k = .error .param := by simp [get, h4]
    exact (C25_get data k).2.mp this h1
  · apply List.eq_nil_iff_forall_not_mem.mpr
    intro k hk
    obtain ⟨h1, h2⟩ := (Dr k).mp hk
    rw [hlk k] at h2
    exact withId_ne_nil.mpr h1 (by simpa using h2)
  · apply List.eq_nil_iff_forall_not_mem.mpr
    intro k hk
    obtain ⟨r, old, h1, h2, h3⟩ := (Dc k).mp hk
    rw [hlk k, h1] at h2
    exact h3 (Option.some.inj h2).symm
  · intro k
    rw [Dd k, if_neg]
    have := hone k
    omega

/-- Disagreement: with two files for one identifier (and `dat_overwrite`, not fatal) a check made
immediately after a fresh load reports the identifier as changed although nothing changed. -/
theorem C23_changed_defect :
    ∃ data rep, load ⟨false, true, true⟩ demoReg demoFs ["a", "b"] [] = (data, none) ∧
      (check ⟨false, true, true⟩ demoReg demoFs ["a", "b"] data).2 = .ok rep ∧
      "ig.X" ∈ rep.changed := by
  have hload : load ⟨false, true, true⟩ demoReg demoFs ["a", "b"] [] =
      ([("ig.X", ⟨"ig.X", "ig", "", 3, "b/x.hpd"⟩), ("ig.Y", ⟨"ig.Y", "ig", "", 1, "a/y.hpd"⟩)], none) := by
    rw [load_eq, demo_visits]; rfl
  have hok : ∃ rep, (check ⟨false, true, true⟩ demoReg demoFs ["a", "b"]
      [("ig.X", ⟨"ig.X", "ig", "", 3, "b/x.hpd"⟩), ("ig.Y", ⟨"ig.Y", "ig", "", 1, "a/y.hpd"⟩)]).2
        = .ok rep := by
    unfold check
    rw [loadDirs_eq]
    rw [demo_allVisits]
    exact ⟨_, rfl⟩
  obtain ⟨rep, hrep⟩ := hok
  refine ⟨_, rep, hload, hrep, ?_⟩
  have D := C23_check_report ⟨false, true, true⟩ demoReg demoFs ["a", "b"] _ rep (by simp) hrep
  rw [D.changed]
  refine ⟨⟨"ig.X", "ig", "", 2, "a/x.hpd"⟩, ⟨"ig.X", "ig", "", 3, "b/x.hpd"⟩, ?_, rfl, by simp⟩
  rw [demo_visits]
  rfl

/-- Disagreement: a check raises a data error on a file whose class is unknown (and on duplicates
when they are fatal) instead of reporting it. -/
theorem C23_unknown_class_defect (cfg : Cfg) (data : Coll) (fs : Resolve) (d p : String)
    (i c o : String) (rest : Payload) (hd : fs d = some (.file (.json (some i) (some c) (some o) rest)))
    (hp : p = d) (reg : Registry) (hc : reg c = none) :
    (check cfg reg fs [p] data).2 = .error .data := by
  subst hp
  unfold check
  rw [loadDirs_eq]
  simp only [allVisits, List.flatMap_cons, List.flatMap_nil, hd, visits, List.append_nil,
    List.map_cons, List.map_nil, runActs, Visit.act, fileAct, loadFile, St.loadto, Report.start,
    List.lookup_nil, construct, hc]

end PyroMat.Data.Props
