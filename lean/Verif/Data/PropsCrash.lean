import Verif.Data.PropsUpdate
import Verif.Data.CrashSpec

/-!
# C110: an interrupted `updatefiles` loses no entry and can be repeated
-/

set_option linter.unusedSimpArgs false

namespace PyroMat.Data.Props

open PyroMat PyroMat.Data PyroMat.Data.Spec

/-! ## The list of operations is what `updatefiles` does -/

theorem runOps_append (can : String → Bool) (a b : List Op) (fs : Flat) :
    runOps can (a ++ b) fs = runOps can b (runOps can a fs) := by
  simp [runOps, List.foldl_append]

theorem others_succ (files : List String) : ∀ i : Nat, others 0 (i + 1) files = files := by
  induction files with
  | nil => intro i; rfl
  | cons f files ih =>
    intro i
    rw [others, if_pos (by omega), ih]

theorem others_zero (files : List String) : others 0 0 files = files.tail := by
  cases files with
  | nil => rfl
  | cons f files =>
    rw [others, if_neg (by simp), others_succ]
    rfl

theorem runOps_hide (can : String → Bool) (l : List String) :
    ∀ fs, runOps can (l.map .hide) fs = l.foldl (fun fs p => (suppressFile fs p).1) fs := by
  induction l with
  | nil => intro fs; rfl
  | cons p l ih =>
    intro fs
    have := ih (suppressFile fs p).1
    simpa [runOps, Op.run] using this

theorem runOps_remove (can : String → Bool) (l : List String) :
    ∀ fs, runOps can (l.map .remove) fs = l.foldl (fun fs p => (removeFile can fs p).1) fs := by
  induction l with
  | nil => intro fs; rfl
  | cons p l ih =>
    intro fs
    have := ih (removeFile can fs p).1
    simpa [runOps, Op.run] using this

theorem repairOps_eq (rep : Report) :
    repairOps rep = (rep.redundant.flatMap fun e => others 0 0 e.2).map .hide := by
  unfold repairOps
  rw [List.map_flatMap]
  congr 1
  funext e
  rw [others_zero]

theorem run_repair (u : Update) (hq : u.verbose = false) (rep : Report) (fs : Flat) :
    repairStep u rep fs = (runOps u.can (repairOps rep) fs, none) := by
  unfold repairStep
  rw [hq, repairOps_eq, runOps_hide]
  simpa using quiet_eq u.can 0 rep.redundant fs

theorem run_bad (u : Update) (hq : u.verbose = false) (rep : Report) (fs : Flat) :
    badStep u rep fs = (runOps u.can (badOps u rep) fs, none) := by
  unfold badStep badOps
  rw [hq]
  cases u.deletefiles with
  | true => simp [runOps_remove]
  | false => simp [runOps]

theorem run_add (u : Update) (data : Coll) (ks : List String) :
    ∀ fs fs', addStep u data ks fs = (fs', none) → runOps u.can (addOps u data ks) fs = fs' := by
  induction ks with
  | nil => intro fs fs' h; simp [addStep] at h; simp [addOps, runOps, h]
  | cons k ks ih =>
    intro fs fs' h
    rw [addStep] at h
    rw [addOps]
    cases hk : data.lookup k with
    | none => rw [hk] at h; simp at h
    | some r =>
      rw [hk] at h
      simp only at h ⊢
      cases ht : newTarget u r with
      | error e => rw [ht] at h; simp at h
      | ok fil =>
        rw [ht] at h
        have := ih _ _ h
        simpa [runOps, Op.run] using this

theorem run_change (u : Update) (hq : u.verbose = false) (data found : Coll) (ks : List String) :
    ∀ fs fs', changeStep u data found ks fs = (fs', none) →
      runOps u.can (changeOps data found ks) fs = fs' := by
  induction ks with
  | nil => intro fs fs' h; simp [changeStep] at h; simp [changeOps, runOps, h]
  | cons k ks ih =>
    intro fs fs' h
    rw [changeStep] at h
    rw [changeOps]
    cases hk : data.lookup k with
    | none => rw [hk] at h; simp at h
    | some r =>
      cases hf : found.lookup k with
      | none => rw [hk, hf] at h; simp at h
      | some f =>
        rw [hk, hf] at h
        simp only [hq, Bool.false_eq_true, and_false, if_false] at h
        have := ih _ _ h
        simpa [runOps, Op.run] using this

theorem run_removed (u : Update) (hq : u.verbose = false) (found : Coll) (ks : List String) :
    ∀ fs fs', removeStep u found ks fs = (fs', none) →
      runOps u.can (removeOps u found ks) fs = fs' := by
  induction ks with
  | nil => intro fs fs' h; simp [removeStep] at h; simp [removeOps, runOps, h]
  | cons k ks ih =>
    intro fs fs' h
    rw [removeStep] at h
    rw [removeOps]
    cases hf : found.lookup k with
    | none => rw [hf] at h; simp at h
    | some f =>
      rw [hf] at h
      simp only [hq, Bool.false_eq_true, if_false] at h
      cases hd : u.deletefiles with
      | true =>
        rw [hd] at h
        have := ih _ _ h
        simpa [runOps, Op.run] using this
      | false =>
        rw [hd] at h
        have := ih _ _ h
        simpa [runOps, Op.run] using this

theorem run_record (u : Update) (hq : u.verbose = false) (data : Coll) (rep : Report) (fs fs' : Flat)
    (h : recordStep u data rep fs = (fs', none)) : runOps u.can (recordOps u data rep) fs = fs' := by
  unfold recordStep at h
  cases h1 : addStep u data rep.added fs with
  | mk f1 e1 =>
    rw [h1] at h
    cases e1 with
    | some e => simp at h
    | none =>
      simp only at h
      cases h2 : changeStep u data rep.data rep.changed f1 with
      | mk f2 e2 =>
        rw [h2] at h
        cases e2 with
        | some e => simp at h
        | none =>
          simp only at h
          rw [recordOps, runOps_append, runOps_append, run_add u data _ _ _ h1, run_change u hq _ _ _ _ _ h2,
            run_removed u hq _ _ _ _ h]

/-- C110: carrying out all operations of the list, one after the other, is what a quiet
`updatefiles` does. -/
theorem C110_operations (u : Update) (hq : u.verbose = false) (data : Coll) (fs fs' : Flat)
    (h : updatefiles u data fs = (fs', none)) : fs' = runOps u.can (updateOps u data fs) fs := by
  unfold updatefiles at h
  unfold updateOps
  split at h
  · simp at h
  · cases hc : checkFiles u.cfg u.reg u.places data fs with
    | error e => rw [hc] at h; simp at h
    | ok rep =>
      rw [hc] at h
      simp only [run_repair u hq, run_bad u hq] at h
      rw [← runOps_append] at h
      simp only
      split
      · rename_i hne
        rw [if_pos hne] at h
        cases hc2 : checkFiles u.cfg u.reg u.places data (runOps u.can (repairOps rep ++ badOps u rep) fs) with
        | error e => rw [hc2] at h; simp at h
        | ok rep2 =>
          rw [hc2] at h
          simp only
          rw [runOps_append, run_record u hq data rep2 _ _ h]
      · rename_i hne
        rw [if_neg hne] at h
        rw [runOps_append, run_record u hq data rep _ _ h]

/-! ## What the operations are -/

/-- What an operation may be. -/
def Legit (u : Update) (data : Coll) (fs : Flat) (dest : String) : Op → Prop
  | .write p r => Unsaved u.places data fs r ∧ p = home u.places fs dest r
  | .hide p => Obsolete u.places data fs p
  | .remove p => u.deletefiles = true ∧
      (p ∈ unreadable (allVisits u.cfg.recursive (view u.places fs) u.places.dirs) ∨
        Obsolete u.places data fs p)

theorem victim_obsolete (pl : Places) (ht : Tidy pl) (data : Coll) (fs : Flat) (p : String)
    (h : Victim pl fs p) : Obsolete pl data fs p := by
  obtain ⟨k, h⟩ := h
  obtain ⟨f, hf, rfl⟩ := List.mem_map.mp h
  obtain ⟨h1, rfl⟩ := mem_withId.mp (List.mem_of_mem_tail hf)
  refine ⟨f, h1, rfl, Or.inr ?_⟩
  intro h2
  have hnd : ((withId f.id (onFile pl fs)).map Rec.fromfile).Nodup :=
    (onFile_nodup pl ht fs).sublist ((List.filter_sublist (l := onFile pl fs)).map Rec.fromfile)
  cases hw : withId f.id (onFile pl fs) with
  | nil => rw [hw] at hf; simp at hf
  | cons a l =>
    rw [hw] at h2 hf hnd
    simp only [List.head?_cons, Option.some.injEq] at h2
    simp only [List.tail_cons] at hf
    subst h2
    simp only [List.map_cons, List.nodup_cons] at hnd
    exact hnd.1 (List.mem_map.mpr ⟨a, hf, rfl⟩)

open Classical in
theorem first_recordAt (u : Update) (hq : u.verbose = false) (hcan : ∀ p, u.can p = true) (ht : Tidy u.places)
    (data : Coll) (hk : Keyed data) (fs : Flat) (rep : Report)
    (hc : checkFiles u.cfg u.reg u.places data fs = .ok rep) (p : String) (hp : p ∈ paths u.places) :
    recordAt (runOps u.can (repairOps rep ++ badOps u rep) fs) p =
      if Victim u.places fs p then none else recordAt fs p := by
  obtain ⟨fsA, hA1, hA2, -⟩ := quiet_takes_first u.can u.cfg u.reg u.places ht data hk.distinct fs rep hc
  have hvic : ∀ p, Victim u.places fs p → HasExt p ".hpd" := by
    rintro q ⟨k, hq⟩
    obtain ⟨r, hr, rfl⟩ := List.mem_map.mp hq
    exact paths_hpd u.places _
      ((mem_onFile u.places fs r).mp (mem_withId.mp (List.mem_of_mem_tail hr)).1).1
  have hA : runOps u.can (repairOps rep) fs = fsA := by
    have := run_repair u hq rep fs
    unfold repairStep at this
    rw [hq] at this
    simp only [Bool.false_eq_true, if_false] at this
    rw [hA1] at this
    exact (Prod.mk.inj this).1.symm
  rw [runOps_append, hA, ← recordAt_suppressed u.places _ fs fsA hvic hA2 p hp]
  unfold badOps
  cases u.deletefiles with
  | false => rfl
  | true =>
    simp only [if_true, runOps_remove]
    have hr := remove_list u.can hcan rep.bad fsA
    by_cases hb : p ∈ rep.bad
    · have D := C23_check_report u.cfg u.reg (view u.places fs) u.places.dirs data rep hk.distinct hc
      have h2 : recordAt fs p = none := by
        rw [D.bad] at hb
        exact bad_unreadable _ u.places fs p hb
      rw [recordAt_suppressed u.places _ fs fsA hvic hA2 p hp, h2, ite_self]
      unfold recordAt
      rw [hr.gone p hb]
    · unfold recordAt
      rw [hr.rest p hb]

theorem first_legit (u : Update) (ht : Tidy u.places) (data : Coll) (hk : Keyed data) (fs : Flat) (dest : String)
    (rep : Report) (hc : checkFiles u.cfg u.reg u.places data fs = .ok rep) :
    ∀ op ∈ repairOps rep ++ badOps u rep, Legit u data fs dest op := by
  intro op ho
  rcases List.mem_append.mp ho with ho | ho
  · unfold repairOps at ho
    rw [List.mem_flatMap] at ho
    obtain ⟨e, he, ho⟩ := ho
    obtain ⟨p, hp, rfl⟩ := List.mem_map.mp ho
    refine victim_obsolete _ ht _ _ _ ?_
    rw [← victims_of_report u.cfg u.reg u.places ht data fs rep hk.distinct hc]
    exact ⟨e, he, (notSelected_zero _ _).mpr hp⟩
  · unfold badOps at ho
    split at ho
    · rename_i hdel
      obtain ⟨p, hp, rfl⟩ := List.mem_map.mp ho
      have D := C23_check_report u.cfg u.reg (view u.places fs) u.places.dirs data rep hk.distinct hc
      refine ⟨hdel, Or.inl ?_⟩
      rwa [← D.bad]
    · simp at ho

theorem mem_addOps (u : Update) (data : Coll) (dest : String) (hd : NewIn u dest) (ks : List String) (op : Op)
    (h : op ∈ addOps u data ks) : ∃ k ∈ ks, ∃ r, data.lookup k = some r ∧ op = .write (place dest r) r := by
  induction ks with
  | nil => simp [addOps] at h
  | cons k ks ih =>
    rw [addOps] at h
    cases hk : data.lookup k with
    | none => rw [hk] at h; simp at h
    | some r =>
      rw [hk] at h
      simp only [newTarget_place u dest hd r, List.mem_cons] at h
      rcases h with rfl | h
      · exact ⟨k, List.mem_cons_self, r, hk, rfl⟩
      · obtain ⟨j, hj, h⟩ := ih h
        exact ⟨j, List.mem_cons_of_mem k hj, h⟩

theorem mem_changeOps (data found : Coll) (ks : List String) (op : Op) (h : op ∈ changeOps data found ks) :
    ∃ k ∈ ks, ∃ r f, data.lookup k = some r ∧ found.lookup k = some f ∧ op = .write f.fromfile r := by
  induction ks with
  | nil => simp [changeOps] at h
  | cons k ks ih =>
    rw [changeOps] at h
    cases hk : data.lookup k with
    | none => rw [hk] at h; simp at h
    | some r =>
      cases hf : found.lookup k with
      | none => rw [hk, hf] at h; simp at h
      | some f =>
        rw [hk, hf] at h
        simp only [List.mem_cons] at h
        rcases h with rfl | h
        · exact ⟨k, List.mem_cons_self, r, f, hk, hf, rfl⟩
        · obtain ⟨j, hj, h⟩ := ih h
          exact ⟨j, List.mem_cons_of_mem k hj, h⟩

theorem mem_removeOps (u : Update) (found : Coll) (ks : List String) (op : Op) (h : op ∈ removeOps u found ks) :
    ∃ k ∈ ks, ∃ f, found.lookup k = some f ∧
      op = if u.deletefiles then .remove f.fromfile else .hide f.fromfile := by
  induction ks with
  | nil => simp [removeOps] at h
  | cons k ks ih =>
    rw [removeOps] at h
    cases hf : found.lookup k with
    | none => rw [hf] at h; simp at h
    | some f =>
      rw [hf] at h
      simp only [List.mem_cons] at h
      rcases h with rfl | h
      · exact ⟨k, List.mem_cons_self, f, hf, rfl⟩
      · obtain ⟨j, hj, h⟩ := ih h
        exact ⟨j, List.mem_cons_of_mem k hj, h⟩

theorem record_legit (u : Update) (ht : Tidy u.places) (data : Coll) (hk : Keyed data) (fs fs1 : Flat)
    (dest : String) (hd : NewIn u dest) (rep : Report)
    (hc : checkFiles u.cfg u.reg u.places data fs1 = .ok rep)
    (htk : ∀ k, withId k (onFile u.places fs1) = (withId k (onFile u.places fs)).take 1) :
    ∀ op ∈ recordOps u data rep, Legit u data fs dest op := by
  have D := C23_check_report u.cfg u.reg (view u.places fs1) u.places.dirs data rep hk.distinct hc
  have hfound : ∀ k, rep.data.lookup k = (withId k (onFile u.places fs)).head? := by
    intro k
    rw [D.onDisk k, records_view _ _ ht, htk k, winner_single]
  have hhome : ∀ r, home u.places fs dest r = match (withId r.id (onFile u.places fs)).head? with
    | some f => f.fromfile | none => place dest r := fun r => rfl
  intro op ho
  unfold recordOps at ho
  rcases List.mem_append.mp ho with ho | ho
  · rcases List.mem_append.mp ho with ho | ho
    · obtain ⟨k, hm, r, hr, rfl⟩ := mem_addOps u data dest hd _ _ ho
      have hid := hk.own k r hr
      subst hid
      have hnone : (withId r.id (onFile u.places fs)).head? = none := by
        have := ((D.added r.id).mp hm).2
        rw [records_view _ _ ht, ← withId_ne_nil, htk] at this
        cases hw : withId r.id (onFile u.places fs) with
        | nil => rfl
        | cons a l => rw [hw] at this; simp at this
      exact ⟨⟨hr, by rw [hnone]; simp⟩, by rw [hhome, hnone]⟩
    · obtain ⟨k, hm, r, f, hr, hf, rfl⟩ := mem_changeOps _ _ _ _ ho
      have hid := hk.own k r hr
      subst hid
      rw [hfound] at hf
      obtain ⟨f', r', h4, h5, h6⟩ := (D.changed r.id).mp hm
      rw [records_view _ _ ht, htk] at h4
      have h4' : (withId r.id (onFile u.places fs)).head? = some f' := by
        cases hw : withId r.id (onFile u.places fs) with
        | nil => rw [hw] at h4; simp at h4
        | cons a l => rw [hw] at h4; simpa using h4
      rw [hr] at h5
      cases h5
      refine ⟨⟨hr, ?_⟩, by rw [hhome, hf]⟩
      rw [h4']
      simpa using fun h => h6 h.symm
  · obtain ⟨k, hm, f, hf, rfl⟩ := mem_removeOps u _ _ _ ho
    rw [hfound] at hf
    obtain ⟨h1, h2⟩ := mem_withId.mp (List.mem_of_mem_head? hf)
    have hob : Obsolete u.places data fs f.fromfile :=
      ⟨f, h1, rfl, Or.inl (by rw [h2]; exact ((D.removed k).mp hm).2)⟩
    cases hdel : u.deletefiles with
    | true => exact ⟨hdel, Or.inr hob⟩
    | false => exact hob

theorem ops_legit (u : Update) (hq : u.verbose = false) (hcan : ∀ p, u.can p = true) (ht : Tidy u.places)
    (data : Coll) (hk : Keyed data) (fs : Flat) (dest : String) (hd : NewIn u dest) :
    ∀ op ∈ updateOps u data fs, Legit u data fs dest op := by
  unfold updateOps
  cases hc : checkFiles u.cfg u.reg u.places data fs with
  | error e => simp
  | ok rep =>
    simp only
    have hf := first_legit u ht data hk fs dest rep hc
    have hrec := first_recordAt u hq hcan ht data hk fs rep hc
    split
    · cases hc2 : checkFiles u.cfg u.reg u.places data (runOps u.can (repairOps rep ++ badOps u rep) fs) with
      | error e => exact hf
      | ok rep2 =>
        simp only
        intro op ho
        rcases List.mem_append.mp ho with ho | ho
        · exact hf op ho
        · exact record_legit u ht data hk fs _ dest hd rep2 hc2 (withId_after u.places ht fs _ hrec) op ho
    · rename_i hne
      push Not at hne
      have he : runOps u.can (repairOps rep ++ badOps u rep) fs = fs := by
        simp [repairOps, badOps, hne.1, hne.2, runOps]
      rw [he] at hrec
      intro op ho
      rcases List.mem_append.mp ho with ho | ho
      · exact hf op ho
      · exact record_legit u ht data hk fs _ dest hd rep hc (withId_after u.places ht fs _ hrec) op ho

/-! ## What an interruption can leave -/

theorem obsolete_path {pl : Places} {data : Coll} {fs : Flat} {p : String} (h : Obsolete pl data fs p) :
    p ∈ paths pl ∧ recordAt fs p ≠ none := by
  obtain ⟨f, h1, rfl, -⟩ := h
  obtain ⟨h2, h3⟩ := (mem_onFile pl fs f).mp h1
  exact ⟨h2, by rw [h3]; simp⟩

theorem home_cases (pl : Places) (fs : Flat) (dest : String) (r : Rec) :
    (∃ f, (withId r.id (onFile pl fs)).head? = some f ∧ home pl fs dest r = f.fromfile ∧ f ∈ onFile pl fs ∧
      f.id = r.id) ∨
    (withId r.id (onFile pl fs) = [] ∧ home pl fs dest r = place dest r) := by
  unfold home
  cases hw : withId r.id (onFile pl fs) with
  | nil => right; simp
  | cons f l =>
    left
    obtain ⟨h1, h2⟩ := mem_withId.mp (show f ∈ withId r.id (onFile pl fs) by rw [hw]; simp)
    exact ⟨f, by simp, by simp, h1, h2⟩

/-- An entry's file is a data file and not obsolete. -/
theorem home_live (pl : Places) (ht : Tidy pl) (data : Coll) (hk : Keyed data) (fs : Flat) (dest : String)
    (hroom : Room pl fs dest data) (r : Rec) (hr : data.lookup r.id = some r) :
    home pl fs dest r ∈ paths pl ∧ ¬ Obsolete pl data fs (home pl fs dest r) := by
  rcases home_cases pl fs dest r with ⟨f, h1, h2, h3, h4⟩ | ⟨h1, h2⟩
  · rw [h2]
    refine ⟨((mem_onFile pl fs f).mp h3).1, ?_⟩
    rintro ⟨f', h5, h6, h7⟩
    have : f' = f := onFile_inj pl ht fs h5 h3 h6
    subst this
    rcases h7 with h7 | h7
    · rw [h4, hr] at h7; cases h7
    · rw [h4] at h7; exact h7 h1
  · rw [h2]
    obtain ⟨h3, h4⟩ := hroom.free r.id r hr h1
    exact ⟨h3, fun h => (obsolete_path h).2 h4⟩

/-- What a data file may hold in the state `g`, reached from `fs` by an interrupted update. -/
def Left (u : Update) (data : Coll) (fs : Flat) (dest : String) (g : Flat) (q : String) : Prop :=
  g q = fs q ∨
  (∃ r, Unsaved u.places data fs r ∧ q = home u.places fs dest r ∧ (g q = some (contentOf r) ∨ g q = some .bad)) ∨
  (Obsolete u.places data fs q ∧ g q = none ∧ (u.deletefiles = false → g (q ++ "~") = fs q)) ∨
  (u.deletefiles = true ∧ q ∈ unreadable (allVisits u.cfg.recursive (view u.places fs) u.places.dirs) ∧ g q = none)

theorem tilde_inj {p q : String} (h : p ++ "~" = q ++ "~") : p = q := by
  have := congrArg String.toList h
  simp only [String.toList_append, List.append_cancel_right_eq] at this
  exact String.toList_inj.mp this

theorem left_op (u : Update) (hcan : ∀ p, u.can p = true) (ht : Tidy u.places)
    (data : Coll) (hk : Keyed data) (fs : Flat) (dest : String)
    (hroom : Room u.places fs dest data) (g : Flat) (op : Op) (ho : Legit u data fs dest op)
    (hg : ∀ q ∈ paths u.places, Left u data fs dest g q) :
    ∀ q ∈ paths u.places, Left u data fs dest (op.run u.can g) q := by
  intro q hq
  have hx := paths_hpd _ _ hq
  cases op with
  | write p r =>
    obtain ⟨h1, rfl⟩ := ho
    have hp := (home_live u.places ht data hk fs dest hroom r h1.1).1
    by_cases hqp : q = home u.places fs dest r
    · right; left
      refine ⟨r, h1, hqp, Or.inl ?_⟩
      simp only [Op.run, writeFile_at _ _ _ _ _ (hcan _), if_pos hqp]
    · have e1 : (Op.write (home u.places fs dest r) r).run u.can g q = g q := writeFile_frame _ _ _ _ _ hqp
      have e2 : (Op.write (home u.places fs dest r) r).run u.can g (q ++ "~") = g (q ++ "~") :=
        writeFile_frame _ _ _ _ _ (hpd_ne_tilde (paths_hpd _ _ hp) hx).symm
      have := hg q hq
      unfold Left at this ⊢
      rw [e1, e2]
      exact this
  | hide p =>
    have hob : Obsolete u.places data fs p := ho
    have hp := paths_hpd _ _ (obsolete_path hob).1
    have S := suppress_one g p hp
    by_cases hqp : q = p
    · subst hqp
      right; right; left
      refine ⟨hob, S.gone q rfl, fun hdel => ?_⟩
      rcases hg q hq with h | ⟨r, h1, h2, -⟩ | ⟨-, h1, h2⟩ | ⟨h1, -⟩
      · cases hf : fs q with
        | none =>
          exfalso
          apply (obsolete_path hob).2
          unfold recordAt
          rw [hf]
        | some c => exact S.kept q c rfl (by rw [h, hf])
      · exact absurd (h2 ▸ hob) (home_live u.places ht data hk fs dest hroom r h1.1).2
      · rw [← h2 hdel]
        refine S.rest _ (fun h => hpd_ne_tilde hx hx h.symm) ?_
        rintro x rfl hne
        exact absurd h1 hne
      · rw [hdel] at h1; cases h1
    · have e1 : (Op.hide p).run u.can g q = g q :=
        S.rest q hqp (by rintro x rfl _; exact hpd_ne_tilde hx hp)
      have e2 : (Op.hide p).run u.can g (q ++ "~") = g (q ++ "~") :=
        S.rest _ (hpd_ne_tilde hp hx).symm (by rintro x rfl _ h; exact hqp (tilde_inj h))
      have := hg q hq
      unfold Left at this ⊢
      rw [e1, e2]
      exact this
  | remove p =>
    obtain ⟨hdel, ho⟩ := ho
    have e : (Op.remove p).run u.can g = fun q => if q = p then none else g q := remove_one u.can hcan g p
    by_cases hqp : q = p
    · subst hqp
      have e1 : (Op.remove q).run u.can g q = none := by rw [e]; simp
      rcases ho with ho | ho
      · exact Or.inr (Or.inr (Or.inr ⟨hdel, ho, e1⟩))
      · exact Or.inr (Or.inr (Or.inl ⟨ho, e1, by rw [hdel]; simp⟩))
    · have e1 : (Op.remove p).run u.can g q = g q := by rw [e]; simp [hqp]
      have := hg q hq
      unfold Left at this ⊢
      rw [e1, hdel] at *
      simpa using this

theorem left_torn (u : Update) (ht : Tidy u.places)
    (data : Coll) (hk : Keyed data) (fs : Flat) (dest : String)
    (hroom : Room u.places fs dest data) (g : Flat) (p : String) (r : Rec)
    (ho : Legit u data fs dest (.write p r))
    (hg : ∀ q ∈ paths u.places, Left u data fs dest g q) :
    ∀ q ∈ paths u.places, Left u data fs dest (fun q => if q = p then some .bad else g q) q := by
  intro q hq
  have hx := paths_hpd _ _ hq
  obtain ⟨h1, rfl⟩ := ho
  have hp := (home_live u.places ht data hk fs dest hroom r h1.1).1
  by_cases hqp : q = home u.places fs dest r
  · right; left
    exact ⟨r, h1, hqp, Or.inr (by simp [hqp])⟩
  · have e2 : q ++ "~" ≠ home u.places fs dest r := (hpd_ne_tilde (paths_hpd _ _ hp) hx).symm
    have := hg q hq
    unfold Left at this ⊢
    simp only [hqp, e2, if_false]
    exact this

theorem left_all (u : Update) (hcan : ∀ p, u.can p = true) (ht : Tidy u.places)
    (data : Coll) (hk : Keyed data) (fs : Flat) (dest : String)
    (hroom : Room u.places fs dest data) (ops : List Op) (s g : Flat) (hi : Interrupted u.can ops s g)
    (ho : ∀ op ∈ ops, Legit u data fs dest op)
    (hs : ∀ q ∈ paths u.places, Left u data fs dest s q) :
    ∀ q ∈ paths u.places, Left u data fs dest g q := by
  induction hi with
  | stop ops s => exact hs
  | next _ ih =>
    exact ih (fun op h => ho op (List.mem_cons_of_mem _ h))
      (left_op u hcan ht data hk fs dest hroom _ _ (ho _ List.mem_cons_self) hs)
  | torn _ ih =>
    exact ih (fun op h => ho op (List.mem_cons_of_mem _ h))
      (left_torn u ht data hk fs dest hroom _ _ _ (ho _ List.mem_cons_self) hs)
  | failed _ ih => exact ih (fun op h => ho op (List.mem_cons_of_mem _ h)) hs

theorem left_update (u : Update) (hq : u.verbose = false) (hcan : ∀ p, u.can p = true) (ht : Tidy u.places)
    (data : Coll) (hk : Keyed data) (fs g : Flat) (dest : String) (hd : NewIn u dest)
    (hroom : Room u.places fs dest data) (hi : Interrupted u.can (updateOps u data fs) fs g) :
    ∀ q ∈ paths u.places, Left u data fs dest g q :=
  left_all u hcan ht data hk fs dest hroom _ fs g hi (ops_legit u hq hcan ht data hk fs dest hd)
    (fun _ _ => Or.inl rfl)

/-- C110: a quiet `updatefiles` that ends at any point - between two operations, or in the middle of a
write - leaves each data file in one of these states.  It is as it was.  It is the file of an entry in
memory that was not saved yet, and holds that entry, or is unreadable because the entry was being
written (this is where the claim fails, see `C110_lost_defect`).  It held a record that was in conflict or had been removed from the collection: it is gone, and kept under
its suppressed name unless `deletefiles` is set.  Or it was unreadable and has been deleted as `deletefiles` demands. -/
theorem C110_files_partial (u : Update) (hq : u.verbose = false) (hcan : ∀ p, u.can p = true) (ht : Tidy u.places)
    (data : Coll) (hk : Keyed data) (fs g : Flat) (dest : String) (hd : NewIn u dest)
    (hroom : Room u.places fs dest data) (hi : Interrupted u.can (updateOps u data fs) fs g)
    (q : String) (hp : q ∈ paths u.places) :
    g q = fs q ∨
    (∃ r, Unsaved u.places data fs r ∧ q = home u.places fs dest r ∧
      (recordAt g q = some { r with fromfile := q } ∨ recordAt g q = none)) ∨
    (Obsolete u.places data fs q ∧ g q = none ∧ (u.deletefiles = false → g (q ++ "~") = fs q)) ∨
    (u.deletefiles = true ∧ recordAt fs q = none ∧ g q = none) := by
  rcases left_update u hq hcan ht data hk fs g dest hd hroom hi q hp with h | ⟨r, h1, h2, h3⟩ | h | ⟨h1, h2, h3⟩
  · exact Or.inl h
  · refine Or.inr (Or.inl ⟨r, h1, h2, ?_⟩)
    rcases h3 with h3 | h3
    · exact Or.inl (recordAt_content g q r h3)
    · right; unfold recordAt; rw [h3]
  · exact Or.inr (Or.inr (Or.inl h))
  · exact Or.inr (Or.inr (Or.inr ⟨h1, bad_unreadable _ _ fs q h2, h3⟩))

/-- C110: other files are not touched, however the update ends: only the suppressed names of data files with
obsolete records, and unreadable files when `deletefiles` is set. -/
theorem C110_untouched (u : Update) (hq : u.verbose = false) (hcan : ∀ p, u.can p = true) (ht : Tidy u.places)
    (data : Coll) (hk : Keyed data) (fs g : Flat) (dest : String) (hd : NewIn u dest)
    (hroom : Room u.places fs dest data) (hi : Interrupted u.can (updateOps u data fs) fs g)
    (q : String) (hp : q ∉ paths u.places) (hs : ∀ p, Obsolete u.places data fs p → q ≠ p ++ "~")
    (hb : u.deletefiles = true → q ∉ unreadable (allVisits u.cfg.recursive (view u.places fs) u.places.dirs)) :
    g q = fs q := by
  have ho := ops_legit u hq hcan ht data hk fs dest hd
  have hhome : ∀ p r, Legit u data fs dest (.write p r) → q ≠ p := by
    rintro p r ⟨h1, rfl⟩ rfl
    exact hp (home_live u.places ht data hk fs dest hroom r h1.1).1
  generalize updateOps u data fs = ops at hi ho
  have key : ∀ s, Interrupted u.can ops s g → s q = fs q → g q = fs q := by
    intro s hi
    clear * - hi ho hhome hp hs hb hcan
    induction hi with
    | stop => exact id
    | @next op ops s g _ ih =>
      intro h
      refine ih (fun op h => ho op (List.mem_cons_of_mem _ h)) ?_
      have hop := ho op List.mem_cons_self
      rw [← h]
      cases op with
      | write p r => exact writeFile_frame _ _ _ _ _ (hhome p r hop)
      | hide p =>
        have hob := obsolete_path (show Obsolete u.places data fs p from hop)
        refine (suppress_one s p (paths_hpd _ _ hob.1)).rest q (fun h => hp (h ▸ hob.1)) ?_
        rintro x rfl _
        exact hs x hop
      | remove p =>
        obtain ⟨hdel, hop⟩ := hop
        have hne : q ≠ p := by
          rintro rfl
          rcases hop with hop | hop
          · exact hb hdel hop
          · exact hp (obsolete_path hop).1
        simp only [Op.run, remove_one u.can hcan, if_neg hne]
    | @torn p r ops s g _ ih =>
      intro h
      refine ih (fun op h => ho op (List.mem_cons_of_mem _ h)) ?_
      simp only [if_neg (hhome p r (ho _ List.mem_cons_self))]
      exact h
    | failed _ ih => exact ih (fun op h => ho op (List.mem_cons_of_mem _ h))
  exact key fs hi rfl

/-- C110: an entry that is on file as it is in memory is never touched. -/
theorem C110_saved_stay (u : Update) (hq : u.verbose = false) (hcan : ∀ p, u.can p = true) (ht : Tidy u.places)
    (data : Coll) (hk : Keyed data) (fs g : Flat) (dest : String) (hd : NewIn u dest)
    (hroom : Room u.places fs dest data) (hi : Interrupted u.can (updateOps u data fs) fs g)
    (k : String) (r : Rec) (hr : data.lookup k = some r)
    (hf : (withId k (onFile u.places fs)).head? = some r) : g r.fromfile = fs r.fromfile := by
  have hid := hk.own k r hr
  subst hid
  have hon := (mem_withId.mp (List.mem_of_mem_head? hf)).1
  obtain ⟨hp, hrec⟩ := (mem_onFile u.places fs r).mp hon
  have hh : home u.places fs dest r = r.fromfile := by unfold home; rw [hf]
  rcases left_update u hq hcan ht data hk fs g dest hd hroom hi _ hp with h | ⟨r', h1, h2, -⟩ | ⟨h, -⟩ | ⟨-, h, -⟩
  · exact h
  · exfalso
    rcases home_cases u.places fs dest r' with ⟨f, a1, a2, a3, a4⟩ | ⟨a1, a2⟩
    · have : f = r := onFile_inj u.places ht fs a3 hon (by rw [← a2, ← h2])
      subst this
      have h3 := h1.1
      rw [← a4, hr] at h3
      cases h3
      exact h1.2 a1
    · have := (hroom.free r'.id r' h1.1 a1).2
      rw [← a2, ← h2, hrec] at this
      cases this
  · rw [← hh] at h
    exact absurd h (home_live u.places ht data hk fs dest hroom r hr).2
  · rw [bad_unreadable _ _ fs _ h] at hrec
    cases hrec

/-! ## Trying again -/

theorem apart_room (pl : Places) (fs : Flat) (dest : String) (data : Coll) (h : Apart pl fs dest data) :
    Room pl fs dest data := by
  refine ⟨fun k r h1 h2 => ?_, fun k r k' r' h1 h2 _ _ h3 => h.own k r k' r' h1 h2 h3⟩
  obtain ⟨h3, h4⟩ := h.free k r h1
  refine ⟨h3, ?_⟩
  cases hx : recordAt fs (place dest r) with
  | none => rfl
  | some x =>
    exfalso
    have hfrom : x.fromfile = place dest r := by
      unfold recordAt at hx
      split at hx
      · cases hx; rfl
      · cases hx
    have : x ∈ withId k (onFile pl fs) := by
      rw [mem_withId, mem_onFile, hfrom]
      exact ⟨⟨h3, hx⟩, h4 x hx⟩
    rw [h2] at this
    simp at this

theorem apart_after (u : Update) (hq : u.verbose = false) (hcan : ∀ p, u.can p = true) (ht : Tidy u.places)
    (data : Coll) (hk : Keyed data) (fs g : Flat) (dest : String) (hd : NewIn u dest)
    (ha : Apart u.places fs dest data) (hi : Interrupted u.can (updateOps u data fs) fs g) :
    Apart u.places g dest data := by
  refine ⟨fun k r h1 => ⟨(ha.free k r h1).1, fun x hx => ?_⟩, ha.own⟩
  have hroom := apart_room _ _ _ _ ha
  rcases left_update u hq hcan ht data hk fs g dest hd hroom hi _ (ha.free k r h1).1 with
    h | ⟨r', h2, h3, h4⟩ | ⟨-, h, -⟩ | ⟨-, -, h⟩
  · apply (ha.free k r h1).2 x
    unfold recordAt at hx ⊢
    rwa [← h]
  · rcases h4 with h4 | h4
    · rw [recordAt_content g _ r' h4] at hx
      cases hx
      show r'.id = k
      rcases home_cases u.places fs dest r' with ⟨f, a1, a2, a3, a4⟩ | ⟨a1, a2⟩
      · have := (ha.free k r h1).2 f (by rw [h3, a2]; exact ((mem_onFile _ _ f).mp a3).2)
        rw [← a4, this]
      · exact ha.own _ _ _ _ h2.1 h1 (by rw [← a2, ← h3])
    · unfold recordAt at hx
      rw [h4] at hx
      cases hx
  · unfold recordAt at hx
    rw [h] at hx
    cases hx
  · unfold recordAt at hx
    rw [h] at hx
    cases hx

theorem records_after (u : Update) (hq : u.verbose = false) (hcan : ∀ p, u.can p = true) (ht : Tidy u.places)
    (data : Coll) (hk : Keyed data) (fs g : Flat) (dest : String) (hd : NewIn u dest)
    (hroom : Room u.places fs dest data) (hi : Interrupted u.can (updateOps u data fs) fs g) (x : Rec)
    (hx : x ∈ onFile u.places g) :
    x ∈ onFile u.places fs ∨ ∃ r, data.lookup x.id = some r ∧ x = { r with fromfile := x.fromfile } := by
  obtain ⟨h1, h2⟩ := (mem_onFile _ _ x).mp hx
  rcases left_update u hq hcan ht data hk fs g dest hd hroom hi _ h1 with h | ⟨r, h3, h4, h5⟩ | ⟨-, h, -⟩ | ⟨-, -, h⟩
  · left
    rw [mem_onFile]
    refine ⟨h1, ?_⟩
    unfold recordAt at h2 ⊢
    rwa [← h]
  · rcases h5 with h5 | h5
    · right
      rw [recordAt_content g _ r h5] at h2
      have h2' := Option.some.inj h2
      refine ⟨r, ?_, h2'.symm⟩
      have : x.id = r.id := by rw [← h2']
      rw [this]
      exact h3.1
    · unfold recordAt at h2
      rw [h5] at h2
      cases h2
  · unfold recordAt at h2
    rw [h] at h2
    cases h2
  · unfold recordAt at h2
    rw [h] at h2
    cases h2

/-- C110: whatever is read after an interrupted update was on file before, or is an entry that is in
memory: no record is ever a mixture. -/
theorem C110_records (u : Update) (hq : u.verbose = false) (hcan : ∀ p, u.can p = true) (ht : Tidy u.places)
    (data : Coll) (hk : Keyed data) (fs g : Flat) (dest : String) (hd : NewIn u dest)
    (ha : Apart u.places fs dest data) (hi : Attempts u data fs g) (x : Rec) (hx : x ∈ onFile u.places g) :
    x ∈ onFile u.places fs ∨ ∃ r, data.lookup x.id = some r ∧ x = { r with fromfile := x.fromfile } := by
  have key : Apart u.places g dest data ∧ ∀ x ∈ onFile u.places g,
      x ∈ onFile u.places fs ∨ ∃ r, data.lookup x.id = some r ∧ x = { r with fromfile := x.fromfile } := by
    clear hx
    induction hi with
    | none => exact ⟨ha, fun x hx => Or.inl hx⟩
    | more _ h ih =>
      obtain ⟨ih1, ih2⟩ := ih
      refine ⟨apart_after u hq hcan ht data hk _ _ dest hd ih1 h, fun x hx => ?_⟩
      rcases records_after u hq hcan ht data hk _ _ dest hd (apart_room _ _ _ _ ih1) h x hx with h' | h'
      · exact ih2 x h'
      · exact Or.inr h'
  exact key.2 x hx

/-- C110: after any number of interrupted quiet updates, the next one that is not interrupted
succeeds, and a load into an empty collection then gives exactly the collection in memory.
It is assumed that each entry in memory has a data file of its own that holds no other entry, and that
`dat_exist_fatal` is not set. -/
theorem C110_repeat (u : Update) (hq : u.verbose = false) (hcan : ∀ p, u.can p = true) (ht : Tidy u.places)
    (data : Coll) (hk : Keyed data) (fs g : Flat) (dest : String) (hd : NewIn u dest)
    (ha : Apart u.places fs dest data) (hf : u.cfg.fatal = false)
    (hl : ∀ r ∈ onFile u.places fs, Loadable u.reg r)
    (hm : ∀ k r, data.lookup k = some r → ∀ p, Loadable u.reg { r with fromfile := p })
    (hi : Attempts u data fs g) :
    ∃ fs', updatefiles u data g = (fs', none) ∧ ∀ cfg', ∃ data',
      load cfg' u.reg (view u.places fs') u.places.dirs [] = (data', none) ∧
      ∀ k, data'.lookup k =
        (data.lookup k).map fun r => { r with fromfile := home u.places g dest r } := by
  have hag : Apart u.places g dest data := by
    induction hi with
    | none => exact ha
    | more _ h ih => exact apart_after u hq hcan ht data hk _ _ dest hd ih h
  have hlg : ∀ r ∈ onFile u.places g, Loadable u.reg r := by
    intro x hx
    rcases C110_records u hq hcan ht data hk fs g dest hd ha hi x hx with h | ⟨r, h1, h2⟩
    · exact hl x h
    · rw [h2]
      exact hm _ r h1 _
  obtain ⟨fs', h⟩ := C91_succeeds u hq hcan ht data hk g dest hd hf hlg
  exact ⟨fs', h, C91_recorded u hq hcan ht data hk g fs' dest hd (apart_room _ _ _ _ hag) hm h⟩

/-! ## An entry that is being written -/

theorem only_writes (u : Update) (hcan : ∀ p, u.can p = true) (data : Coll) (fs : Flat) (dest : String)
    (p : String) (hx : HasExt p ".hpd") (ops : List Op) (ho : ∀ op ∈ ops, Legit u data fs dest op)
    (hn : ∀ r, Op.write p r ∉ ops) :
    ∀ s, recordAt (runOps u.can ops s) p = recordAt s p ∨ recordAt (runOps u.can ops s) p = none := by
  induction ops with
  | nil => intro s; exact Or.inl rfl
  | cons op ops ih =>
    intro s
    have hih := ih (fun o h => ho o (List.mem_cons_of_mem _ h)) (fun r h => hn r (List.mem_cons_of_mem _ h))
      (op.run u.can s)
    have e : runOps u.can (op :: ops) s = runOps u.can ops (op.run u.can s) := rfl
    rw [e]
    have hop : recordAt (op.run u.can s) p = recordAt s p ∨ recordAt (op.run u.can s) p = none := by
      have hl := ho op List.mem_cons_self
      cases op with
      | write q r =>
        left
        have : p ≠ q := fun h => hn r (by rw [h]; exact List.mem_cons_self)
        unfold recordAt
        rw [show (Op.write q r).run u.can s p = s p from writeFile_frame _ _ _ _ _ this]
      | hide q =>
        have hq := paths_hpd _ _ (obsolete_path (show Obsolete u.places data fs q from hl)).1
        have S := suppress_one s q hq
        by_cases h : p = q
        · right
          unfold recordAt
          rw [show (Op.hide q).run u.can s p = none from S.gone p h]
        · left
          unfold recordAt
          rw [show (Op.hide q).run u.can s p = s p from
            S.rest p h (by rintro x rfl _; exact hpd_ne_tilde hx hq)]
      | remove q =>
        have e : (Op.remove q).run u.can s p = if p = q then none else s p := by
          simp only [Op.run, remove_one u.can hcan]
        by_cases h : p = q
        · right; unfold recordAt; rw [e, if_pos h]
        · left; unfold recordAt; rw [e, if_neg h]
    rcases hih with h | h
    · rw [h]; exact hop
    · exact Or.inr h

theorem interrupted_at (can : String → Bool) (p : String) (r : Rec) (b a : List Op) :
    ∀ s, Interrupted can (a ++ .write p r :: b) s
      (fun q => if q = p then some .bad else runOps can a s q) := by
  induction a with
  | nil => intro s; exact .torn (.stop _ _)
  | cons op a ih => intro s; exact .next (ih (op.run can s))

/-- **C110 disagreement.** A changed entry is written over its only file, and `open(fil,'w')` empties the
file first (`dat.py:530`): when the process ends before the text is written, the identifier is on file
neither as it was before nor as it was to be, although it was in the collection before and is so after a
complete update. -/
theorem C110_lost_defect (u : Update) (hq : u.verbose = false) (hcan : ∀ p, u.can p = true) (ht : Tidy u.places)
    (data : Coll) (hk : Keyed data) (fs fs' : Flat) (dest : String) (hd : NewIn u dest)
    (hroom : Room u.places fs dest data) (h : updatefiles u data fs = (fs', none))
    (k : String) (r f : Rec) (hr : data.lookup k = some r) (hone : withId k (onFile u.places fs) = [f])
    (hne : Rec.says r ≠ Rec.says f) :
    withId k (onFile u.places fs') = [{ r with fromfile := f.fromfile }] ∧
    ∃ g, Interrupted u.can (updateOps u data fs) fs g ∧ withId k (onFile u.places g) = [] := by
  have hid := hk.own k r hr
  subst hid
  have hhome : home u.places fs dest r = f.fromfile := by unfold home; rw [hone]; rfl
  obtain ⟨hon, -⟩ := mem_withId.mp (show f ∈ withId r.id (onFile u.places fs) by rw [hone]; simp)
  obtain ⟨hp, hrec⟩ := (mem_onFile _ _ f).mp hon
  obtain ⟨-, hafter⟩ := (recorded u hq hcan ht data hk fs fs' dest hd hroom h).1 r.id r hr
  rw [hhome] at hafter
  refine ⟨hafter, ?_⟩
  have hmem : ({ r with fromfile := f.fromfile } : Rec) ∈ onFile u.places fs' :=
    (mem_withId.mp (show _ ∈ withId r.id (onFile u.places fs') by rw [hafter]; exact List.mem_cons_self)).1
  have hrec' : recordAt fs' f.fromfile = some { r with fromfile := f.fromfile } := ((mem_onFile _ _ _).mp hmem).2
  have ho := ops_legit u hq hcan ht data hk fs dest hd
  -- there is a write to the file
  obtain ⟨r', hw⟩ : ∃ r', Op.write f.fromfile r' ∈ updateOps u data fs := by
    by_contra hn
    push Not at hn
    have := only_writes u hcan data fs dest f.fromfile (paths_hpd _ _ hp) _ ho hn fs
    rw [← C110_operations u hq data fs fs' h, hrec', hrec] at this
    rcases this with h' | h'
    · apply hne
      have := Option.some.inj h'
      rw [← this]
      rfl
    · cases h'
  obtain ⟨a, b, hab⟩ := List.append_of_mem hw
  refine ⟨_, hab ▸ interrupted_at u.can f.fromfile r' b a fs, ?_⟩
  by_contra hnil
  obtain ⟨x, hx1, hx2⟩ := withId_ne_nil.mp hnil
  obtain ⟨hxp, hxr⟩ := (mem_onFile _ _ x).mp hx1
  have hi : Interrupted u.can (updateOps u data fs) fs
      (fun q => if q = f.fromfile then some .bad else runOps u.can a fs q) :=
    hab ▸ interrupted_at u.can f.fromfile r' b a fs
  have hxne : x.fromfile ≠ f.fromfile := by
    intro he
    unfold recordAt at hxr
    rw [he] at hxr
    simp at hxr
  rcases left_update u hq hcan ht data hk fs _ dest hd hroom hi _ hxp with
    h' | ⟨r'', h3, h4, h5⟩ | ⟨-, h', -⟩ | ⟨-, -, h'⟩
  · have : recordAt fs x.fromfile = some x := by
      unfold recordAt at hxr ⊢
      rw [h'] at hxr
      exact hxr
    have hm : x ∈ withId r.id (onFile u.places fs) := mem_withId.mpr ⟨(mem_onFile _ _ x).mpr ⟨hxp, this⟩, hx2⟩
    rw [hone, List.mem_singleton] at hm
    exact hxne (by rw [hm])
  · rcases h5 with h5 | h5
    · rw [recordAt_content _ _ r'' h5] at hxr
      have he : r''.id = r.id := by
        rw [← hx2, ← Option.some.inj hxr]
      have h6 := h3.1
      rw [he, hr] at h6
      cases h6
      exact hxne (by rw [h4, hhome])
    · unfold recordAt at hxr
      rw [h5] at hxr
      cases hxr
  · unfold recordAt at hxr
    rw [h'] at hxr
    cases hxr
  · unfold recordAt at hxr
    rw [h'] at hxr
    cases hxr

end PyroMat.Data.Props
