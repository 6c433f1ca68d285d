import Verif.Data.RepairLemmas

/-!
# C90: repairing redundancy conflicts
-/

set_option linter.unusedSimpArgs false

namespace PyroMat.Data.Props

open PyroMat PyroMat.Data PyroMat.Data.Spec

/-! ## Quietly -/

theorem quiet_eq (can : String → Bool) (select : Int) (red : List (String × List String)) :
    ∀ fs : Flat, redRepairQuiet can "s" select red fs
      = ((red.flatMap fun e => others select 0 e.2).foldl (fun fs p => (suppressFile fs p).1) fs, none) := by
  induction red with
  | nil => intro fs; rfl
  | cons e red ih =>
    intro fs
    obtain ⟨k, files⟩ := e
    simp only [redRepairQuiet, repairOne, show ("s" : String) ≠ "d" by decide, if_false, if_true, ih,
      sweep_eq, List.flatMap_cons, List.foldl_append]

theorem suppressed_congr {a b : String → Prop} {fs fs' : Flat} (h : ∀ q, a q ↔ b q)
    (hs : Suppressed a fs fs') : Suppressed b fs fs' := by
  have : a = b := funext fun q => propext (h q)
  rwa [← this]

/-- C90: the quiet repair with action `'s'` never raises.  It suppresses, in every conflict, exactly
the files other than the selected one; no other file is touched. -/
theorem C90_suppress (can : String → Bool) (select : Int) (red : List (String × List String)) (fs : Flat)
    (hx : ∀ e ∈ red, ∀ f ∈ e.2, HasExt f ".hpd") :
    ∃ fs', redRepairQuiet can "s" select red fs = (fs', none) ∧
      Suppressed (fun q => ∃ e ∈ red, NotSelected select e.2 q) fs fs' := by
  refine ⟨_, quiet_eq can select red fs, ?_⟩
  have hm : ∀ q, q ∈ (red.flatMap fun e => others select 0 e.2) ↔ ∃ e ∈ red, NotSelected select e.2 q := by
    intro q
    simp only [List.mem_flatMap, mem_others_zero]
  refine suppressed_congr hm (suppress_list _ ?_ fs)
  intro p hp
  obtain ⟨e, he, hq⟩ := (hm p).mp hp
  exact hx e he p (mem_notSelected hq)

/-- C90: the action `'i'` changes nothing. -/
theorem C90_ignore (can : String → Bool) (select : Int) (red : List (String × List String)) (fs : Flat) :
    redRepairQuiet can "i" select red fs = (fs, none) := by
  induction red generalizing fs with
  | nil => rfl
  | cons e red ih =>
    obtain ⟨k, files⟩ := e
    simp only [redRepairQuiet, repairOne, show ("i" : String) ≠ "d" by decide,
      show ("i" : String) ≠ "s" by decide, if_false, ih]

/-! ## After the repair -/

/-- The files that a repair with `select=0` suppresses: those of a conflict but the first. -/
def Victim (pl : Places) (fs : Flat) (p : String) : Prop :=
  ∃ k, p ∈ (withId k (onFile pl fs)).tail.map Rec.fromfile

theorem onFile_nodup (pl : Places) (ht : Tidy pl) (fs : Flat) : ((onFile pl fs).map Rec.fromfile).Nodup := by
  have : ∀ P : List String, ((P.filterMap (recordAt fs)).map Rec.fromfile).Sublist P := by
    intro P
    induction P with
    | nil => simp
    | cons p P ih =>
      rw [List.filterMap_cons]
      cases h : recordAt fs p with
      | none => exact ih.cons p
      | some r =>
        have hr : r.fromfile = p := by
          unfold recordAt at h
          split at h
          · cases h; rfl
          · cases h
        rw [List.map_cons, hr]
        exact ih.cons_cons p
  exact (this (paths pl)).nodup ht.distinct

theorem onFile_inj (pl : Places) (ht : Tidy pl) (fs : Flat) {a b : Rec} (ha : a ∈ onFile pl fs)
    (hb : b ∈ onFile pl fs) (h : a.fromfile = b.fromfile) : a = b :=
  List.inj_on_of_nodup_map (onFile_nodup pl ht fs) ha hb h

theorem mem_withId {k : String} {l : List Rec} {r : Rec} : r ∈ withId k l ↔ r ∈ l ∧ r.id = k := by
  simp [withId]

open Classical in
theorem onFile_filter (pl : Places) (fs fs' : Flat) (v : String → Prop)
    (h : ∀ p ∈ paths pl, recordAt fs' p = if v p then none else recordAt fs p) :
    onFile pl fs' = (onFile pl fs).filter (fun r => decide (¬ v r.fromfile)) := by
  unfold onFile
  generalize paths pl = P at h
  induction P with
  | nil => rfl
  | cons p P ih =>
    have ih := ih (fun q hq => h q (List.mem_cons_of_mem p hq))
    have hp := h p List.mem_cons_self
    rw [List.filterMap_cons, List.filterMap_cons]
    cases hr : recordAt fs p with
    | none =>
      rw [hr] at hp
      have : recordAt fs' p = none := by rw [hp]; split <;> rfl
      rw [this]
      exact ih
    | some r =>
      have hrp : r.fromfile = p := by
        unfold recordAt at hr
        split at hr
        · cases hr; rfl
        · cases hr
      rw [hr] at hp
      by_cases hv : v p
      · rw [hp, if_pos hv]
        simp only [ih]
        rw [List.filter_cons_of_neg]
        simp [hrp, hv]
      · rw [hp, if_neg hv]
        simp only [ih]
        rw [List.filter_cons_of_pos]
        simp [hrp, hv]

open Classical in
theorem withId_after (pl : Places) (ht : Tidy pl) (fs fs' : Flat)
    (h : ∀ p ∈ paths pl, recordAt fs' p = if Victim pl fs p then none else recordAt fs p) (k : String) :
    withId k (onFile pl fs') = (withId k (onFile pl fs)).take 1 := by
  rw [onFile_filter pl fs fs' _ h]
  have hc : withId k ((onFile pl fs).filter fun r => decide (¬ Victim pl fs r.fromfile))
      = (withId k (onFile pl fs)).filter fun r => decide (¬ Victim pl fs r.fromfile) := by
    unfold withId
    rw [List.filter_comm]
  rw [hc]
  have hnd : ((withId k (onFile pl fs)).map Rec.fromfile).Nodup :=
    (onFile_nodup pl ht fs).sublist ((List.filter_sublist (l := onFile pl fs)).map Rec.fromfile)
  cases hw : withId k (onFile pl fs) with
  | nil => rfl
  | cons r0 rest =>
    have h0 : r0 ∈ onFile pl fs ∧ r0.id = k := mem_withId.mp (by rw [hw]; exact List.mem_cons_self)
    rw [hw] at hnd
    simp only [List.map_cons, List.nodup_cons] at hnd
    rw [List.filter_cons_of_pos, List.take_succ_cons, List.take_zero]
    · congr 1
      rw [List.filter_eq_nil_iff]
      intro r hr
      simp only [decide_eq_true_eq, not_not]
      exact ⟨k, by rw [hw]; exact List.mem_map.mpr ⟨r, hr, rfl⟩⟩
    · simp only [decide_eq_true_eq]
      rintro ⟨k', hk'⟩
      obtain ⟨r', hr', hf⟩ := List.mem_map.mp hk'
      have hr'' := mem_withId.mp (List.mem_of_mem_tail hr')
      have : r' = r0 := onFile_inj pl ht fs hr''.1 h0.1 hf
      subst this
      have hkk : k' = k := hr''.2.symm.trans h0.2
      subst hkk
      rw [hw, List.tail_cons] at hr'
      exact hnd.1 (List.mem_map.mpr ⟨r', hr', rfl⟩)

theorem notSelected_zero (files : List String) (q : String) : NotSelected 0 files q ↔ q ∈ files.tail := by
  unfold NotSelected
  constructor
  · rintro ⟨i, h1, h2⟩
    cases i with
    | zero => simp at h2
    | succ i =>
      have : files.tail[i]? = some q := by rw [List.getElem?_tail]; exact h1
      exact List.mem_of_getElem? this
  · intro h
    obtain ⟨i, hi⟩ := List.mem_iff_getElem?.mp h
    rw [List.getElem?_tail] at hi
    exact ⟨i + 1, hi, by omega⟩

theorem victims_of_report (cfg : Cfg) (reg : Registry) (pl : Places) (ht : Tidy pl) (data : Coll) (fs : Flat)
    (rep : Report) (hk : (data.map Prod.fst).Nodup) (h : checkFiles cfg reg pl data fs = .ok rep) (q : String) :
    (∃ e ∈ rep.redundant, NotSelected 0 e.2 q) ↔ Victim pl fs q := by
  have D := C23_check_report cfg reg (view pl fs) pl.dirs data rep hk h
  have N := check_redkeys cfg reg (view pl fs) pl.dirs data rep h
  have R := D.redundant
  rw [records_view _ pl ht] at R
  constructor
  · rintro ⟨⟨k, files⟩, he, hq⟩
    rw [notSelected_zero] at hq
    have h1 := (lookup_of_mem _ N k files).mp he
    rw [R k] at h1
    split at h1
    · cases h1
      exact ⟨k, by rw [List.map_tail]; exact hq⟩
    · cases h1
  · rintro ⟨k, hq⟩
    have hlen : 2 ≤ (withId k (onFile pl fs)).length := by
      by_contra hl
      match hw : withId k (onFile pl fs) with
      | [] => rw [hw] at hq; simp at hq
      | [a] => rw [hw] at hq; simp at hq
      | a :: b :: l => rw [hw] at hl; simp at hl
    have h1 := R k
    rw [if_pos hlen] at h1
    refine ⟨(k, (withId k (onFile pl fs)).map Rec.fromfile), (lookup_of_mem _ N k _).mpr h1, ?_⟩
    rw [notSelected_zero, ← List.map_tail]
    exact hq

theorem redundant_files (cfg : Cfg) (reg : Registry) (pl : Places) (ht : Tidy pl) (data : Coll) (fs : Flat)
    (rep : Report) (hk : (data.map Prod.fst).Nodup) (h : checkFiles cfg reg pl data fs = .ok rep) :
    ∀ e ∈ rep.redundant, ∀ f ∈ e.2, HasExt f ".hpd" := by
  rintro ⟨k, files⟩ he f hf
  have D := C23_check_report cfg reg (view pl fs) pl.dirs data rep hk h
  have N := check_redkeys cfg reg (view pl fs) pl.dirs data rep h
  have R := D.redundant k
  rw [records_view _ pl ht, (lookup_of_mem _ N k files).mp he] at R
  split at R
  · cases R
    obtain ⟨r, hr, rfl⟩ := List.mem_map.mp hf
    exact paths_hpd pl _ ((mem_onFile pl fs r).mp (mem_withId.mp hr).1).1
  · cases R

open Classical in
theorem recordAt_suppressed (pl : Places) (v : String → Prop) (fs fs' : Flat)
    (hv : ∀ p, v p → HasExt p ".hpd") (hs : Suppressed v fs fs') (p : String) (hp : p ∈ paths pl) :
    recordAt fs' p = if v p then none else recordAt fs p := by
  by_cases h : v p
  · rw [if_pos h]
    unfold recordAt
    rw [hs.gone p h]
  · rw [if_neg h]
    have : fs' p = fs p := hs.rest p h (fun x hx _ => hpd_ne_tilde (paths_hpd pl p hp) (hv x hx))
    unfold recordAt
    rw [this]

theorem quiet_takes_first (can : String → Bool) (cfg : Cfg) (reg : Registry) (pl : Places) (ht : Tidy pl)
    (data : Coll) (hk : (data.map Prod.fst).Nodup) (fs : Flat) (rep : Report)
    (h : checkFiles cfg reg pl data fs = .ok rep) :
    ∃ fs', redRepairQuiet can "s" 0 rep.redundant fs = (fs', none) ∧
      Suppressed (Victim pl fs) fs fs' ∧
      ∀ k, withId k (onFile pl fs') = (withId k (onFile pl fs)).take 1 := by
  obtain ⟨fs', h1, h2⟩ := C90_suppress can 0 rep.redundant fs (redundant_files cfg reg pl ht data fs rep hk h)
  have h3 := suppressed_congr (victims_of_report cfg reg pl ht data fs rep hk h) h2
  refine ⟨fs', h1, h3, withId_after pl ht fs fs' ?_⟩
  intro p hp
  refine recordAt_suppressed pl _ fs fs' ?_ h3 p hp
  rintro q ⟨k, hq⟩
  obtain ⟨r, hr, rfl⟩ := List.mem_map.mp hq
  exact paths_hpd pl _ ((mem_onFile pl fs r).mp (mem_withId.mp (List.mem_of_mem_tail hr)).1).1

/-- C90: after the quiet repair of all conflicts a check reports, every identifier is in at most one
readable file - the one that was read first among those carrying it - so that even a load with
`dat_exist_fatal` succeeds and gives exactly those records. -/
theorem C90_after (can : String → Bool) (cfg : Cfg) (reg : Registry) (pl : Places) (ht : Tidy pl)
    (data : Coll) (hk : (data.map Prod.fst).Nodup) (fs : Flat) (rep : Report)
    (h : checkFiles cfg reg pl data fs = .ok rep)
    (hl : ∀ r ∈ onFile pl fs, Loadable reg r) :
    ∃ fs', redRepairQuiet can "s" 0 rep.redundant fs = (fs', none) ∧
      (∀ rep', checkFiles cfg reg pl data fs' = .ok rep' → rep'.redundant = []) ∧
      ∀ cfg' : Cfg, ∃ data', load cfg' reg (view pl fs') pl.dirs [] = (data', none) ∧
        ∀ k, data'.lookup k = (withId k (onFile pl fs)).head? := by
  obtain ⟨fs', h1, h2, h3⟩ := quiet_takes_first can cfg reg pl ht data hk fs rep h
  refine ⟨fs', h1, ?_, ?_⟩
  · intro rep' h'
    have D := C23_check_report cfg reg (view pl fs') pl.dirs data rep' hk h'
    have N := check_redkeys cfg reg (view pl fs') pl.dirs data rep' h'
    apply List.eq_nil_iff_forall_not_mem.mpr
    rintro ⟨k, files⟩ he
    have R := D.redundant k
    rw [records_view _ pl ht, (lookup_of_mem _ N k files).mp he, h3 k] at R
    rw [if_neg] at R
    · cases R
    · simp only [List.length_take]; omega
  · intro cfg'
    have hsub : ∀ r ∈ onFile pl fs', r ∈ onFile pl fs := by
      intro r hr
      have : r ∈ withId r.id (onFile pl fs') := mem_withId.mpr ⟨hr, rfl⟩
      rw [h3] at this
      exact (mem_withId.mp (List.mem_of_mem_take this)).1
    have hload : ∀ r ∈ records (allVisits cfg'.recursive (view pl fs') pl.dirs), Loadable reg r := by
      rw [records_view _ pl ht]
      exact fun r hr => hl r (hsub r hr)
    have hids : ((onFile pl fs').map Rec.id).Nodup := by
      have : ∀ L : List Rec, (∀ k, (withId k L).length ≤ 1) → (L.map Rec.id).Nodup := by
        intro L
        induction L with
        | nil => intro _; simp
        | cons a L ih =>
          intro hL
          rw [List.map_cons, List.nodup_cons]
          refine ⟨?_, ih fun k => ?_⟩
          · intro hm
            obtain ⟨b, hb, hid⟩ := List.mem_map.mp hm
            have h1 := hL a.id
            have h2 : b ∈ withId a.id L := mem_withId.mpr ⟨hb, hid⟩
            have h3 := List.length_pos_of_mem h2
            rw [withId, List.filter_cons_of_pos (by simp), List.length_cons] at h1
            rw [withId] at h3
            omega
          · have := hL k
            rw [withId, List.filter_cons] at this
            split at this
            · rw [List.length_cons] at this; rw [withId]; omega
            · exact this
      apply this
      intro k
      rw [h3 k, List.length_take]
      omega
    have hok : (load cfg' reg (view pl fs') pl.dirs []).2 = none := by
      have C := C22_exist_fatal cfg' reg (view pl fs') pl.dirs [] hload
      cases hf : cfg'.fatal with
      | false => exact C.2 hf
      | true =>
        rcases (C.1 hf).2 with h' | h'
        · exact h'
        · exfalso
          apply ((C.1 hf).1.mp h')
          rw [records_view _ pl ht]
          exact ⟨hids, by simp⟩
    refine ⟨(load cfg' reg (view pl fs') pl.dirs []).1, by rw [← hok], ?_⟩
    intro k
    rw [C21_precedence cfg' reg (view pl fs') pl.dirs [] _ (by rw [← hok]) k, records_view _ pl ht, h3 k]
    cases withId k (onFile pl fs) with
    | nil => cases cfg'.overwrite <;> simp [winner]
    | cons a l => cases cfg'.overwrite <;> simp [winner]

/-! ## With a dialogue -/

theorem deleted_congr {a b : String → Prop} {fs fs' : Flat} (h : ∀ q, a q ↔ b q)
    (hs : Deleted a fs fs') : Deleted b fs fs' := by
  have : a = b := funext fun q => propext (h q)
  rwa [← this]

/-- C90: the dialogue obeys.  Answering a conflict with `D` (or `S`) and the index of a file deletes
(suppresses) the other files of that conflict and nothing else, and goes on to the next. -/
theorem C90_obeys (can : String → Bool) (hcan : ∀ p, can p = true) (parse : String → Option Int) (k : String)
    (files : List String) (red : List (String × List String)) (x y : String) (rest : List String) (fs : Flat)
    (j : Nat) (hy : parse (lower y) = some (j : Int)) (hb : (lower y) ≠ "b") (hj : j < files.length)
    (hx : ∀ f ∈ files, HasExt f ".hpd") :
    ((lower x) = "d" → ∃ fs1, Deleted (NotSelected j files) fs fs1 ∧
      redRepairVerbose can parse ((k, files) :: red) (x :: y :: rest) fs
        = redRepairVerbose can parse red rest fs1) ∧
    ((lower x) = "s" → ∃ fs1, Suppressed (NotSelected j files) fs fs1 ∧
      redRepairVerbose can parse ((k, files) :: red) (x :: y :: rest) fs
        = redRepairVerbose can parse red rest fs1) ∧
    ((lower x) = "i" →
      redRepairVerbose can parse ((k, files) :: red) (x :: y :: rest) fs
        = redRepairVerbose can parse red (y :: rest) fs) := by
  have hr : ¬((j : Int) < 0 ∨ (files.length : Int) ≤ j) := by omega
  refine ⟨?_, ?_, ?_⟩
  · intro hd
    refine ⟨_, deleted_congr (mem_others_zero j files) (remove_list can hcan _ fs), ?_⟩
    have hm : menu parse files.length none (x :: y :: rest) = .ok (("d", (j : Int)), rest) := by
      simp only [menu, hd, show inIds "d" = true by decide, show inDs "d" = true by decide, if_true, hb,
        if_false, hy, hr]
    rw [redRepairVerbose, hm]
    simp only [repairOne, if_true, sweep_eq]
  · intro hd
    refine ⟨_, suppressed_congr (mem_others_zero j files) (suppress_list _ ?_ fs), ?_⟩
    · intro p hp
      exact hx p (mem_notSelected ((mem_others_zero j files p).mp hp))
    · have hm : menu parse files.length none (x :: y :: rest) = .ok (("s", (j : Int)), rest) := by
        simp only [menu, hd, show inIds "s" = true by decide, show inDs "s" = true by decide, if_true, hb,
          if_false, hy, hr]
      rw [redRepairVerbose, hm]
      simp only [repairOne, show ("s" : String) ≠ "d" by decide, if_false, if_true, sweep_eq]
  · intro hd
    have hm : menu parse files.length none (x :: y :: rest) = .ok (("i", 0), y :: rest) := by
      simp only [menu, hd, show inIds "i" = true by decide, show inDs "i" = false by decide, if_true,
        Bool.false_eq_true, if_false]
    rw [redRepairVerbose, hm]
    simp only [repairOne, show ("i" : String) ≠ "d" by decide, show ("i" : String) ≠ "s" by decide, if_false]

theorem removes_frame (can : String → Bool) (vs : List String) (q : String) (hq : q ∉ vs) :
    ∀ fs : Flat, (vs.foldl (fun fs p => (removeFile can fs p).1) fs) q = fs q := by
  induction vs with
  | nil => intro fs; rfl
  | cons p vs ih =>
    intro fs
    rw [List.foldl_cons, ih (fun h => hq (List.mem_cons_of_mem p h))]
    have hqp : q ≠ p := fun h => hq (by simp [h])
    unfold removeFile
    cases fs p with
    | none => rfl
    | some c =>
      simp only
      split
      · simp [hqp]
      · rfl

theorem repairOne_frame (can : String → Bool) (bound : Bool) (action : String) (select : Int) (files : List String)
    (hx : ∀ f ∈ files, HasExt f ".hpd") (fs : Flat) (q : String)
    (hq : ¬ ((action = "d" ∨ action = "s") ∧ NotSelected select files q))
    (ht : ∀ p ∈ files, q ≠ p ++ "~") :
    (repairOne can bound action select files fs).1 q = fs q := by
  unfold repairOne
  split
  · rename_i hd
    have hq' : q ∉ others select 0 files := by
      rw [mem_others_zero]; exact fun h => hq ⟨Or.inl hd, h⟩
    split
    · simp only [sweep_eq]
      exact removes_frame can _ q hq' fs
    · rfl
  · split
    · rename_i hs
      have hq' : q ∉ others select 0 files := by
        rw [mem_others_zero]; exact fun h => hq ⟨Or.inr hs, h⟩
      simp only [sweep_eq]
      refine (suppress_list _ ?_ fs).rest q hq' ?_
      · intro p hp
        exact hx p (mem_notSelected ((mem_others_zero select files p).mp hp))
      · intro p hp _
        exact ht p (mem_notSelected ((mem_others_zero select files p).mp hp))
    · rfl

theorem verbose_frame (can : String → Bool) (parse : String → Option Int) (red : List (String × List String))
    (hx : ∀ e ∈ red, ∀ f ∈ e.2, HasExt f ".hpd") (q : String)
    (hq : ∀ e ∈ red, q ∉ e.2) (ht : ∀ e ∈ red, ∀ p ∈ e.2, q ≠ p ++ "~") :
    ∀ (inputs : List String) (fs : Flat), (redRepairVerbose can parse red inputs fs).1 q = fs q := by
  induction red with
  | nil => intro _ _; rfl
  | cons e red ih =>
    obtain ⟨k, files⟩ := e
    intro inputs fs
    rw [redRepairVerbose]
    cases hm : menu parse files.length none inputs with
    | error e => rfl
    | ok r =>
      obtain ⟨⟨action, select⟩, rest⟩ := r
      have hf := repairOne_frame can true action select files (hx _ List.mem_cons_self) fs q
        (fun h => hq _ List.mem_cons_self (mem_notSelected h.2)) (ht _ List.mem_cons_self)
      simp only
      cases hr : repairOne can true action select files fs with
      | mk fs1 e =>
        rw [hr] at hf
        cases e with
        | some e => exact hf
        | none =>
          simp only
          rw [ih (fun e he => hx e (List.mem_cons_of_mem _ he)) (fun e he => hq e (List.mem_cons_of_mem _ he))
            (fun e he => ht e (List.mem_cons_of_mem _ he))]
          exact hf

/-- C90: whatever the user answers - and also when the dialogue is cut short - at least one file of
every conflict is left exactly as it was, and so is every file that is in no conflict (other than
the names suppressed files get). -/
theorem C90_one_left (can : String → Bool) (parse : String → Option Int) (red : List (String × List String))
    (hx : ∀ e ∈ red, ∀ f ∈ e.2, HasExt f ".hpd") (hd : (red.flatMap Prod.snd).Nodup)
    (hn : ∀ e ∈ red, e.2 ≠ []) (inputs : List String) (fs : Flat) :
    (∀ e ∈ red, ∃ q ∈ e.2, (redRepairVerbose can parse red inputs fs).1 q = fs q) ∧
    (∀ q, (∀ e ∈ red, q ∉ e.2 ∧ ∀ p ∈ e.2, q ≠ p ++ "~") →
      (redRepairVerbose can parse red inputs fs).1 q = fs q) := by
  refine ⟨?_, fun q hq => verbose_frame can parse red hx q (fun e he => (hq e he).1)
    (fun e he => (hq e he).2) inputs fs⟩
  induction red generalizing inputs fs with
  | nil => simp
  | cons e red ih =>
    obtain ⟨k, files⟩ := e
    have hx0 := hx _ List.mem_cons_self
    have hxr : ∀ e ∈ red, ∀ f ∈ e.2, HasExt f ".hpd" := fun e he => hx e (List.mem_cons_of_mem _ he)
    simp only [List.flatMap_cons, List.nodup_append] at hd
    obtain ⟨hd1, hd2, hd3⟩ := hd
    have hnr : ∀ e ∈ red, e.2 ≠ [] := fun e he => hn e (List.mem_cons_of_mem _ he)
    obtain ⟨f0, l0, hf0⟩ := List.exists_cons_of_ne_nil (hn _ List.mem_cons_self)
    simp only at hf0 hx0 hd1 hd3
    rw [redRepairVerbose]
    cases hm : menu parse files.length none inputs with
    | error e =>
      intro e he
      obtain ⟨f1, l1, hf1⟩ := List.exists_cons_of_ne_nil (hn e he)
      exact ⟨f1, by rw [hf1]; exact List.mem_cons_self, rfl⟩
    | ok r =>
      obtain ⟨⟨action, select⟩, rest⟩ := r
      simp only
      -- a file of this conflict that is kept
      have hkeep : ∃ q ∈ files, ¬ ((action = "d" ∨ action = "s") ∧ NotSelected select files q) := by
        by_cases ha : action = "d" ∨ action = "s"
        · obtain ⟨h0, h1⟩ := menu_range parse files.length inputs none action select rest (by simp) hm ha
          have hlt : select.toNat < files.length := by omega
          refine ⟨files[select.toNat], List.getElem_mem hlt, ?_⟩
          rintro ⟨-, i, hi, hne⟩
          obtain ⟨hil, hie⟩ := List.getElem?_eq_some_iff.mp hi
          have := (List.Nodup.getElem_inj_iff hd1).mp hie
          omega
        · exact ⟨f0, by rw [hf0]; exact List.mem_cons_self, fun h => ha h.1⟩
      obtain ⟨q0, hq0, hk0⟩ := hkeep
      have hfr := fun (q : String) (h1 : q ∈ files → q = q0) (hq : HasExt q ".hpd") =>
        repairOne_frame can true action select files hx0 fs q
          (fun h => hk0 (by rw [← h1 (mem_notSelected h.2)]; exact h))
          (fun p hp => hpd_ne_tilde hq (hx0 p hp))
      cases hr : repairOne can true action select files fs with
      | mk fs1 er =>
        rw [hr] at hfr
        have hnext : ∀ e ∈ red, ∀ q ∈ e.2, fs1 q = fs q := by
          intro e he q hq
          exact hfr q (fun hqf => absurd rfl (hd3 q hqf q (List.mem_flatMap.mpr ⟨e, he, hq⟩)))
            (hxr e he q hq)
        have hthis : fs1 q0 = fs q0 := hfr q0 (fun _ => rfl) (hx0 q0 hq0)
        cases er with
        | some er =>
          intro e he
          rcases List.mem_cons.mp he with rfl | he
          · exact ⟨q0, hq0, hthis⟩
          · obtain ⟨f1, l1, hf1⟩ := List.exists_cons_of_ne_nil (hnr e he)
            exact ⟨f1, by rw [hf1]; exact List.mem_cons_self,
              hnext e he f1 (by rw [hf1]; exact List.mem_cons_self)⟩
        | none =>
          simp only
          intro e he
          rcases List.mem_cons.mp he with rfl | he
          · refine ⟨q0, hq0, ?_⟩
            rw [verbose_frame can parse red hxr q0
              (fun e he hq => absurd rfl (hd3 q0 hq0 q0 (List.mem_flatMap.mpr ⟨e, he, hq⟩)))
              (fun e he p hp => hpd_ne_tilde (hx0 q0 hq0) (hxr e he p hp))]
            exact hthis
          · obtain ⟨q, hq, hv⟩ := ih hxr hd2 hnr rest fs1 e he
            exact ⟨q, hq, by rw [hv]; exact hnext e he q hq⟩

/-! ## Disagreements with the documentation -/

/-- **C90 disagreement.** The action `'d'` is documented, but run quietly it never deletes anything:
the variable counting the files has no value, and every call with a conflict ends in
`UnboundLocalError` (`utility.py:745`). -/
theorem C90_delete_defect (can : String → Bool) (select : Int) (e : String × List String)
    (red : List (String × List String)) (fs : Flat) :
    redRepairQuiet can "d" select (e :: red) fs = (fs, some .unboundLocal) := by
  obtain ⟨k, files⟩ := e
  simp [redRepairQuiet, repairOne]

/-- **C90 disagreement.** The action is documented as case-insensitive (`utility.py:646-648`), but
run quietly `'S'` and `'D'` are silently ignored. -/
theorem C90_case_defect (can : String → Bool) (select : Int) (red : List (String × List String)) (fs : Flat) :
    redRepairQuiet can "S" select red fs = (fs, none) ∧ redRepairQuiet can "D" select red fs = (fs, none) := by
  induction red generalizing fs with
  | nil => exact ⟨rfl, rfl⟩
  | cons e red ih =>
    obtain ⟨k, files⟩ := e
    simp only [redRepairQuiet, repairOne, show ("S" : String) ≠ "d" by decide,
      show ("S" : String) ≠ "s" by decide, show ("D" : String) ≠ "d" by decide,
      show ("D" : String) ≠ "s" by decide, if_false, ih, and_self]

/-- **C90 disagreement.** "All but one of the files" are to be suppressed, but a selection outside the
list, such as `-1`, is not refused: it suppresses every file of the conflict. -/
theorem C90_select_defect (can : String → Bool) (k : String) (files : List String) (fs : Flat)
    (hx : ∀ f ∈ files, HasExt f ".hpd") :
    ∃ fs', redRepairQuiet can "s" (-1) [(k, files)] fs = (fs', none) ∧ ∀ f ∈ files, fs' f = none := by
  obtain ⟨fs', h1, h2⟩ := C90_suppress can (-1) [(k, files)] fs (by simpa using hx)
  refine ⟨fs', h1, fun f hf => h2.gone f ⟨_, List.mem_cons_self, ?_⟩⟩
  obtain ⟨i, hi⟩ := List.mem_iff_getElem?.mp hf
  exact ⟨i, hi, by omega⟩

/-- **C90 disagreement.** In the dialogue the answer must be I, D or S, but just pressing Enter is
accepted too: the user is then asked for the file to keep, told that all other files will be renamed
immediately, and nothing is done (`utility.py:702-719`). -/
theorem C90_enter_defect (can : String → Bool) (parse : String → Option Int) (k y : String)
    (files : List String) (red : List (String × List String)) (rest : List String) (fs : Flat)
    (j : Nat) (hy : parse (lower y) = some (j : Int)) (hb : (lower y) ≠ "b") (hj : j < files.length) :
    redRepairVerbose can parse ((k, files) :: red) ("" :: y :: rest) fs
      = redRepairVerbose can parse red rest fs := by
  have hr : ¬((j : Int) < 0 ∨ (files.length : Int) ≤ j) := by omega
  have hm : menu parse files.length none ("" :: y :: rest) = .ok (("", (j : Int)), rest) := by
    have h0 : lower "" = "" := by decide
    simp only [menu, h0, show inIds "" = true by decide, show inDs "" = true by decide, if_true, hb,
      if_false, hy, hr]
  rw [redRepairVerbose, hm]
  simp only [repairOne, show ("" : String) ≠ "d" by decide, show ("" : String) ≠ "s" by decide, if_false]

end PyroMat.Data.Props
