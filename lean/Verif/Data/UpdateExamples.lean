import Verif.Data.PropsUpdate

/-!
# Concrete cases for C90 and C91
-/

set_option linter.unusedSimpArgs false

namespace PyroMat.Data.Props

open PyroMat PyroMat.Data PyroMat.Data.Spec

/-- One directory and five names. -/
def shelf : Places := ⟨["/d"], ["a.hpd", "b.hpd", "c.hpd", "e.hpd", "ig.N.hpd"]⟩

/-- Two files in conflict, an unreadable one, and one whose entry is not in memory. -/
def disk : Flat := fun p =>
  if p = "/d/a.hpd" then some (.json (some "ig.A") (some "ig") (some "") 0)
  else if p = "/d/b.hpd" then some (.json (some "ig.A") (some "ig") (some "") 1)
  else if p = "/d/c.hpd" then some .bad
  else if p = "/d/e.hpd" then some (.json (some "ig.E") (some "ig") (some "") 2)
  else none

/-- A changed entry and one made from scratch. -/
def memory : Coll := [("ig.A", ⟨"ig.A", "ig", "", 5, "/d/a.hpd"⟩), ("ig.N", ⟨"ig.N", "ig", "", 7, ""⟩)]

theorem shelf_paths : paths shelf = ["/d/a.hpd", "/d/b.hpd", "/d/c.hpd", "/d/e.hpd", "/d/ig.N.hpd"] := by
  have e1 : HasExt "a.hpd" ".hpd" := ⟨"a", by decide, rfl⟩
  have e2 : HasExt "b.hpd" ".hpd" := ⟨"b", by decide, rfl⟩
  have e3 : HasExt "c.hpd" ".hpd" := ⟨"c", by decide, rfl⟩
  have e4 : HasExt "e.hpd" ".hpd" := ⟨"e", by decide, rfl⟩
  have e5 : HasExt "ig.N.hpd" ".hpd" := ⟨"ig.N", by decide, rfl⟩
  simp [paths, shelf, e1, e2, e3, e4, e5]

theorem shelf_tidy : Tidy shelf := by
  refine ⟨?_, ?_⟩
  · simp only [shelf]
    decide
  · rw [shelf_paths]; decide

theorem disk_records : onFile shelf disk = [⟨"ig.A", "ig", "", 0, "/d/a.hpd"⟩,
    ⟨"ig.A", "ig", "", 1, "/d/b.hpd"⟩, ⟨"ig.E", "ig", "", 2, "/d/e.hpd"⟩] := by
  rw [onFile, shelf_paths]
  simp [recordAt, disk]

theorem memory_keyed : Keyed memory := by
  refine ⟨by decide, ?_⟩
  intro k r h
  simp only [memory, List.lookup_cons] at h
  split at h
  · rename_i hk
    cases h
    simpa using (beq_iff_eq.mp hk).symm
  · split at h
    · rename_i hk
      cases h
      simpa using (beq_iff_eq.mp hk).symm
    · simp at h

/-- The update of these files, quietly. -/
def quietly (deletefiles : Bool) : Update :=
  ⟨⟨false, false, true⟩, demoReg, shelf, fun _ => true, fun _ => none, none, false, deletefiles, []⟩

theorem quietly_new (d : Bool) : NewIn (quietly d) "/d" := by
  refine ⟨by decide, by decide, Or.inl rfl⟩

theorem memory_room : Room shelf disk "/d" memory := by
  have hN : ∀ k r, memory.lookup k = some r → withId k (onFile shelf disk) = [] →
      k = "ig.N" ∧ r = ⟨"ig.N", "ig", "", 7, ""⟩ := by
    intro k r h1 h2
    have hid := memory_keyed.own k r h1
    simp only [memory, List.lookup_cons] at h1
    split at h1
    · cases h1
      simp only at hid
      subst hid
      rw [disk_records] at h2
      simp [withId] at h2
    · split at h1
      · cases h1
        exact ⟨hid.symm, rfl⟩
      · simp at h1
  refine ⟨?_, ?_⟩
  · intro k r h1 h2
    obtain ⟨rfl, rfl⟩ := hN k r h1 h2
    rw [shelf_paths]
    simp [place, recordAt, disk]
  · intro k r k' r' h1 h2 h3 h4 _
    rw [(hN k r h1 h3).1, (hN k' r' h2 h4).1]

theorem disk_loadable : ∀ r ∈ onFile shelf disk, Loadable demoReg r := by
  rw [disk_records]
  intro r hr
  simp only [List.mem_cons, List.not_mem_nil, or_false] at hr
  rcases hr with rfl | rfl | rfl <;> exact ⟨_, rfl, rfl⟩

/-- The update succeeds, ... -/
theorem quietly_succeeds (d : Bool) : ∃ fs', updatefiles (quietly d) memory disk = (fs', none) :=
  C91_succeeds (quietly d) rfl (fun _ => rfl) shelf_tidy memory memory_keyed disk "/d" (quietly_new d) rfl
    disk_loadable

/-- ... and afterwards a load gives what was in memory: the changed entry in the first file that
had it, the new one in a file named after it. -/
example (d : Bool) : ∃ fs' data', updatefiles (quietly d) memory disk = (fs', none) ∧
    load ⟨true, false, true⟩ demoReg (view shelf fs') ["/d"] [] = (data', none) ∧
    data'.lookup "ig.A" = some ⟨"ig.A", "ig", "", 5, "/d/a.hpd"⟩ ∧
    data'.lookup "ig.N" = some ⟨"ig.N", "ig", "", 7, "/d/ig.N.hpd"⟩ ∧
    data'.lookup "ig.E" = none ∧ fs' "/d/e.hpd" = none ∧
    (d = false → fs' "/d/e.hpd~" = some (.json (some "ig.E") (some "ig") (some "") 2)) := by
  obtain ⟨fs', h⟩ := quietly_succeeds d
  obtain ⟨data', h1, h2⟩ := C91_recorded (quietly d) rfl (fun _ => rfl) shelf_tidy memory memory_keyed disk fs'
    "/d" (quietly_new d) memory_room (by
      intro k r hr p
      have : r.cls = "ig" := by
        simp only [memory, List.lookup_cons] at hr
        split at hr
        · cases hr; rfl
        · split at hr
          · cases hr; rfl
          · simp at hr
      refine ⟨fun _ => none, ?_, rfl⟩
      simp only [this]
      rfl) h ⟨true, false, true⟩
  have hr := C91_removed (quietly d) rfl (fun _ => rfl) shelf_tidy memory memory_keyed disk fs'
    "/d" (quietly_new d) memory_room h "ig.E" ⟨"ig.E", "ig", "", 2, "/d/e.hpd"⟩ rfl (by
      show (withId "ig.E" (onFile shelf disk)).head? = _
      rw [disk_records]; rfl)
  refine ⟨fs', data', h, h1, ?_, ?_, ?_, hr.1, ?_⟩
  · rw [h2 "ig.A"]
    simp [memory, home, quietly, disk_records, withId]
  · have hN : memory.lookup "ig.N" = some ⟨"ig.N", "ig", "", 7, ""⟩ := by decide
    rw [h2 "ig.N", hN]
    simp [ home, quietly, disk_records, withId, place]
  · rw [h2 "ig.E"]; rfl
  · intro hd
    have := hr.2 hd
    simpa [disk] using this

/-- A conflict between two files, to be repaired with a dialogue: delete all but number 1. -/
example : ∃ fs1, Deleted (NotSelected 1 ["/d/a.hpd", "/d/b.hpd"]) disk fs1 ∧
    redRepairVerbose (fun _ => true) (fun s => if s = "1" then some 1 else none)
      [("ig.A", ["/d/a.hpd", "/d/b.hpd"])] ["x", "D", "7", "1"] disk = (fs1, none) ∧
    fs1 "/d/a.hpd" = none ∧ fs1 "/d/b.hpd" = disk "/d/b.hpd" := by
  have hx : ∀ f ∈ ["/d/a.hpd", "/d/b.hpd"], HasExt f ".hpd" := by
    intro f hf
    simp only [List.mem_cons, List.not_mem_nil, or_false] at hf
    rcases hf with rfl | rfl
    · exact ⟨"/d/a", by decide, rfl⟩
    · exact ⟨"/d/b", by decide, rfl⟩
  obtain ⟨fs1, h1, h2⟩ := (C90_obeys (fun _ => true) (fun _ => rfl) (fun s => if s = "1" then some 1 else none)
    "ig.A" ["/d/a.hpd", "/d/b.hpd"] [] "D" "1" [] disk 1 (by decide) (by decide) (by decide) hx).1 (by decide)
  refine ⟨fs1, h1, ?_, h1.gone _ ⟨0, rfl, by decide⟩, h1.rest _ ?_⟩
  · have : redRepairVerbose (fun _ => true) (fun s => if s = "1" then some 1 else none)
        [("ig.A", ["/d/a.hpd", "/d/b.hpd"])] ["x", "D", "7", "1"] disk =
      redRepairVerbose (fun _ => true) (fun s => if s = "1" then some 1 else none)
        [("ig.A", ["/d/a.hpd", "/d/b.hpd"])] ["D", "1"] disk := by
      simp only [redRepairVerbose]
      rfl
    rw [this, h2]
    rfl
  · rintro ⟨i, hi, hne⟩
    match i with
    | 0 => simp at hi
    | 1 => simp at hne
    | i + 2 => simp at hi

/-! ## An unresolved conflict is not disqualified -/

/-- Two files in conflict and nothing else. -/
def clash : Flat := fun p =>
  if p = "/d/a.hpd" then some (.json (some "ig.A") (some "ig") (some "") 0)
  else if p = "/d/b.hpd" then some (.json (some "ig.A") (some "ig") (some "") 1)
  else none

/-- The entry has been changed in memory since it was loaded from the first file. -/
def edited : Coll := [("ig.A", ⟨"ig.A", "ig", "", 5, "/d/a.hpd"⟩)]

/-- The user runs the update verbosely and answers that the conflict is to be ignored. -/
def ignoring : Update :=
  ⟨⟨false, false, true⟩, demoReg, shelf, fun _ => true, fun _ => none, none, true, false, ["I"]⟩

theorem clash_records : onFile shelf clash = [⟨"ig.A", "ig", "", 0, "/d/a.hpd"⟩,
    ⟨"ig.A", "ig", "", 1, "/d/b.hpd"⟩] := by
  rw [onFile, shelf_paths]
  simp [recordAt, clash]

theorem edited_lookup (k : String) (r : Rec) (h : edited.lookup k = some r) :
    k = "ig.A" ∧ r = ⟨"ig.A", "ig", "", 5, "/d/a.hpd"⟩ := by
  simp only [edited, List.lookup_cons] at h
  split at h
  · rename_i hk
    cases h
    exact ⟨beq_iff_eq.mp hk, rfl⟩
  · simp at h

/-- **C91 disagreement.** "Files in conflicts that are not resolved will be disqualified from other
operations", but they are not: when the user leaves the conflict unresolved, the first of the two
files is overwritten all the same, without a question. -/
theorem C91_conflict_defect :
    ∃ fs', updatefiles ignoring edited clash = (fs', none) ∧
      clash "/d/a.hpd" = some (.json (some "ig.A") (some "ig") (some "") 0) ∧
      fs' "/d/a.hpd" = some (.json (some "ig.A") (some "ig") (some "") 5) ∧
      fs' "/d/b.hpd" = clash "/d/b.hpd" := by
  have hload : ∀ r ∈ records (allVisits true (view shelf clash) shelf.dirs), Loadable demoReg r := by
    rw [records_view _ _ shelf_tidy, clash_records]
    intro r hr
    simp only [List.mem_cons, List.not_mem_nil, or_false] at hr
    rcases hr with rfl | rfl <;> exact ⟨_, rfl, rfl⟩
  obtain ⟨rep, hc⟩ := check_ok ⟨false, false, true⟩ demoReg (view shelf clash) shelf.dirs rfl hload edited
  have D := C23_check_report _ demoReg (view shelf clash) shelf.dirs edited rep (by decide) hc
  have N := check_redkeys _ demoReg (view shelf clash) shelf.dirs edited rep hc
  have Da := D.added
  have Dr := D.removed
  have Dc := D.changed
  have Dd := D.redundant
  have Do := D.onDisk
  simp only [records_view _ _ shelf_tidy, clash_records] at Da Dr Dc Dd Do
  have hA : withId "ig.A" [(⟨"ig.A", "ig", "", 0, "/d/a.hpd"⟩ : Rec), ⟨"ig.A", "ig", "", 1, "/d/b.hpd"⟩]
      = [⟨"ig.A", "ig", "", 0, "/d/a.hpd"⟩, ⟨"ig.A", "ig", "", 1, "/d/b.hpd"⟩] := by simp [withId]
  have hO : ∀ k, k ≠ "ig.A" → withId k [(⟨"ig.A", "ig", "", 0, "/d/a.hpd"⟩ : Rec),
      ⟨"ig.A", "ig", "", 1, "/d/b.hpd"⟩] = [] := by
    intro k hk
    simp [withId, Ne.symm hk]
  have hbad : rep.bad = [] := by
    rw [D.bad]
    apply List.eq_nil_iff_forall_not_mem.mpr
    intro p hp
    have h1 := bad_unreadable _ shelf clash p hp
    unfold unreadable at hp
    rw [List.mem_filterMap] at hp
    obtain ⟨v, hv, h⟩ := hp
    cases v with
    | sup q => simp at h
    | file q c =>
      simp only at h
      split at h
      · cases h
      · cases h
        have h2 := view_visit _ shelf clash p c hv
        unfold recordAt at h1
        unfold clash at h1 h2
        split at h2
        · rename_i hp; subst hp; simp at h1
        · split at h2
          · rename_i hp; subst hp; simp at h1
          · cases h2
  have hadd : rep.added = [] := by
    apply List.eq_nil_iff_forall_not_mem.mpr
    intro k hk
    obtain ⟨h1, h2⟩ := (Da k).mp hk
    apply h2
    refine ⟨⟨"ig.A", "ig", "", 0, "/d/a.hpd"⟩, by simp, ?_⟩
    have h3 : k = "ig.A" := by simpa [edited] using h1
    exact h3.symm
  have hrem : rep.removed = [] := by
    apply List.eq_nil_iff_forall_not_mem.mpr
    intro k hk
    obtain ⟨⟨r, h1, rfl⟩, h2⟩ := (Dr k).mp hk
    simp only [List.mem_cons, List.not_mem_nil, or_false] at h1
    rcases h1 with rfl | rfl <;> simp [edited] at h2
  have hchg : ∀ k, k ∈ rep.changed ↔ k = "ig.A" := by
    intro k
    rw [Dc]
    constructor
    · rintro ⟨r, old, -, h2, -⟩
      exact (edited_lookup k old h2).1
    · rintro rfl
      exact ⟨⟨"ig.A", "ig", "", 0, "/d/a.hpd"⟩, ⟨"ig.A", "ig", "", 5, "/d/a.hpd"⟩, by rw [hA]; rfl, rfl, by decide⟩
  have hred : rep.redundant = [("ig.A", ["/d/a.hpd", "/d/b.hpd"])] := by
    have hall : ∀ x ∈ rep.redundant, x = ("ig.A", ["/d/a.hpd", "/d/b.hpd"]) := by
      rintro ⟨k, files⟩ hx
      have h1 := (lookup_of_mem _ N k files).mp hx
      rw [Dd k] at h1
      by_cases hk : k = "ig.A"
      · subst hk
        rw [hA] at h1
        simp only [List.length_cons, List.length_nil, Nat.reduceAdd, le_refl, if_true, List.map_cons,
          List.map_nil, Option.some.injEq] at h1
        rw [h1]
      · rw [hO k hk] at h1
        simp at h1
    have hmem : ("ig.A", ["/d/a.hpd", "/d/b.hpd"]) ∈ rep.redundant := by
      rw [lookup_of_mem _ N, Dd, hA]
      rfl
    match hw : rep.redundant with
    | [] => rw [hw] at hmem; simp at hmem
    | [a] => rw [hall a (by rw [hw]; simp)]
    | a :: b :: l =>
      exfalso
      have ha := hall a (by rw [hw]; simp)
      have hb := hall b (by rw [hw]; simp)
      rw [hw, ha, hb] at N
      simp at N
  have hfound : rep.data.lookup "ig.A" = some ⟨"ig.A", "ig", "", 0, "/d/a.hpd"⟩ := by
    rw [Do, hA]; rfl
  obtain ⟨l2, hb1, hb2⟩ := changeStep_writes ignoring edited rep.data rep.changed
    (Or.inr (by
      intro k hk r f h1 h2
      obtain ⟨rfl, rfl⟩ := edited_lookup k r h1
      rw [hfound] at h2
      cases h2
      rfl))
    (by
      intro k hk
      rw [(hchg k).mp hk, hfound]
      exact ⟨by decide, by simp⟩)
  have hl2 : ∀ x, x ∈ l2 ↔ x = ("/d/a.hpd", ⟨"ig.A", "ig", "", 5, "/d/a.hpd"⟩) := by
    intro x
    rw [hb2]
    constructor
    · rintro ⟨k, hk, h1, f, h2, h3⟩
      obtain ⟨rfl, h4⟩ := edited_lookup k x.2 h1
      rw [hfound] at h2
      cases h2
      exact Prod.ext h3 h4
    · rintro rfl
      exact ⟨"ig.A", (hchg _).mpr rfl, by decide, _, hfound, rfl⟩
  have hck : checkFiles ignoring.cfg ignoring.reg ignoring.places edited clash = .ok rep := hc
  have hrepair : repairStep ignoring rep clash = (clash, none) := by
    simp only [repairStep, hred]
    rfl
  have hbs : badStep ignoring rep clash = (clash, none) := by
    simp only [badStep, hbad, if_true]
    split <;> rfl
  have hrs : recordStep ignoring edited rep clash = (writes ignoring.can l2 clash, none) := by
    simp only [recordStep, hadd, addStep, hb1, hrem, removeStep]
  refine ⟨writes ignoring.can l2 clash, ?_, rfl, ?_, ?_⟩
  · unfold updatefiles
    rw [if_neg (by simp [ignoring, shelf]), hck]
    simp only [hrepair, hbs, hck, hrs, ite_self]
  · have := writes_at ignoring.can (fun _ => rfl) l2 (by
      intro x hx y hy _
      rw [(hl2 x).mp hx, (hl2 y).mp hy]) _ ((hl2 _).mpr rfl) clash
    exact this
  · exact writes_frame ignoring.can l2 _ (by
      intro x hx
      rw [(hl2 x).mp hx]
      simp) clash

end PyroMat.Data.Props
