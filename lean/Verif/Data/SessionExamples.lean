import Verif.Data.PropsSession
import Verif.Data.CrashExamples

/-!
# Concrete cases for C111
-/

set_option linter.unusedSimpArgs false

namespace PyroMat.Data.Props

open PyroMat PyroMat.Data PyroMat.Data.Spec

theorem demoReg_blind : Blind demoReg := by
  rintro r p ⟨mk, h1, h2⟩
  refine ⟨mk, h1, ?_⟩
  simp only [demoReg] at h1
  split at h1
  · cases h1; rfl
  · cases h1

theorem disk_load : load ⟨false, false, true⟩ demoReg (view shelf disk) shelf.dirs [] =
    ([("ig.A", ⟨"ig.A", "ig", "", 0, "/d/a.hpd"⟩), ("ig.E", ⟨"ig.E", "ig", "", 2, "/d/e.hpd"⟩)], none) := by
  rw [load_eq, records_view _ _ shelf_tidy, disk_records]
  rfl

/-- A session: the files, among them two in conflict, are loaded, an entry is changed, one removed and one added. -/
theorem busy : History shelf demoReg "/d" ⟨[], disk⟩ ⟨memory, disk⟩ := by
  have h1 := History.step (.start ⟨[], disk⟩) (.load (pl := shelf) (reg := demoReg) (dest := "/d") ⟨[], disk⟩ ⟨false, false, true⟩)
  simp only [disk_load] at h1
  have h2 := History.step h1 (.edit _ "ig.A" ⟨"ig.A", "ig", "", 0, "/d/a.hpd"⟩ ⟨"ig.A", "ig", "", 5, "/d/a.hpd"⟩ rfl rfl rfl
    ⟨fun _ => none, rfl, rfl⟩)
  have h3 := History.step h2 (.del _ "ig.E")
  have h4 := History.step h3 (.new _ ⟨some "ig.N", some "ig", some "", some "", 7⟩ ?_)
  · exact h4
  · intro r hr
    cases hr
    refine ⟨by rw [shelf_paths]; simp [place], ?_, ?_⟩
    · intro x hx
      simp [place, recordAt, disk] at hx
    · intro k r' hk hne he
      have hd : (Coll.del (Coll.set [("ig.A", ⟨"ig.A", "ig", "", 0, "/d/a.hpd"⟩), ("ig.E", ⟨"ig.E", "ig", "", 2, "/d/e.hpd"⟩)]
          "ig.A" ⟨"ig.A", "ig", "", 5, "/d/a.hpd"⟩) "ig.E") = [("ig.A", (⟨"ig.A", "ig", "", 5, "/d/a.hpd"⟩ : Rec))] := rfl
      simp only [hd, List.lookup_cons, List.lookup_nil] at hk
      split at hk
      · cases hk
        simp [place] at he
      · cases hk

/-- However often the update is interrupted after that, and although the interrupted process ends and
the next one loads what is there, changes it again and goes on, ... -/
example (d : Bool) (g : Flat)
    (hi : Interrupted (quietly d).can (updateOps (quietly d) memory disk) disk g) (s : Session)
    (h : History shelf demoReg "/d" ⟨[], g⟩ s) :
    ∃ fs', updatefiles (quietly d) s.data s.files = (fs', none) ∧ ∀ cfg', ∃ data',
      load cfg' demoReg (view shelf fs') shelf.dirs [] = (data', none) ∧
      ∀ k, (data'.lookup k).map Rec.says = (s.data.lookup k).map Rec.says := by
  have h1 := busy.step (.update _ (quietly d) rfl rfl (quietly_new d) rfl (fun _ => rfl) g hi)
  have h2 := h1.step (.clear _)
  have h3 := (C111_reachable shelf shelf_tidy demoReg demoReg_blind "/d" disk disk_loadable _ h2).2.2.2
  exact C111_saved_partial (quietly d) rfl (fun _ => rfl) shelf_tidy demoReg_blind "/d" (quietly_new d) rfl g h3 s h

/-- ... and the busy session itself ends as it should. -/
example : ∃ fs' data', updatefiles (quietly false) memory disk = (fs', none) ∧
    load ⟨true, false, true⟩ demoReg (view shelf fs') shelf.dirs [] = (data', none) ∧
    (data'.lookup "ig.A").map Rec.rest = some 5 ∧ (data'.lookup "ig.N").map Rec.rest = some 7 ∧
    data'.lookup "ig.E" = none := by
  obtain ⟨fs', h1, h2⟩ := C111_saved_partial (quietly false) rfl (fun _ => rfl) shelf_tidy demoReg_blind "/d"
    (quietly_new false) rfl disk disk_loadable _ busy
  obtain ⟨data', h3, h4⟩ := h2 ⟨true, false, true⟩
  have rest : ∀ k, (data'.lookup k).map Rec.rest = (memory.lookup k).map Rec.rest := by
    intro k
    have := congrArg (Option.map fun x : String × String × String × Payload => x.2.2.2) (h4 k)
    simpa [Option.map_map, Function.comp_def, Rec.says] using this
  refine ⟨fs', data', h1, h3, by rw [rest]; rfl, by rw [rest]; rfl, ?_⟩
  have := h4 "ig.E"
  simpa [memory, List.lookup_cons] using this

/-- Loading one file and updating changes nothing. -/
example : ∃ data, load ⟨true, true, false⟩ demoReg (view shelf onlyA) shelf.dirs [] = (data, none) ∧
    updatefiles (quietly false) data onlyA = (onlyA, none) := by
  have hl : load ⟨true, true, false⟩ demoReg (view shelf onlyA) shelf.dirs [] =
      ([("ig.A", ⟨"ig.A", "ig", "", 0, "/d/a.hpd"⟩)], none) := by
    rw [load_eq, records_view _ _ shelf_tidy, onlyA_records]
    rfl
  refine ⟨_, hl, C111_idle (quietly false) rfl (fun _ => rfl) shelf_tidy rfl "/d" (quietly_new false) rfl onlyA ?_ ?_
    _ _ hl⟩
  · show ∀ r ∈ onFile shelf onlyA, _
    rw [onlyA_records]
    intro r hr
    simp only [List.mem_singleton] at hr
    subst hr
    exact ⟨_, rfl, rfl⟩
  · show ((onFile shelf onlyA).map Rec.id).Nodup
    rw [onlyA_records]
    simp

/-- An entry copied under a new name destroys the original on file. -/
example : ∃ data' fs', updatefiles (quietly false) data' onlyA = (fs', none) ∧
    data'.lookup "ig.A" = some ⟨"ig.A", "ig", "", 0, "/d/a.hpd"⟩ ∧ withId "ig.A" (onFile shelf fs') = [] := by
  have hl : load ⟨true, true, false⟩ demoReg (view shelf onlyA) shelf.dirs [] =
      ([("ig.A", ⟨"ig.A", "ig", "", 0, "/d/a.hpd"⟩)], none) := by
    rw [load_eq, records_view _ _ shelf_tidy, onlyA_records]
    rfl
  obtain ⟨data', fs', -, h1, h2, -, h3⟩ := C111_copy_defect (quietly false) rfl (fun _ => rfl) shelf_tidy rfl "/d"
    (quietly_new false) rfl onlyA
    (by
      show ∀ r ∈ onFile shelf onlyA, _
      rw [onlyA_records]
      intro r hr
      simp only [List.mem_singleton] at hr
      subst hr
      exact ⟨_, rfl, rfl⟩)
    (by
      show ((onFile shelf onlyA).map Rec.id).Nodup
      rw [onlyA_records]
      simp) _ _ hl ⟨"ig.A", "ig", "", 0, "/d/a.hpd"⟩
    (by show _ ∈ onFile shelf onlyA; rw [onlyA_records]; simp) ⟨"ig.B", "ig", "", 9, "/d/a.hpd"⟩ ⟨_, rfl, rfl⟩
    (by
      show ∀ r ∈ onFile shelf onlyA, _
      rw [onlyA_records]
      intro r hr
      simp only [List.mem_singleton] at hr
      subst hr
      simp) rfl
  exact ⟨data', fs', h1, h2, h3⟩

end PyroMat.Data.Props
