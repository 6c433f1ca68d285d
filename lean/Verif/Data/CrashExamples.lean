import Verif.Data.PropsCrash
import Verif.Data.UpdateExamples

/-!
# Concrete cases for C110
-/

set_option linter.unusedSimpArgs false

namespace PyroMat.Data.Props

open PyroMat PyroMat.Data PyroMat.Data.Spec

theorem memory_cases (k : String) (r : Rec) (h : memory.lookup k = some r) :
    (k = "ig.A" ∧ r = ⟨"ig.A", "ig", "", 5, "/d/a.hpd"⟩) ∨ (k = "ig.N" ∧ r = ⟨"ig.N", "ig", "", 7, ""⟩) := by
  have hid := memory_keyed.own k r h
  simp only [memory, List.lookup_cons] at h
  split at h
  · cases h; exact Or.inl ⟨hid.symm, rfl⟩
  · split at h
    · cases h; exact Or.inr ⟨hid.symm, rfl⟩
    · simp at h

/-- The collection of the examples has its files apart: that of the changed entry, and a new one. -/
theorem memory_apart : Apart shelf disk "/d" memory := by
  refine ⟨?_, ?_⟩
  · intro k r h
    rcases memory_cases k r h with ⟨rfl, rfl⟩ | ⟨rfl, rfl⟩
    · refine ⟨by rw [shelf_paths]; simp [place], ?_⟩
      intro x hx
      simp [place, recordAt, disk] at hx
      rw [← hx]
    · refine ⟨by rw [shelf_paths]; simp [place], ?_⟩
      intro x hx
      simp [place, recordAt, disk] at hx
  · intro k r k' r' h h' he
    rcases memory_cases k r h with ⟨rfl, rfl⟩ | ⟨rfl, rfl⟩ <;>
      rcases memory_cases k' r' h' with ⟨rfl, rfl⟩ | ⟨rfl, rfl⟩ <;> first | rfl | simp [place] at he

theorem memory_loadable (k : String) (r : Rec) (h : memory.lookup k = some r) (p : String) :
    Loadable demoReg { r with fromfile := p } := by
  rcases memory_cases k r h with ⟨rfl, rfl⟩ | ⟨rfl, rfl⟩ <;> exact ⟨fun _ => none, rfl, rfl⟩

/-- One conflict, one unreadable file, one changed, one added and one removed entry: interrupted as often as
you like, the update can be completed. -/
example (d : Bool) (g : Flat) (hi : Attempts (quietly d) memory disk g) :
    ∃ fs' data', updatefiles (quietly d) memory g = (fs', none) ∧
      load ⟨true, false, true⟩ demoReg (view shelf fs') ["/d"] [] = (data', none) ∧
      (data'.lookup "ig.A").map Rec.rest = some 5 ∧ (data'.lookup "ig.N").map Rec.rest = some 7 ∧
      data'.lookup "ig.E" = none := by
  obtain ⟨fs', h1, h2⟩ := C110_repeat (quietly d) rfl (fun _ => rfl) shelf_tidy memory memory_keyed disk g "/d"
    (quietly_new d) memory_apart rfl disk_loadable memory_loadable hi
  obtain ⟨data', h3, h4⟩ := h2 ⟨true, false, true⟩
  refine ⟨fs', data', h1, h3, ?_, ?_, ?_⟩ <;> rw [h4] <;> simp [memory, List.lookup_cons]

/-- An update with a single, changed file ... -/
def onlyA : Flat := fun p => if p = "/d/a.hpd" then some (.json (some "ig.A") (some "ig") (some "") 0) else none

theorem onlyA_records : onFile shelf onlyA = [⟨"ig.A", "ig", "", 0, "/d/a.hpd"⟩] := by
  rw [onFile, shelf_paths]
  simp [recordAt, onlyA]

theorem onlyA_apart : Apart shelf onlyA "/d" memory := by
  refine ⟨?_, memory_apart.own⟩
  intro k r h
  refine ⟨(memory_apart.free k r h).1, ?_⟩
  rcases memory_cases k r h with ⟨rfl, rfl⟩ | ⟨rfl, rfl⟩ <;> intro x hx <;>
    simp [place, recordAt, onlyA] at hx
  rw [← hx]

/-- ... can lose the entry when it is interrupted, ... -/
example : ∃ g, Interrupted (quietly false).can (updateOps (quietly false) memory onlyA) onlyA g ∧
    withId "ig.A" (onFile shelf g) = [] := by
  obtain ⟨fs', h⟩ := C91_succeeds (quietly false) rfl (fun _ => rfl) shelf_tidy memory memory_keyed onlyA "/d"
    (quietly_new false) rfl (by
      show ∀ r ∈ onFile shelf onlyA, _
      rw [onlyA_records]
      intro r hr
      simp only [List.mem_singleton] at hr
      subst hr
      exact ⟨_, rfl, rfl⟩)
  exact (C110_lost_defect (quietly false) rfl (fun _ => rfl) shelf_tidy memory memory_keyed onlyA fs' "/d"
    (quietly_new false) (apart_room _ _ _ _ onlyA_apart) h "ig.A" ⟨"ig.A", "ig", "", 5, "/d/a.hpd"⟩
    ⟨"ig.A", "ig", "", 0, "/d/a.hpd"⟩ rfl (by
      show withId "ig.A" (onFile shelf onlyA) = _
      rw [onlyA_records]; rfl) (by simp [Rec.says])).2

/-- ... while an entry that is on file as it is in memory stays. -/
example (g : Flat) (hi : Interrupted (quietly true).can
      (updateOps (quietly true) [("ig.E", ⟨"ig.E", "ig", "", 2, "/d/e.hpd"⟩)] disk) disk g) :
    g "/d/e.hpd" = disk "/d/e.hpd" := by
  have hl : ∀ k r, List.lookup k [("ig.E", (⟨"ig.E", "ig", "", 2, "/d/e.hpd"⟩ : Rec))] = some r →
      k = "ig.E" ∧ r = ⟨"ig.E", "ig", "", 2, "/d/e.hpd"⟩ := by
    intro k r h
    simp only [List.lookup_cons, List.lookup_nil] at h
    split at h
    · rename_i hk
      cases h
      exact ⟨beq_iff_eq.mp hk, rfl⟩
    · cases h
  refine C110_saved_stay (quietly true) rfl (fun _ => rfl) shelf_tidy _ ⟨by decide, ?_⟩ disk g "/d"
    (quietly_new true) ⟨?_, ?_⟩ hi "ig.E" ⟨"ig.E", "ig", "", 2, "/d/e.hpd"⟩ rfl (by
      show (withId "ig.E" (onFile shelf disk)).head? = _
      rw [disk_records]; rfl)
  · intro k r h
    obtain ⟨rfl, rfl⟩ := hl k r h
    rfl
  · intro k r h h2
    obtain ⟨rfl, rfl⟩ := hl k r h
    exfalso
    change withId "ig.E" (onFile shelf disk) = [] at h2
    rw [disk_records] at h2
    simp [withId] at h2
  · intro k r k' r' h h' _ _ _
    rw [(hl k r h).1, (hl k' r' h').1]

end PyroMat.Data.Props
