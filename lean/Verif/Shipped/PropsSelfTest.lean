import Verif.Gas.PropsSelfTest
import Verif.Shipped.PropsGas

/-!
# C108 on the shipped data
-/

namespace PyroMat.Shipped.Props

open PyroMat PyroMat.Units PyroMat.Units.Spec PyroMat.Units.Props PyroMat.Gas PyroMat.Gas.Spec
  PyroMat.Gas.Props PyroMat.Shipped

/-- What the self-test of a shipped gas reads, with a table or none. -/
noncomputable def File.sheet (f : File) (tab : Option (List TabRow)) : Sheet :=
  ⟨f.Tlim.map Dec.val, f.C.map List.length, tab⟩

/-- The number of coefficients of every piece. -/
def width (f : File) (n : Nat) : Bool := f.C.all fun r => r.length == n

theorem shipped_widths : (shipped.all fun f => match f.cls with | .ig => width f 8 | .ig2 => width f 7) = true := by
  decide +kernel

theorem file_width {f : File} (hf : f ∈ shipped) : (match f.cls with | .ig => width f 8 | .ig2 => width f 7) = true :=
  List.all_eq_true.mp shipped_widths f hf

/-- **C108 disagreement.** No shipped ideal gas passes its self-test, with any table, in any unit system.  All the data files of the
first class are intact, and the call fails with an error for each; each file of the second class has well-formed
data, yet gets the verdict False, since its pieces have the seven coefficients its formulas need and the test asks for eight
(`ig2.py:393-397`). -/
theorem C108_shipped_never_pass_defect (f : File) (hf : f ∈ shipped)
    (rest : Env → Gas → List TabRow → Except Err Bool) (E : Env) (S : Sys) (hU : Uses E S) (tab : Option (List TabRow)) :
    WellFormed f.data ∧
    (f.cls = .ig → Intact (File.sheet f tab) ∧ ∃ e, igTest rest E f.gas (File.sheet f tab) = .error e) ∧
    (f.cls = .ig2 → ig2Test E f.gas (File.sheet f tab) = .ok false) := by
  have hw := C94_usable f hf
  refine ⟨hw, fun hc => ?_, fun hc => ?_⟩
  · have h8 := file_width hf
    rw [hc] at h8
    have hi : Intact (File.sheet f tab) := by
      refine ⟨hw.ascending, ?_, ?_⟩
      · have := hw.rows
        simpa [File.sheet, File.data] using this
      · intro n hn
        simp only [File.sheet, List.mem_map] at hn
        obtain ⟨r, hr, rfl⟩ := hn
        have := List.all_eq_true.mp h8 r hr
        simpa using this
    exact ⟨hi, (C108_ig_never_passes_defect rest E S hU f.gas _).1 hi⟩
  · have h7 := file_width hf
    rw [hc] at h7
    refine (C108_damaged_partial rest E f.gas _ ?_).2
    intro hi
    have hne := hw.nonempty
    cases hC : f.C with
    | nil => simp [File.data, hC] at hne
    | cons r rs =>
      have a := List.all_eq_true.mp h7 r (by rw [hC]; simp)
      have b := hi.eight r.length (by simp [File.sheet, hC])
      simp only [beq_iff_eq] at a
      omega

/-- There are gases of both classes. -/
example : (∃ f ∈ shipped, f.cls = .ig) ∧ (∃ f ∈ shipped, f.cls = .ig2) := by
  have h1 : (shipped.any fun f => match f.cls with | .ig => true | .ig2 => false) = true := by decide +kernel
  have h2 : (shipped.any fun f => match f.cls with | .ig => false | .ig2 => true) = true := by decide +kernel
  obtain ⟨f, hf, h⟩ := List.any_eq_true.mp h1
  obtain ⟨g, hg, h'⟩ := List.any_eq_true.mp h2
  refine ⟨⟨f, hf, ?_⟩, ⟨g, hg, ?_⟩⟩
  · cases hc : f.cls <;> simp [hc] at h ⊢
  · cases hc : g.cls <;> simp [hc] at h' ⊢

end PyroMat.Shipped.Props
