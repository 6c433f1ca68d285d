import Verif.Gas.SelfTest
import Verif.Gas.PropsUnits
import Verif.Units.Props

/-!
# C108: the self-tests of the ideal-gas classes
-/

namespace PyroMat.Gas.Props

open PyroMat PyroMat.Units PyroMat.Units.Spec PyroMat.Units.Props PyroMat.Gas PyroMat.Gas.Spec

/-- The first section of the documented criteria (`ig.py:571-575`, `ig2.py:325-330`): the limits ascend, there is one
more of them than there are pieces, and every piece has eight coefficients. -/
structure Intact (D : Sheet) : Prop where
  ascending : D.Tlim.Pairwise (· < ·)
  pieces : D.Tlim.length = D.coefs.length + 1
  eight : ∀ n ∈ D.coefs, n = 8

theorem ascend_cons (x y : ℝ) (l : List ℝ) : ascend (x :: y :: l) = true ↔ x < y ∧ ascend (y :: l) = true := by
  simp [ascend]

theorem ascend_iff (l : List ℝ) : ascend l = true ↔ l.Pairwise (· < ·) := by
  induction l with
  | nil => simp [ascend]
  | cons x l ih =>
    cases l with
    | nil => simp [ascend]
    | cons y l =>
      rw [ascend_cons, ih]
      constructor
      · rintro ⟨h, hp⟩
        refine List.pairwise_cons.mpr ⟨?_, hp⟩
        intro z hz
        rcases List.mem_cons.mp hz with rfl | hz
        · exact h
        · exact h.trans ((List.pairwise_cons.mp hp).1 z hz)
      · intro h
        exact ⟨(List.pairwise_cons.mp h).1 y (by simp), (List.pairwise_cons.mp h).2⟩

theorem integrity_iff (D : Sheet) : integrity D = true ↔ Intact D := by
  simp only [integrity, Bool.and_eq_true, ascend_iff, beq_iff_eq, List.all_eq_true]
  exact ⟨fun h => ⟨h.1.1, h.1.2, h.2⟩, fun h => ⟨⟨h.1, h.2⟩, h.3⟩⟩

/-- C108 (partial: a verdict of False for damaged data, and no more, is ever right; see the disagreements).  Data that
are not intact get the verdict False from both classes, in every configuration. -/
theorem C108_damaged_partial (rest : Env → Gas → List TabRow → Except Err Bool) (E : Env) (G : Gas) (D : Sheet)
    (h : ¬ Intact D) : igTest rest E G D = .ok false ∧ ig2Test E G D = .ok false := by
  have : integrity D = false := by
    rw [← Bool.not_eq_true, integrity_iff]; exact h
  simp [igTest, ig2Test, this]

/-- The pressure conversion has no unit `'pa'`. -/
theorem no_pa {E : Env} {S : Sys} (hU : Uses E S) (x : ℝ) :
    (pressure E.a).call E.c.str (.scalar x) (some "pa") none none false = .error .key := by
  obtain ⟨h1, h2, -⟩ := C06_unknown_unit_partial (pressure E.a) E.c.str (.scalar x) none false
  rw [h2 "unit_pressure" rfl (some "pa") none S.p hU.p]
  have hc : (pressure E.a).contains "pa" = false := rfl
  refine h1 _ _ ?_ (Or.inl hc)
  intro he
  have := hU.valid.p
  rw [show S.p = "pa" from he.symm, hc] at this
  cases this

/-- **C108 disagreement.** A gas whose stored data are intact never gets a verdict from the self-test of the first
ideal-gas class: in every unit system the call fails with an error, at the latest on the unit `'pa'`, which is not
listed (`ig.py:722`).  So no gas passes, whatever its table says. -/
theorem C108_ig_never_passes_defect (rest : Env → Gas → List TabRow → Except Err Bool) (E : Env) (S : Sys) (hU : Uses E S)
    (G : Gas) (D : Sheet) :
    (Intact D → ∃ e, igTest rest E G D = .error e) ∧ igTest rest E G D ≠ .ok true := by
  have key : Intact D → ∃ e, igTest rest E G D = .error e := by
    intro h
    have hi : integrity D = true := (integrity_iff D).mpr h
    simp only [igTest, hi]
    cases continuity E G D.Tlim with
    | error e => exact ⟨e, rfl⟩
    | ok b =>
      cases D.tab with
      | none => exact ⟨.key, rfl⟩
      | some tab =>
        simp only [bind, Except.bind, Bool.not_true, Bool.false_eq_true, if_false]
        split
        next e _ => exact ⟨e, rfl⟩
        next => rw [no_pa hU]; exact ⟨.key, rfl⟩
  refine ⟨key, fun h => ?_⟩
  by_cases hD : Intact D
  · obtain ⟨e, he⟩ := key hD
    rw [he] at h; cases h
  · rw [(C108_damaged_partial rest E G D hD).1] at h
    simp at h

/-- **C108 disagreement.** A gas of the second ideal-gas class whose stored data are intact never gets a verdict either: the table
handed to the self-test is ignored in favour of a stored one (`ig2.py:474`), and the reference pressure is read from
an attribute that is never set (`ig2.py:476`).  So no gas passes. -/
theorem C108_ig2_never_passes_defect (E : Env) (G : Gas) (D : Sheet) :
    (Intact D → ∃ e, ig2Test E G D = .error e) ∧ ig2Test E G D ≠ .ok true := by
  have key : Intact D → ∃ e, ig2Test E G D = .error e := by
    intro h
    have hi : integrity D = true := (integrity_iff D).mpr h
    simp only [ig2Test, hi]
    cases continuity E G D.Tlim with
    | error e => exact ⟨e, rfl⟩
    | ok b =>
      cases D.tab with
      | none => exact ⟨.key, rfl⟩
      | some tab =>
        simp only [bind, Except.bind, Bool.not_true, Bool.false_eq_true, if_false]
        split
        next e _ => exact ⟨e, rfl⟩
        next => exact ⟨.attribute, rfl⟩
  refine ⟨key, fun h => ?_⟩
  by_cases hD : Intact D
  · obtain ⟨e, he⟩ := key hD
    rw [he] at h; cases h
  · rw [(C108_damaged_partial (fun _ _ _ => .ok true) E G D hD).2] at h
    simp at h

/-- Intact data, and data with two limits swapped. -/
example : Intact ⟨[200, 1000, 6000], [8, 8], none⟩ ∧ ¬ Intact ⟨[1000, 200, 6000], [8, 8], none⟩ := by
  refine ⟨⟨by norm_num, rfl, by simp⟩, fun h => ?_⟩
  have := h.ascending
  norm_num at this

end PyroMat.Gas.Props
