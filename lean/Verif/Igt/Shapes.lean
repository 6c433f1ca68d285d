import Verif.Igt.ThermoLemmas

/-!
# Dynamic mixtures: shapes in NumPy operations (lemmas)
-/

set_option linter.unusedSectionVars false
set_option linter.unusedSimpArgs false

namespace PyroMat.Igt.Props

open PyroMat PyroMat.Gas PyroMat.Igt PyroMat.Igt.Spec

/-- Shape `s` can be stretched to `r` (axes matched from the right). -/
def FitsR (s r : List Nat) : Prop :=
  s.length ≤ r.length ∧ fits s (r.drop (r.length - s.length)) = true

/-- Where an operand of shape `s` is read at position `i`. -/
def rd (s i : List Nat) : List Nat := clip s (i.drop (i.length - s.length))

theorem npShapeRev_inv {s t r : List Nat} (h : npShapeRev s t = .ok r) :
    fits s (r.take s.length) = true ∧ fits t (r.take t.length) = true := by
  induction s generalizing t r with
  | nil =>
    rw [npShapeRev_nil] at h
    cases h
    exact ⟨by simp [fits], by rw [List.take_length]; exact fits_refl _⟩
  | cons n s ih =>
    cases t with
    | nil =>
      simp only [npShapeRev, Except.ok.injEq] at h
      subst h
      exact ⟨by rw [List.take_length]; exact fits_refl _, by simp [fits]⟩
    | cons m t =>
      simp only [npShapeRev] at h
      split at h
      · rename_i hm
        cases hr : npShapeRev s t with
        | error e => rw [hr] at h; cases h
        | ok q =>
          rw [hr, exmap_ok] at h
          cases h
          obtain ⟨h1, h2⟩ := ih hr
          simp only [List.length_cons, List.take_succ_cons, fits, h1, h2, Bool.and_true]
          refine ⟨by simp, ?_⟩
          rcases hm with rfl | rfl <;> simp
      · split at h
        · rename_i h1
          cases hr : npShapeRev s t with
          | error e => rw [hr] at h; cases h
          | ok q =>
            rw [hr, exmap_ok] at h
            cases h
            obtain ⟨h1', h2⟩ := ih hr
            simp only [List.length_cons, List.take_succ_cons, fits, h1', h2, Bool.and_true]
            exact ⟨by simp [h1], by simp⟩
        · cases h

theorem take_reverse_fits {s r : List Nat} (h : fits s.reverse (r.take s.reverse.length) = true) :
    FitsR s r.reverse := by
  have hl := fits_length h
  rw [List.length_reverse] at hl h
  rw [List.length_take] at hl
  have := fits_reverse h
  rw [List.reverse_reverse] at this
  refine ⟨by rw [List.length_reverse]; omega, ?_⟩
  rw [List.length_reverse, ← List.reverse_take]
  exact this

theorem npShape_inv {s t r : List Nat} (h : npShape s t = .ok r) : FitsR s r ∧ FitsR t r := by
  unfold npShape at h
  cases hr : npShapeRev s.reverse t.reverse with
  | error e => rw [hr] at h; cases h
  | ok q =>
    rw [hr, exmap_ok] at h
    cases h
    obtain ⟨h1, h2⟩ := npShapeRev_inv hr
    exact ⟨take_reverse_fits h1, take_reverse_fits h2⟩

theorem clip_clip {s r : List Nat} (h : fits s r = true) (l : List Nat) :
    clip s (clip r l) = clip s l := by
  induction s generalizing r l with
  | nil => simp [clip]
  | cons n s ih =>
    cases r with
    | nil => simp [fits] at h
    | cons m r =>
      simp only [fits, Bool.and_eq_true, Bool.or_eq_true, beq_iff_eq] at h
      cases l with
      | nil => simp [clip]
      | cons x l =>
        have := ih h.2 l
        simp only [clip] at this
        simp only [clip, List.zipWith_cons_cons, this]
        congr 1
        rcases h.1 with rfl | rfl
        · simp
        · split <;> rfl

theorem rd_length {r i : List Nat} (h : r.length ≤ i.length) : (rd r i).length = r.length := by
  unfold rd clip
  rw [List.length_zipWith, List.length_drop]
  omega

theorem rd_rd {s r i : List Nat} (h : FitsR s r) (hi : r.length ≤ i.length) :
    rd s (rd r i) = rd s i := by
  obtain ⟨h1, h2⟩ := h
  have e : rd s (rd r i) = clip s ((rd r i).drop ((rd r i).length - s.length)) := rfl
  rw [e, rd_length hi]
  have e2 : (rd r i).drop (r.length - s.length) =
      clip (r.drop (r.length - s.length)) ((i.drop (i.length - r.length)).drop (r.length - s.length)) := by
    unfold rd clip
    rw [List.drop_zipWith]
  rw [e2, clip_clip h2, List.drop_drop]
  unfold rd
  congr 2
  omega

theorem fits_trans {s r q : List Nat} (h1 : fits s r = true) (h2 : fits r q = true) :
    fits s q = true := by
  induction s generalizing r q with
  | nil => cases r with
    | nil => exact h2
    | cons => simp [fits] at h1
  | cons n s ih => cases r with
    | nil => simp [fits] at h1
    | cons m r => cases q with
      | nil => simp [fits] at h2
      | cons k q =>
        simp only [fits, Bool.and_eq_true, Bool.or_eq_true, beq_iff_eq] at h1 h2 ⊢
        refine ⟨?_, ih h1.2 h2.2⟩
        rcases h1.1 with h | h
        · exact Or.inl h
        · rw [h]; exact h2.1

theorem fits_drop {s r : List Nat} (h : fits s r = true) (k : Nat) : fits (s.drop k) (r.drop k) = true := by
  induction k generalizing s r with
  | zero => exact h
  | succ k ih => cases s with
    | nil => cases r with
      | nil => simp [fits]
      | cons => simp [fits] at h
    | cons n s => cases r with
      | nil => simp [fits] at h
      | cons m r =>
        simp only [fits, Bool.and_eq_true] at h
        exact ih h.2

theorem FitsR.trans {s r q : List Nat} (h1 : FitsR s r) (h2 : FitsR r q) : FitsR s q := by
  refine ⟨h1.1.trans h2.1, ?_⟩
  have := fits_drop h2.2 (r.length - s.length)
  rw [List.drop_drop] at this
  have e : q.length - r.length + (r.length - s.length) = q.length - s.length := by
    have := h1.1; have := h2.1; omega
  rw [e] at this
  exact fits_trans h1.2 this

theorem FitsR.refl (s : List Nat) : FitsR s s := ⟨le_refl _, by simpa using fits_refl s⟩

theorem FitsR.np {s r : List Nat} (h : FitsR s r) : npShape s r = .ok r := npShape_fits s r _ h.2

theorem FitsR.nil (r : List Nat) : FitsR [] r := ⟨by simp, by simp [fits]⟩

theorem FitsR.one {r : List Nat} (h : r ≠ []) : FitsR [1] r := by
  have hl : 1 ≤ r.length := by
    rcases r with _ | ⟨a, r⟩
    · exact absurd rfl h
    · simp
  refine ⟨hl, ?_⟩
  have : (r.drop (r.length - 1)).length = 1 := by rw [List.length_drop]; omega
  match hd : r.drop (r.length - 1), this with
  | [n], _ => simp [fits, hd]

theorem rd_one_cases {i : List Nat} (h : i ≠ []) : rd [1] i = [0] := by
  unfold rd
  have hl : 1 ≤ i.length := by
    rcases i with _ | ⟨a, i⟩
    · exact absurd rfl h
    · simp
  have : (i.drop (i.length - 1)).length = 1 := by rw [List.length_drop]; omega
  match hd : i.drop (i.length - 1), this with
  | [n], _ => simp [clip, hd]

/-- Reading an array that was the result of stretching. -/
theorem get_rd (a : NArr) (i : List Nat) : a.get i = a.val (rd a.shape i) := rfl

theorem get_get {a : NArr} {r i : List Nat} (h : FitsR a.shape r) (hi : r.length ≤ i.length) :
    a.get (rd r i) = a.get i := by
  rw [get_rd, get_rd, rd_rd h hi]

end PyroMat.Igt.Props
