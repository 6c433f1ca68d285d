import Mathlib.Data.List.Nodup
import Verif.Shipped.All
import Verif.Shipped.Sound

/-!
# The identifiers of the shipped ideal gases are distinct
-/

namespace PyroMat.Shipped

/-- A number for an identifier. -/
def key (s : String) : Nat := s.toList.foldl (fun n c => n * 256 + c.toNat) 0

/-- `a` is not in the list. -/
def absent (a : Nat) : List Nat → Bool
  | [] => true
  | b :: l =>
    match Nat.beq a b with
    | true => false
    | false => absent a l

/-- No two are equal. -/
def apart : List Nat → Bool
  | [] => true
  | a :: l =>
    match absent a l with
    | true => apart l
    | false => false

/-- The elements with remainder `r` modulo 61. -/
def bucket (r : Nat) : List Nat → List Nat
  | [] => []
  | a :: l =>
    match Nat.beq (a % 61) r with
    | true => a :: bucket r l
    | false => bucket r l

theorem absent_spec (a : Nat) (l : List Nat) (h : absent a l = true) : a ∉ l := by
  induction l with
  | nil => simp
  | cons b l ih =>
    unfold absent at h
    cases hb : Nat.beq a b with
    | true => rw [hb] at h; cases h
    | false =>
      rw [hb] at h
      have : a ≠ b := by rintro rfl; simp at hb
      simp [this, ih h]

theorem apart_spec (l : List Nat) (h : apart l = true) : l.Nodup := by
  induction l with
  | nil => simp
  | cons a l ih =>
    unfold apart at h
    cases hb : absent a l with
    | false => rw [hb] at h; cases h
    | true =>
      rw [hb] at h
      exact List.nodup_cons.mpr ⟨absent_spec _ _ hb, ih h⟩

theorem bucket_eq (r : Nat) (l : List Nat) : bucket r l = l.filter fun a => Nat.beq (a % 61) r := by
  induction l with
  | nil => rfl
  | cons a l ih =>
    unfold bucket
    rw [List.filter_cons]
    cases hb : Nat.beq (a % 61) r <;> simp [ih]

theorem buckets_spec (l : List Nat) (h : ((List.range 61).all fun r => forceList (bucket r l) apart) = true) :
    l.Nodup := by
  rw [List.nodup_iff_count_le_one]
  intro a
  have hr := List.all_eq_true.mp h (a % 61) (List.mem_range.mpr (Nat.mod_lt _ (by norm_num)))
  rw [forceList_eq, bucket_eq] at hr
  have := List.nodup_iff_count_le_one.mp (apart_spec _ hr) a
  rwa [List.count_filter (by simp)] at this

theorem keys_apart : forceList (shipped.map fun f => key f.id)
    (fun l => (List.range 61).all fun r => forceList (bucket r l) apart) = true := by decide +kernel

/-- No two shipped gases have the same identifier. -/
theorem ids_distinct : (shipped.map File.id).Nodup := by
  have h := keys_apart
  rw [forceList_eq] at h
  have := buckets_spec _ h
  rw [show (shipped.map fun f => key f.id) = (shipped.map File.id).map key by rw [List.map_map]; rfl] at this
  exact this.of_map _

end PyroMat.Shipped
