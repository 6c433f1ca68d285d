import Mathlib.Algebra.BigOperators.Ring.Finset
import Verif.Igt.Spec

/-! # Auxiliary facts about arrays and rows -/

namespace PyroMat.Igt

open PyroMat PyroMat.Gas PyroMat.Igt.Spec
open scoped BigOperators

set_option linter.unusedSectionVars false

variable {σ : Type} [DecidableEq σ]

theorem exbind_ok {α β : Type} (x : α) (f : α → Except Err β) :
    ((Except.ok x : Except Err α) >>= f) = f x := rfl

theorem exbind_err {α β : Type} (e : Err) (f : α → Except Err β) :
    ((Except.error e : Except Err α) >>= f) = .error e := rfl

theorem exmap_ok {α β : Type} (x : α) (f : α → β) :
    (Except.ok x : Except Err α).map f = .ok (f x) := rfl

theorem exmap_err {α β : Type} (e : Err) (f : α → β) :
    (Except.error e : Except Err α).map f = .error e := rfl

theorem clip_eq_src (s i : List Nat) : clip s i = src s i := rfl

theorem within_length {i s : List Nat} (h : Within i s) : i.length = s.length :=
  List.Forall₂.length_eq h

theorem src_within {i s : List Nat} (h : Within i s) : src s i = i := by
  induction h with
  | nil => rfl
  | @cons a b l m hd tl ih =>
    have ih' : List.zipWith (fun n k => if n = 1 then 0 else k) m l = l := ih
    simp only [src, List.zipWith_cons_cons, ih']
    by_cases hb : b = 1
    · subst hb
      have : a = 0 := by omega
      simp [this]
    · simp [hb]

theorem src_length {s i : List Nat} (h : s.length = i.length) : (src s i).length = i.length := by
  simp [src, h]

theorem compat_length {s t : List Nat} (h : Compat s t) : s.length = t.length :=
  List.Forall₂.length_eq h

theorem compat_symm {s t : List Nat} (h : Compat s t) : Compat t s := by
  induction h with
  | nil => exact .nil
  | cons hd _ ih => exact .cons (by omega) ih

theorem compat_refl (s : List Nat) : Compat s s := by
  induction s with
  | nil => exact .nil
  | cons _ _ ih => exact .cons (Or.inl rfl) ih

theorem joined_comm {s t : List Nat} (h : Compat s t) : joined s t = joined t s := by
  induction h with
  | nil => rfl
  | @cons a b l m hd _ ih =>
    have ih' : List.zipWith (fun a b => if a = 1 then b else a) l m =
      List.zipWith (fun a b => if a = 1 then b else a) m l := ih
    simp only [joined, List.zipWith_cons_cons, ih']
    congr 1
    split <;> split <;> omega

theorem joined_self (s : List Nat) : joined s s = s := by
  induction s with
  | nil => rfl
  | cons a l ih =>
    have ih' : List.zipWith (fun a b => if a = 1 then b else a) l l = l := ih
    simp [joined, ih']

theorem joined_length {s t : List Nat} (h : Compat s t) : (joined s t).length = s.length := by
  simp [joined, compat_length h]

theorem joined_ne_nil {s t : List Nat} (h : Compat s t) (hs : s ≠ []) : joined s t ≠ [] := by
  intro h0
  have := joined_length h
  rw [h0] at this
  exact hs (List.length_eq_zero_iff.mp this.symm)

theorem compat_joined {s t : List Nat} (h : Compat s t) : Compat s (joined s t) := by
  induction h with
  | nil => exact .nil
  | @cons a b l m hd _ ih =>
    refine .cons ?_ ih
    beta_reduce
    split <;> omega

theorem compat_joined_third {s t u : List Nat} (h1 : Compat s t) (h2 : Compat s u)
    (h3 : Compat t u) : Compat (joined s t) u := by
  induction h1 generalizing u with
  | nil => cases h2; exact .nil
  | @cons a b l m hd _ ih =>
    cases h2 with
    | cons e2 r2 =>
      cases h3 with
      | cons e3 r3 =>
        refine .cons ?_ (ih r2 r3)
        beta_reduce
        split <;> omega

theorem joined_assoc {s t u : List Nat} (h1 : Compat s t) (h2 : Compat s u) (h3 : Compat t u) :
    joined (joined s t) u = joined s (joined t u) := by
  induction h1 generalizing u with
  | nil => cases h2; rfl
  | @cons a b l m hd _ ih =>
    cases h2 with
    | cons e2 r2 =>
      cases h3 with
      | cons e3 r3 =>
        have ih' := ih r2 r3
        unfold joined at ih' ⊢
        simp only [List.zipWith_cons_cons, ih']
        congr 1
        repeat' split
        all_goals omega

theorem src_src {s t : List Nat} (h : Compat s t) (i : List Nat)
    (hi : i.length = s.length) : src s (src (joined s t) i) = src s i := by
  induction h generalizing i with
  | nil => rfl
  | @cons a b l m hd _ ih =>
    cases i with
    | nil => rfl
    | cons k i =>
      have ih' := ih i (by simpa using hi)
      unfold src joined at ih' ⊢
      simp only [List.zipWith_cons_cons, ih']
      congr 1
      split
      · rfl
      · rename_i ha
        simp [ha]

theorem src_self (s i : List Nat) : src s (src s i) = src s i := by
  induction s generalizing i with
  | nil => rfl
  | cons a s ih =>
    cases i with
    | nil => rfl
    | cons k i =>
      have ih' := ih i
      unfold src at ih' ⊢
      simp only [List.zipWith_cons_cons, ih']
      congr 1
      split <;> simp_all

theorem within_src {s t i : List Nat} (h : Compat s t) (hi : Within i (joined s t)) :
    Within (src s i) s := by
  induction h generalizing i with
  | nil => cases hi; exact .nil
  | @cons a b l m hd _ ih =>
    cases hi with
    | cons e r =>
      refine .cons ?_ (ih r)
      beta_reduce at e ⊢
      split at e <;> split <;> omega

theorem fits_joined {s t : List Nat} (h : Compat s t) : fits s (joined s t) = true := by
  induction h with
  | nil => rfl
  | @cons a b l m hd _ ih =>
    have ih' : fits l (List.zipWith (fun a b => if a = 1 then b else a) l m) = true := ih
    simp only [joined, List.zipWith_cons_cons, fits, ih', Bool.and_true]
    split <;> simp_all

theorem fits_joined' {s t : List Nat} (h : Compat s t) : fits t (joined s t) = true := by
  rw [joined_comm h]
  exact fits_joined (compat_symm h)

/-- Broadcasting without change of rank. -/
theorem bto_same {a : Arr} {t : List Nat} (hl : a.shape.length = t.length)
    (hf : fits a.shape t = true) :
    a.bto t = .ok ⟨t, fun i => a.val (src a.shape i)⟩ := by
  unfold Arr.bto
  have : t.length - a.shape.length = 0 := by omega
  rw [this, List.drop_zero]
  rw [if_pos ⟨le_of_eq hl, hf⟩]
  rfl

theorem joinDims_compat {s t : List Nat} (h : Compat s t) : joinDims s t = .ok (joined s t) := by
  induction h with
  | nil => rfl
  | @cons a b l m hd _ ih =>
    have ih' : joinDims l m = .ok (List.zipWith (fun a b => if a = 1 then b else a) l m) := ih
    simp only [joinDims, ih', exmap_ok, joined, List.zipWith_cons_cons]
    by_cases h1 : a = b ∨ a = 1
    · rw [if_pos h1]
      congr 2
      split <;> omega
    · rw [if_neg h1, if_pos (by omega), if_neg (by omega)]

theorem padR_self {s t : List Nat} (h : s.length = t.length) : padR t.length s = s := by
  simp [padR, h]

theorem broadcastShape_compat {s t : List Nat} (h : Compat s t) (hs : s ≠ []) :
    broadcastShape t s = .ok (joined s t) := by
  have hl := compat_length h
  unfold broadcastShape
  have h0 : ¬ (s.length = 0 ∧ t.length = 0) := by
    intro hh
    exact hs (List.length_eq_zero_iff.mp hh.1)
  rw [if_neg h0, padR_self hl, padR_self hl.symm, joinDims_compat h]

/-! ## Rows -/

theorem sum_update (c : List σ) (f g : Nat → ℝ) (s t : σ) (k : Nat) (x : ℝ)
    (hk : c[k]? = some t) (hg : ∀ r, g r = if r = k then f r + x else f r) :
    (∑ r ∈ Finset.range c.length, if c[r]? = some s then g r else 0) =
      (∑ r ∈ Finset.range c.length, if c[r]? = some s then f r else 0) + if t = s then x else 0 := by
  have hkl : k < c.length := by
    by_contra h
    rw [List.getElem?_eq_none (by omega)] at hk
    cases hk
  have e : ∀ r ∈ Finset.range c.length, (if c[r]? = some s then g r else 0) =
      (if c[r]? = some s then f r else 0) + (if r = k then (if t = s then x else 0) else 0) := by
    intro r _
    rw [hg r]
    by_cases hr : r = k
    · subst hr
      rw [hk]
      by_cases hts : t = s
      · simp [hts]
      · simp [hts]
    · simp [hr]
  rw [Finset.sum_congr rfl e, Finset.sum_add_distrib, Finset.sum_ite_eq' ]
  rw [if_pos (Finset.mem_range.mpr hkl)]

theorem idxOf_get {c : List σ} {s : σ} (h : s ∈ c) : c[c.idxOf s]? = some s := by
  have hl := List.idxOf_lt_length_iff.mpr h
  rw [List.getElem?_eq_getElem hl, List.getElem_idxOf]

theorem extend_spec (c : List σ) (b : List σ) :
    (∃ d, extend c b = c ++ d) ∧ ∀ s, s ∈ extend c b ↔ s ∈ c ∨ s ∈ b := by
  induction b generalizing c with
  | nil => exact ⟨⟨[], by simp [extend]⟩, by simp [extend]⟩
  | cons x xs ih =>
    unfold extend
    split
    · rename_i hx
      obtain ⟨h1, h2⟩ := ih c
      refine ⟨h1, fun s => ?_⟩
      rw [h2 s, List.mem_cons]
      constructor
      · rintro (h | h)
        · exact Or.inl h
        · exact Or.inr (Or.inr h)
      · rintro (h | h | h)
        · exact Or.inl h
        · subst h; exact Or.inl hx
        · exact Or.inr h
    · obtain ⟨⟨d, h1⟩, h2⟩ := ih (c ++ [x])
      refine ⟨⟨x :: d, by rw [h1]; simp⟩, fun s => ?_⟩
      rw [h2 s, List.mem_append, List.mem_singleton, List.mem_cons]
      tauto

theorem extend_self (c b : List σ) (h : ∀ s ∈ b, s ∈ c) : extend c b = c := by
  induction b with
  | nil => rfl
  | cons x xs ih =>
    unfold extend
    rw [if_pos (h x (by simp))]
    exact ih (fun s hs => h s (by simp [hs]))

theorem extend_nodup (c b : List σ) (hc : c.Nodup) : (extend c b).Nodup := by
  induction b generalizing c with
  | nil => exact hc
  | cons x xs ih =>
    unfold extend
    split
    · exact ih c hc
    · rename_i hx
      refine ih _ ?_
      rw [List.nodup_append]
      refine ⟨hc, by simp, ?_⟩
      intro a ha b hb
      simp at hb
      subst hb
      intro h
      subst h
      exact hx ha

/-- Adding one row. -/
theorem addRow_ok {q row : Arr} {sh : List Nat} {n : Nat} (ai : Nat) (hq : q.shape = n :: sh)
    (hl : row.shape.length = sh.length) (hf : fits row.shape sh = true) :
    ∃ q', addRow q ai row = .ok q' ∧ q'.shape = n :: sh ∧
      ∀ r i, q'.val (r :: i) =
        if r = ai then q.val (r :: i) + row.val (src row.shape i) else q.val (r :: i) := by
  unfold addRow
  have ht : q.shape.tail = sh := by rw [hq]; rfl
  rw [ht, bto_same hl hf, exbind_ok]
  exact ⟨_, rfl, hq, fun r i => rfl⟩

open scoped BigOperators in
/-- Adding all rows of an operand. -/
theorem addRows_ok (c : List σ) (bq : Arr) (sh : List Nat)
    (hl : bq.shape.tail.length = sh.length) (hf : fits bq.shape.tail sh = true)
    (ss : List σ) (hss : ∀ s ∈ ss, s ∈ c) (bi : Nat) (q : Arr) (hq : q.shape = c.length :: sh) :
    ∃ q', addRows c bq ss bi q = .ok q' ∧ q'.shape = c.length :: sh ∧
      ∀ s i, (∑ r ∈ Finset.range c.length, if c[r]? = some s then q'.val (r :: i) else 0) =
        (∑ r ∈ Finset.range c.length, if c[r]? = some s then q.val (r :: i) else 0) +
        ∑ k ∈ Finset.range ss.length,
          if ss[k]? = some s then bq.val ((bi + k) :: src bq.shape.tail i) else 0 := by
  induction ss generalizing bi q with
  | nil => exact ⟨q, rfl, hq, by simp⟩
  | cons x xs ih =>
    have hx := hss x (by simp)
    obtain ⟨q1, e1, s1, v1⟩ := addRow_ok (row := bq.row bi) (c.idxOf x) hq
      (by simpa [Arr.row] using hl) (by simpa [Arr.row] using hf)
    obtain ⟨q2, e2, s2, v2⟩ := ih (fun s hs => hss s (by simp [hs])) (bi + 1) q1 s1
    refine ⟨q2, ?_, s2, fun s i => ?_⟩
    · unfold addRows
      rw [e1, exbind_ok, e2]
    · rw [v2 s i]
      rw [sum_update c (fun r => q.val (r :: i)) (fun r => q1.val (r :: i)) s x (c.idxOf x)
        (bq.val (bi :: src bq.shape.tail i)) (idxOf_get hx) (fun r => by
          rw [v1 r i]; rfl)]
      rw [List.length_cons, Finset.sum_range_succ']
      simp only [List.getElem?_cons_succ, List.getElem?_cons_zero, Nat.add_zero, Option.some.injEq]
      rw [add_assoc, add_comm (if x = s then _ else _)]
      congr 2
      refine Finset.sum_congr rfl fun k _ => ?_
      rw [show bi + 1 + k = bi + (k + 1) by omega]

end PyroMat.Igt
