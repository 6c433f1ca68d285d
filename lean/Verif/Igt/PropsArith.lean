import Mathlib.Tactic.Ring
import Mathlib.Tactic.FieldSimp
import Mathlib.Tactic.NormNum
import Verif.Igt.Lemmas

/-!
# Mixture arithmetic (C39) and shapes (C42)
-/

namespace PyroMat.Igt.Props

open PyroMat PyroMat.Gas PyroMat.Igt PyroMat.Igt.Spec
open scoped BigOperators

set_option linter.unusedSectionVars false

variable {σ : Type} [DecidableEq σ]

theorem amount_of_append (a : Mix σ) (d : List σ) (g : List Nat → ℝ) (sh : List Nat)
    (s : σ) (i : List Nat)
    (hg : ∀ r, g (r :: i) = if r < a.c.length then a.q.val (r :: src a.shape i) else 0) :
    (∑ r ∈ Finset.range (a.c ++ d).length, if (a.c ++ d)[r]? = some s then g (r :: i) else 0) =
      amount a s (src a.shape i) := by
  unfold amount
  rw [List.length_append, Finset.sum_range_add]
  have h2 : (∑ x ∈ Finset.range d.length,
      if (a.c ++ d)[a.c.length + x]? = some s then g ((a.c.length + x) :: i) else 0) = 0 := by
    refine Finset.sum_eq_zero fun x _ => ?_
    have : ¬ (a.c.length + x < a.c.length) := by omega
    rw [hg, if_neg this]
    split <;> rfl
  rw [h2, add_zero]
  refine Finset.sum_congr rfl fun r hr => ?_
  have hr' := Finset.mem_range.mp hr
  rw [hg, if_pos hr', List.getElem?_append_left hr']

/-- Enlarging the array of a well-formed mixture to a compatible shape. -/
theorem grow_ok (a : Mix σ) (ha : Wf a) (t : List Nat) (h : Compat a.shape t) (NN : Nat) :
    ∃ q, grow a.q a.c.length NN (joined a.shape t) = .ok q ∧
      q.shape = NN :: joined a.shape t ∧
      ∀ r i, q.val (r :: i) = if r < a.c.length then a.q.val (r :: src a.shape i) else 0 := by
  unfold grow
  have hb := bto_same (a := a.q) (t := a.c.length :: joined a.shape t)
    (by rw [ha.rows]; simp [joined_length h]) (by rw [ha.rows]; simp [fits, fits_joined h])
  rw [hb, exbind_ok]
  refine ⟨_, rfl, rfl, fun r i => ?_⟩
  have e : (src a.q.shape (r :: i)) = (if a.c.length = 1 then 0 else r) :: src a.shape i := by
    rw [ha.rows]; rfl
  show (if r < a.c.length then a.q.val (src a.q.shape (r :: i)) else 0) = _
  rw [e]
  by_cases hr : r < a.c.length
  · rw [if_pos hr, if_pos hr]
    by_cases h1 : a.c.length = 1
    · have : r = 0 := by omega
      rw [if_pos h1, this]
    · rw [if_neg h1]
  · rw [if_neg hr, if_neg hr]

theorem iadd_ok (a b : Mix σ) (ha : Wf a) (hb : Wf b) (h : Compat a.shape b.shape) :
    ∃ r, iadd a b = (r, none) ∧ Wf r ∧ r.shape = joined a.shape b.shape ∧
      r.c = extend a.c b.c ∧
      ∀ s i, Within i r.shape →
        amount r s i = amount a s (src a.shape i) + amount b s (src b.shape i) := by
  obtain ⟨⟨d, hd⟩, hmem⟩ := extend_spec a.c b.c
  have hsh := broadcastShape_compat h ha.rank
  have hl : b.q.shape.tail.length = (joined a.shape b.shape).length := by
    rw [joined_length h, compat_length h]; rfl
  have hf : fits b.q.shape.tail (joined a.shape b.shape) = true := fits_joined' h
  have key : ∀ q0 : Arr, q0.shape = (extend a.c b.c).length :: joined a.shape b.shape →
      (∀ s i, Within i (joined a.shape b.shape) →
        (∑ r ∈ Finset.range (extend a.c b.c).length,
          if (extend a.c b.c)[r]? = some s then q0.val (r :: i) else 0) =
          amount a s (src a.shape i)) →
      grown a (extend a.c b.c).length (joined a.shape b.shape) = .ok q0 →
      ∃ r, iadd a b = (r, none) ∧ Wf r ∧ r.shape = joined a.shape b.shape ∧
        r.c = extend a.c b.c ∧
        ∀ s i, Within i r.shape →
          amount r s i = amount a s (src a.shape i) + amount b s (src b.shape i) := by
    intro q0 hq0 hv hgrow
    obtain ⟨q, e, hs, v⟩ := addRows_ok (extend a.c b.c) b.q (joined a.shape b.shape) hl hf b.c
      (fun s hs => (hmem s).mpr (Or.inr hs)) 0 q0 hq0
    refine ⟨⟨extend a.c b.c, q⟩, ?_, ⟨?_, ?_⟩, ?_, rfl, ?_⟩
    · unfold iadd
      have hQ : iaddQ a b (extend a.c b.c) = .ok q := by
        unfold iaddQ
        rw [hsh, exbind_ok, hgrow, exbind_ok, e]
      simp only [hQ]
    · show q.shape = _ :: q.shape.tail
      rw [hs]; rfl
    · show q.shape.tail ≠ []
      rw [hs]
      exact joined_ne_nil h ha.rank
    · show q.shape.tail = _
      rw [hs]; rfl
    · intro s i hi
      have hi' : Within i (joined a.shape b.shape) := by
        have : (Mix.shape (⟨extend a.c b.c, q⟩ : Mix σ)) = joined a.shape b.shape := by
          show q.shape.tail = _
          rw [hs]; rfl
        rw [this] at hi
        exact hi
      show (∑ r ∈ Finset.range (extend a.c b.c).length,
        if (extend a.c b.c)[r]? = some s then q.val (r :: i) else 0) = _
      rw [v s i, hv s i hi']
      congr 1
      unfold amount
      refine Finset.sum_congr rfl fun k _ => ?_
      rw [Nat.zero_add]
      rfl
  by_cases hcase : (extend a.c b.c).length ≠ a.c.length ∨ a.shape ≠ joined a.shape b.shape
  · obtain ⟨q0, e0, s0, v0⟩ := grow_ok a ha b.shape h (extend a.c b.c).length
    refine key q0 s0 ?_ (by unfold grown; rw [if_pos hcase, e0])
    intro s i _
    rw [hd]
    exact amount_of_append a d q0.val (joined a.shape b.shape) s i (fun r => v0 r i)
  · have hc2 : (extend a.c b.c).length = a.c.length ∧ a.shape = joined a.shape b.shape := by
      constructor
      · by_contra hx; exact hcase (Or.inl hx)
      · by_contra hx; exact hcase (Or.inr hx)
    have hdn : d = [] := by
      have := hc2.1
      rw [hd, List.length_append] at this
      exact List.length_eq_zero_iff.mp (by omega)
    have hc : extend a.c b.c = a.c := by rw [hd, hdn, List.append_nil]
    refine key a.q ?_ ?_ (by unfold grown; rw [if_neg hcase])
    · rw [hc, ← hc2.2, ha.rows]
    · intro s i hi
      rw [hc]
      rw [← hc2.2] at hi
      rw [src_within hi]
      rfl

/-! ## C39 -/

/-- **C39, partial.** `a + b` exists whenever the shapes are compatible axis by axis, has the common
shape, contains exactly the substances of either operand, and holds of every substance the sum of
the amounts in the operands.  Missing: operands of different rank, see `C39_rank_defect`. -/
theorem C39_add_partial (a b : Mix σ) (ha : Wf a) (hb : Wf b) (h : Compat a.shape b.shape) :
    ∃ r, add a b = .ok r ∧ Wf r ∧ r.shape = joined a.shape b.shape ∧
      (∀ s, s ∈ r.c ↔ s ∈ a.c ∨ s ∈ b.c) ∧
      ∀ s i, Within i r.shape →
        amount r s i = amount a s (src a.shape i) + amount b s (src b.shape i) := by
  obtain ⟨r, e, w, hs, hc, hv⟩ := iadd_ok a b ha hb h
  refine ⟨r, ?_, w, hs, ?_, hv⟩
  · unfold add; rw [e]
  · rw [hc]; exact (extend_spec a.c b.c).2

/-- **C39.** The in-place form `a += b` leaves `a` holding what `a + b` holds. -/
theorem C39_iadd (a b r : Mix σ) : add a b = .ok r ↔ iadd a b = (r, none) := by
  unfold add
  cases h : iadd a b with
  | mk m e => cases e <;> simp

/-- **C39.** A sum lists no substance twice if neither operand does. -/
theorem C39_distinct (a b r : Mix σ) (ha : a.c.Nodup) (h : add a b = .ok r) : r.c.Nodup := by
  rw [C39_iadd] at h
  have : r.c = extend a.c b.c := by
    unfold iadd at h
    cases hq : iaddQ a b (extend a.c b.c) with
    | ok q => simp only [hq, Prod.mk.injEq] at h; rw [← h.1]
    | error e => simp only [hq, Prod.mk.injEq] at h; exact absurd h.2 (by simp)
  rw [this]
  exact extend_nodup _ _ ha

/-- **C39.** Addition is commutative. -/
theorem C39_comm (a b : Mix σ) (ha : Wf a) (hb : Wf b) (h : Compat a.shape b.shape) :
    ∃ r r', add a b = .ok r ∧ add b a = .ok r' ∧ Same r r' := by
  obtain ⟨r, e, _, s1, _, v1⟩ := C39_add_partial a b ha hb h
  obtain ⟨r', e', _, s2, _, v2⟩ := C39_add_partial b a hb ha (compat_symm h)
  have hs : r.shape = r'.shape := by rw [s1, s2, joined_comm h]
  refine ⟨r, r', e, e', hs, fun s i hi => ?_⟩
  rw [v1 s i hi, v2 s i (by rw [← hs]; exact hi), add_comm]

/-- **C39.** Addition is associative. -/
theorem C39_assoc (a b c : Mix σ) (ha : Wf a) (hb : Wf b) (hc : Wf c)
    (hab : Compat a.shape b.shape) (hac : Compat a.shape c.shape) (hbc : Compat b.shape c.shape) :
    ∃ ab bc l r, add a b = .ok ab ∧ add b c = .ok bc ∧ add ab c = .ok l ∧ add a bc = .ok r ∧
      Same l r := by
  obtain ⟨ab, e1, w1, s1, _, v1⟩ := C39_add_partial a b ha hb hab
  obtain ⟨bc, e2, w2, s2, _, v2⟩ := C39_add_partial b c hb hc hbc
  have h1 : Compat ab.shape c.shape := by rw [s1]; exact compat_joined_third hab hac hbc
  have h2 : Compat a.shape bc.shape := by
    rw [s2]
    exact compat_symm (compat_joined_third hbc (compat_symm hab) (compat_symm hac))
  obtain ⟨l, e3, w3, s3, _, v3⟩ := C39_add_partial ab c w1 hc h1
  obtain ⟨r, e4, w4, s4, _, v4⟩ := C39_add_partial a bc ha w2 h2
  have hs : l.shape = r.shape := by rw [s3, s4, s1, s2, joined_assoc hab hac hbc]
  refine ⟨ab, bc, l, r, e1, e2, e3, e4, hs, fun s i hi => ?_⟩
  have hi2 : Within i r.shape := by rw [← hs]; exact hi
  have il : i.length = a.shape.length := by
    rw [within_length hi, s3, joined_length h1, s1, joined_length hab]
  rw [v3 s i hi, v4 s i hi2]
  have w1' : Within (src ab.shape i) ab.shape := within_src h1 (by rw [← s3]; exact hi)
  have w2' : Within (src bc.shape i) bc.shape :=
    within_src (compat_symm h2) (by rw [← joined_comm h2, ← s4]; exact hi2)
  rw [v1 s _ w1', v2 s _ w2']
  have r1 : src a.shape (src ab.shape i) = src a.shape i := by
    rw [s1]; exact src_src hab i il
  have r2 : src b.shape (src ab.shape i) = src b.shape i := by
    rw [s1, joined_comm hab]; exact src_src (compat_symm hab) i (by rw [il, compat_length hab])
  have r3 : src b.shape (src bc.shape i) = src b.shape i := by
    rw [s2]; exact src_src hbc i (by rw [il, compat_length hab])
  have r4 : src c.shape (src bc.shape i) = src c.shape i := by
    rw [s2, joined_comm hbc]; exact src_src (compat_symm hbc) i (by rw [il, compat_length hac])
  rw [r1, r2, r3, r4]
  ring

theorem neg_amount (a : Mix σ) (s : σ) (i : List Nat) : amount (neg a) s i = - amount a s i := by
  unfold amount neg
  rw [← Finset.sum_neg_distrib]
  refine Finset.sum_congr rfl fun r _ => ?_
  dsimp only
  split <;> simp

theorem neg_wf (a : Mix σ) (ha : Wf a) : Wf (neg a) := ⟨ha.rows, ha.rank⟩

/-- **C39.** Negation reverses the sign of every amount, and nothing else. -/
theorem C39_neg (a : Mix σ) :
    (neg a).c = a.c ∧ (neg a).shape = a.shape ∧ ∀ s i, amount (neg a) s i = - amount a s i :=
  ⟨rfl, rfl, neg_amount a⟩

/-- **C39.** `a - b`, `a -= b`: every amount is the difference. -/
theorem C39_sub (a b : Mix σ) (ha : Wf a) (hb : Wf b) (h : Compat a.shape b.shape) :
    ∃ r r', sub a b = .ok r ∧ isub a b = (r', none) ∧ Same r r' ∧ Wf r ∧
      r.shape = joined a.shape b.shape ∧
      ∀ s i, Within i r.shape →
        amount r s i = amount a s (src a.shape i) - amount b s (src b.shape i) := by
  obtain ⟨r, e, w, s1, _, v1⟩ := C39_add_partial (neg b) a (neg_wf b hb) ha (compat_symm h)
  obtain ⟨r', e', _, s2, _, v2⟩ := iadd_ok a (neg b) ha (neg_wf b hb) h
  have hs : r.shape = r'.shape := by
    rw [s1, s2]; exact joined_comm (compat_symm h)
  refine ⟨r, r', e, e', ⟨hs, fun s i hi => ?_⟩, w, ?_, fun s i hi => ?_⟩
  · rw [v1 s i hi, v2 s i (by rw [← hs]; exact hi), add_comm]
  · rw [hs, s2]; rfl
  · rw [v1 s i hi, neg_amount]
    have : (neg b).shape = b.shape := rfl
    rw [this]
    ring

/-- **C39.** Subtraction from the right, `b - a` evaluated by `a`: every amount is what `b` holds
less what `a` holds, exactly as if `b` had been asked. -/
theorem C39_rsub (a b : Mix σ) (ha : Wf a) (hb : Wf b) (h : Compat a.shape b.shape) :
    ∃ r r', rsub a b = .ok r ∧ sub b a = .ok r' ∧ Same r r' ∧ Wf r ∧
      r.shape = joined a.shape b.shape ∧
      ∀ s i, Within i r.shape →
        amount r s i = amount b s (src b.shape i) - amount a s (src a.shape i) := by
  obtain ⟨r, e, w, s1, _, v1⟩ := C39_add_partial (neg a) b (neg_wf a ha) hb h
  obtain ⟨r', _, e', _, _, _, s2, v2⟩ := C39_sub b a hb ha (compat_symm h)
  have hn : (neg a).shape = a.shape := rfl
  have hs : r.shape = r'.shape := by
    rw [s1, s2, hn]; exact joined_comm h
  refine ⟨r, r', e, e', ⟨hs, fun s i hi => ?_⟩, w, by rw [s1, hn], fun s i hi => ?_⟩
  · rw [v1 s i hi, v2 s i (by rw [← hs]; exact hi), neg_amount, hn]
    ring
  · rw [v1 s i hi, neg_amount, hn]
    ring

/-- **C39.** Subtraction undoes addition: `(a + b) - b` holds what `a` holds, `a` being repeated
to the common shape. -/
theorem C39_sub_add (a b : Mix σ) (ha : Wf a) (hb : Wf b) (h : Compat a.shape b.shape) :
    ∃ ab r, add a b = .ok ab ∧ sub ab b = .ok r ∧ r.shape = joined a.shape b.shape ∧
      ∀ s i, Within i r.shape → amount r s i = amount a s (src a.shape i) := by
  obtain ⟨ab, e1, w1, s1, _, v1⟩ := C39_add_partial a b ha hb h
  have h1 : Compat ab.shape b.shape := by
    rw [s1]; exact compat_joined_third h h (compat_refl _)
  obtain ⟨r, r', e2, _, _, _, s2, v2⟩ := C39_sub ab b w1 hb h1
  have hss : joined ab.shape b.shape = joined a.shape b.shape := by
    rw [s1, joined_assoc h h (compat_refl _), joined_self]
  refine ⟨ab, r, e1, e2, by rw [s2, hss], fun s i hi => ?_⟩
  rw [v2 s i hi]
  have hi2 : Within i ab.shape := by rw [s1, ← hss, ← s2]; exact hi
  rw [src_within hi2, v1 s i hi2]
  ring

theorem npShapeRev_nil (t : List Nat) : npShapeRev [] t = .ok t := by cases t <;> rfl

theorem npShapeRev_fits (s t : List Nat) (hf : fits s t = true) (u : List Nat) :
    npShapeRev s (t ++ u) = .ok (t ++ u) := by
  induction s generalizing t with
  | nil =>
    cases t with
    | nil => exact npShapeRev_nil u
    | cons => simp [fits] at hf
  | cons n s ih =>
    cases t with
    | nil => simp [fits] at hf
    | cons m t =>
      simp only [fits, Bool.and_eq_true, Bool.or_eq_true, beq_iff_eq] at hf
      have := ih t hf.2
      simp only [List.cons_append, npShapeRev, this, exmap_ok]
      rcases hf.1 with h1 | h1
      · by_cases hm : n = m ∨ m = 1
        · rw [if_pos hm]
          rcases hm with h2 | h2
          · rw [h2]
          · rw [h2, h1]
        · rw [if_neg hm, if_pos h1]
      · rw [if_pos (Or.inl h1), h1]

theorem fits_append {s t s' t' : List Nat} (h : fits s t = true) (h' : fits s' t' = true) :
    fits (s ++ s') (t ++ t') = true := by
  induction s generalizing t with
  | nil => cases t with
    | nil => exact h'
    | cons => simp [fits] at h
  | cons n s ih => cases t with
    | nil => simp [fits] at h
    | cons m t =>
      simp only [fits, Bool.and_eq_true] at h
      simp only [List.cons_append, fits, h.1, Bool.true_and]
      exact ih h.2

theorem fits_reverse {s t : List Nat} (h : fits s t = true) :
    fits s.reverse t.reverse = true := by
  induction s generalizing t with
  | nil => cases t with
    | nil => rfl
    | cons => simp [fits] at h
  | cons n s ih => cases t with
    | nil => simp [fits] at h
    | cons m t =>
      simp only [fits, Bool.and_eq_true] at h
      rw [List.reverse_cons, List.reverse_cons]
      exact fits_append (ih h.2) (by simp only [fits, Bool.and_true, h.1])

theorem npShape_fits (s t : List Nat) (k : Nat) (hf : fits s (t.drop k) = true) :
    npShape s t = .ok t := by
  unfold npShape
  have h := npShapeRev_fits s.reverse (t.drop k).reverse (fits_reverse hf) (t.take k).reverse
  have e : t.reverse = (t.drop k).reverse ++ (t.take k).reverse := by
    rw [← List.reverse_append, List.take_append_drop]
  rw [e, h, exmap_ok, ← e, List.reverse_reverse]

theorem fits_length {s t : List Nat} (h : fits s t = true) : s.length = t.length := by
  induction s generalizing t with
  | nil => cases t with
    | nil => rfl
    | cons => simp [fits] at h
  | cons n s ih => cases t with
    | nil => simp [fits] at h
    | cons m t =>
      simp only [fits, Bool.and_eq_true] at h
      simp [ih h.2]

theorem fits_refl (s : List Nat) : fits s s = true := by
  induction s with
  | nil => rfl
  | cons n s ih => simp [fits, ih]

/-- An array that fits the trailing axes of another scales it element by element. -/
theorem mul_fits (a b : Arr) (k : Nat) (hk : k ≤ b.shape.length)
    (hf : fits a.shape (b.shape.drop k) = true) :
    ∃ r, a.mul b = .ok r ∧ r.shape = b.shape ∧
      ∀ i, r.val i = a.val (src a.shape (i.drop k)) * b.val (src b.shape i) := by
  have hl := fits_length hf
  rw [List.length_drop] at hl
  have hk' : b.shape.length - a.shape.length = k := by omega
  have hx : a.bto b.shape = .ok ⟨b.shape, fun i => a.val (src a.shape (i.drop k))⟩ := by
    unfold Arr.bto
    rw [hk', if_pos ⟨by omega, hf⟩]
    rfl
  have hy := bto_same (a := b) (t := b.shape) rfl (fits_refl _)
  unfold Arr.mul
  rw [npShape_fits a.shape b.shape k hf, exbind_ok, hx, exbind_ok, hy, exbind_ok]
  exact ⟨_, rfl, rfl, fun i => rfl⟩

theorem amount_scaled (a : Mix σ) (r : Arr) (s : σ) (i : List Nat) (x : ℝ) (ha : Wf a)
    (hi : Within i a.shape) (hr : ∀ j, r.val (j :: i) = x * a.q.val (src a.q.shape (j :: i))) :
    amount (⟨a.c, r⟩ : Mix σ) s i = amount a s i * x := by
  unfold amount
  rw [Finset.sum_mul]
  refine Finset.sum_congr rfl fun j hj => ?_
  dsimp only
  by_cases h : a.c[j]? = some s
  · rw [if_pos h, if_pos h, hr j, src_within (i := j :: i)]
    · ring
    · rw [ha.rows]; exact .cons (Finset.mem_range.mp hj) hi
  · rw [if_neg h, if_neg h, zero_mul]

/-- **C39.** Scaling by a number multiplies every amount by it. -/
theorem C39_scale (a : Mix σ) (ha : Wf a) (x : ℝ) (f : List Nat → ℝ) (hf : f [] = x) :
    ∃ r, imul a ⟨[], f⟩ = .ok r ∧ Wf r ∧ r.c = a.c ∧ r.shape = a.shape ∧
      ∀ s i, Within i a.shape → amount r s i = amount a s i * x := by
  have hlen : 2 ≤ a.q.shape.length := by
    rw [ha.rows, List.length_cons]
    have : a.shape.length ≠ 0 := fun h => ha.rank (List.length_eq_zero_iff.mp h)
    omega
  obtain ⟨r, e, hs, hv⟩ := mul_fits (Arr.atleast1 ⟨[], f⟩) a.q (a.q.shape.length - 1) (by omega) (by
    have : (a.q.shape.drop (a.q.shape.length - 1)).length = 1 := by rw [List.length_drop]; omega
    match hd : a.q.shape.drop (a.q.shape.length - 1), this with
    | [n], _ => simp [Arr.atleast1, fits])
  refine ⟨⟨a.c, r⟩, ?_, ⟨?_, ?_⟩, rfl, ?_, ?_⟩
  · unfold imul; rw [e, exbind_ok]
  · show r.shape = _ :: r.shape.tail
    rw [hs, ha.rows]; rfl
  · show r.shape.tail ≠ []
    rw [hs]; exact ha.rank
  · show r.shape.tail = _
    rw [hs]; rfl
  · intro s i hi
    refine amount_scaled a r s i x ha hi fun j => ?_
    rw [hv]
    congr 1

/-- **C39.** Scaling by an array with the shape of the mixture multiplies position by position. -/
theorem C39_scale_array (a : Mix σ) (ha : Wf a) (b : Arr) (hb : b.shape = a.shape) :
    ∃ r, imul a b = .ok r ∧ Wf r ∧ r.c = a.c ∧ r.shape = a.shape ∧
      ∀ s i, Within i a.shape → amount r s i = amount a s i * b.val i := by
  have hb1 : b.atleast1 = b := by
    unfold Arr.atleast1
    cases h : b.shape with
    | nil => exact absurd (by rw [← hb, h]) ha.rank
    | cons => rfl
  obtain ⟨r, e, hs, hv⟩ := mul_fits b a.q 1 (by rw [ha.rows]; simp) (by
    rw [ha.rows, hb]; exact fits_refl _)
  refine ⟨⟨a.c, r⟩, ?_, ⟨?_, ?_⟩, rfl, ?_, ?_⟩
  · unfold imul; rw [hb1, e, exbind_ok]
  · show r.shape = _ :: r.shape.tail
    rw [hs, ha.rows]; rfl
  · show r.shape.tail ≠ []
    rw [hs]; exact ha.rank
  · show r.shape.tail = _
    rw [hs]; rfl
  · intro s i hi
    refine amount_scaled a r s i (b.val i) ha hi fun j => ?_
    rw [hv]
    have : src b.shape (List.drop 1 (j :: i)) = i := by
      rw [hb]; exact src_within hi
    rw [this]

/-- **C39.** Division by a non-zero number divides every amount; division by zero is an error. -/
theorem C39_divide (a : Mix σ) (ha : Wf a) (x : ℝ) :
    (x = 0 → divBy a x = .error .zeroDivision) ∧
    (x ≠ 0 → ∃ r, divBy a x = .ok r ∧ r.c = a.c ∧ r.shape = a.shape ∧
      ∀ s i, Within i a.shape → amount r s i = amount a s i / x) := by
  constructor
  · intro h; unfold divBy; rw [if_pos h]
  · intro h
    obtain ⟨r, e, _, hc, hs, hv⟩ := C39_scale a ha (1 / x) (fun _ => 1 / x) rfl
    refine ⟨r, by unfold divBy; rw [if_neg h, e], hc, hs, fun s i hi => ?_⟩
    rw [hv s i hi]; ring

/-- **C39.** Scaling distributes over addition. -/
theorem C39_distrib (a b : Mix σ) (ha : Wf a) (hb : Wf b) (h : Compat a.shape b.shape) (x : ℝ) :
    ∃ ab xab xa xb r, add a b = .ok ab ∧ imul ab ⟨[], fun _ => x⟩ = .ok xab ∧
      imul a ⟨[], fun _ => x⟩ = .ok xa ∧ imul b ⟨[], fun _ => x⟩ = .ok xb ∧
      add xa xb = .ok r ∧ Same xab r := by
  obtain ⟨ab, e1, w1, s1, _, v1⟩ := C39_add_partial a b ha hb h
  obtain ⟨xab, e2, w2, _, s2, v2⟩ := C39_scale ab w1 x (fun _ => x) rfl
  obtain ⟨xa, e3, w3, _, s3, v3⟩ := C39_scale a ha x (fun _ => x) rfl
  obtain ⟨xb, e4, w4, _, s4, v4⟩ := C39_scale b hb x (fun _ => x) rfl
  obtain ⟨r, e5, w5, s5, _, v5⟩ := C39_add_partial xa xb w3 w4 (by rw [s3, s4]; exact h)
  have hs : xab.shape = r.shape := by rw [s2, s1, s5, s3, s4]
  refine ⟨ab, xab, xa, xb, r, e1, e2, e3, e4, e5, hs, fun s i hi => ?_⟩
  have hi1 : Within i ab.shape := by rw [← s2]; exact hi
  have hij : Within i (joined a.shape b.shape) := by rw [← s1]; exact hi1
  rw [v2 s i hi1, v1 s i hi1, v5 s i (by rw [← hs]; exact hi), s3, s4,
    v3 s _ (within_src h hij),
    v4 s _ (within_src (compat_symm h) (by rw [← joined_comm h]; exact hij))]
  ring

/-! ## C42 -/

/-- **C42, partial.** For shapes of the same rank the computed shape is the common one and
incompatible shapes raise.  Missing: shapes of different rank, see `C42_rank_defect`. -/
theorem C42_same_rank_partial (s t : List Nat) (hl : s.length = t.length) (h0 : s ≠ []) :
    (Compat s t → broadcastShape t s = .ok (joined s t)) ∧
    (¬ Compat s t → broadcastShape t s = .error .param) := by
  refine ⟨fun h => broadcastShape_compat h h0, fun h => ?_⟩
  unfold broadcastShape
  have hn : ¬ (s.length = 0 ∧ t.length = 0) := fun hh => h0 (List.length_eq_zero_iff.mp hh.1)
  rw [if_neg hn, padR_self hl, padR_self hl.symm]
  clear hn h0
  induction s generalizing t with
  | nil => cases t with
    | nil => exact absurd .nil h
    | cons => simp at hl
  | cons a s ih => cases t with
    | nil => simp at hl
    | cons b t =>
      have hl' : s.length = t.length := by simpa using hl
      simp only [joinDims]
      by_cases ha : a = b ∨ a = 1
      · rw [if_pos ha, ih t hl' (fun hc => h (.cons (by omega) hc))]; rfl
      · rw [if_neg ha]
        by_cases hb : b = 1
        · rw [if_pos hb, ih t hl' (fun hc => h (.cons (by omega) hc))]; rfl
        · rw [if_neg hb]

theorem npShapeRev_same (s t : List Nat) (hl : s.length = t.length) :
    (Compat s t → npShapeRev s t = .ok (joined s t)) ∧
    (¬ Compat s t → npShapeRev s t = .error .value) := by
  induction s generalizing t with
  | nil => cases t with
    | nil => exact ⟨fun _ => rfl, fun h => absurd .nil h⟩
    | cons => simp at hl
  | cons a s ih => cases t with
    | nil => simp at hl
    | cons b t =>
      have hl' : s.length = t.length := by simpa using hl
      obtain ⟨i1, i2⟩ := ih t hl'
      constructor
      · intro h
        cases h with
        | cons hd tl =>
          simp only [npShapeRev, i1 tl, exmap_ok, joined, List.zipWith_cons_cons]
          by_cases hb : a = b ∨ b = 1
          · rw [if_pos hb]
            congr 2
            split <;> omega
          · rw [if_neg hb, if_pos (by omega), if_pos (by omega)]
      · intro h
        simp only [npShapeRev]
        by_cases hb : a = b ∨ b = 1
        · rw [if_pos hb, i2 (fun hc => h (.cons (by omega) hc))]; rfl
        · rw [if_neg hb]
          by_cases ha : a = 1
          · rw [if_pos ha, i2 (fun hc => h (.cons (by omega) hc))]; rfl
          · rw [if_neg ha]

theorem compat_reverse {s t : List Nat} : Compat s.reverse t.reverse ↔ Compat s t :=
  List.forall₂_reverse_iff

/-- **C42, partial.** For shapes of the same rank the result is that of NumPy's
`broadcast_shapes`, and one raises exactly when the other does. -/
theorem C42_numpy_same_rank_partial (s t : List Nat) (hl : s.length = t.length) (h0 : s ≠ [])
    (u : List Nat) : broadcastShape t s = .ok u ↔ npShape s t = .ok u := by
  have hl' : s.reverse.length = t.reverse.length := by simpa using hl
  obtain ⟨a1, a2⟩ := C42_same_rank_partial s t hl h0
  obtain ⟨b1, b2⟩ := npShapeRev_same s.reverse t.reverse hl'
  by_cases h : Compat s t
  · have e : npShape s t = .ok (joined s t) := by
      unfold npShape
      rw [b1 (compat_reverse.mpr h), exmap_ok]
      congr 1
      unfold joined
      rw [List.reverse_zipWith hl', List.reverse_reverse, List.reverse_reverse]
    rw [a1 h, e]
  · have e : npShape s t = .error .value := by
      unfold npShape
      rw [b2 (fun hc => h (compat_reverse.mp hc))]; rfl
    rw [a2 h, e]
    simp

/-- **C42 disagreement.** The shape routine is documented to replicate NumPy's `broadcast_shapes`,
but pads the shorter shape on the right: `(2, 3)` with `(3,)`, which NumPy joins to `(2, 3)`, is
rejected, `(2, 3)` with `(2,)`, which NumPy rejects, gives `(2, 3)`, and two scalars give an empty
array instead of a scalar (`igtools.py:589-598`). -/
theorem C42_rank_defect :
    (npShape [2, 3] [3] = .ok [2, 3] ∧ broadcastShape [3] [2, 3] = .error .param) ∧
    (npShape [2, 3] [2] = .error .value ∧ broadcastShape [2] [2, 3] = .ok [2, 3]) ∧
    (npShape [] [] = .ok [] ∧ broadcastShape [] [] = .ok [0]) := by
  refine ⟨⟨rfl, rfl⟩, ⟨rfl, rfl⟩, ⟨rfl, rfl⟩⟩

/-! ## Concrete cases -/

/-- A mixture of two substances, one position. -/
noncomputable def mA : Mix Nat := ⟨[7, 8], ⟨[2, 1], fun i => if i.head? = some 0 then 3 else 5⟩⟩

/-- A mixture of one substance, two positions. -/
noncomputable def mB : Mix Nat := ⟨[8], ⟨[1, 2], fun i => if i = [0, 0] then 2 else 4⟩⟩

theorem mA_wf : Wf mA := ⟨rfl, by simp [mA, Mix.shape]⟩
theorem mB_wf : Wf mB := ⟨rfl, by simp [mB, Mix.shape]⟩
theorem mAB : Compat mA.shape mB.shape := .cons (by simp) .nil

example : amount mA 8 [0] = 5 ∧ amount mB 8 [1] = 4 ∧ amount mB 7 [1] = 0 := by
  simp [amount, mA, mB, Finset.sum_range_succ]

/-- In the sum, substance 8 at position 1 is 5 + 4. -/
example : ∃ r, add mA mB = .ok r ∧ amount r 8 [1] = 9 := by
  obtain ⟨r, e, _, hs, _, hv⟩ := C39_add_partial mA mB mA_wf mB_wf mAB
  refine ⟨r, e, ?_⟩
  rw [hv 8 [1] (by rw [hs]; exact .cons (by simp) .nil)]
  simp [amount, mA, mB, Mix.shape, src, Finset.sum_range_succ]
  norm_num

/-- A 2 × 2 mixture without substance 7. -/
noncomputable def mC : Mix Nat := ⟨[8], ⟨[1, 2, 2], fun _ => 10⟩⟩

/-- **C39 disagreement.** For mixtures of different rank addition depends on the order of the
operands: enlarging `a` matches axes from the right, so the substance axis of the old array lines
up with a position axis of the new one.  Here `a` holds 3 kmol of substance 7 and 5 kmol of
substance 8; in `a + b` the sum has 5 kmol of substance 7 at position (1, 0), in `b + a` it has
3 kmol (`igtools.py:427-430`). -/
theorem C39_rank_defect :
    (∃ r, add mA mC = .ok r ∧ amount r 7 [1, 0] = 5) ∧
    (∃ r, add mC mA = .ok r ∧ amount r 7 [1, 0] = 3) := by
  constructor
  · refine ⟨_, rfl, ?_⟩
    simp [amount, tab, mA, mC, Mix.shape, extend, Arr.row, clip, Finset.sum_range_succ, List.idxOf_cons]
  · refine ⟨_, rfl, ?_⟩
    simp [amount, tab, mA, mC, Mix.shape, extend, Arr.row, clip, Finset.sum_range_succ, List.idxOf_cons]

/-- **C39 disagreement.** Scaling a mixture by a two-dimensional array whose first axis happens to
match the number of substances scales the substances by different factors instead of the
positions: multiplying the mixture of 3 and 5 kmol by `[[1], [2]]` gives 3 and 10 kmol
(`igtools.py:497-501`). -/
theorem C39_scale_defect :
    ∃ r, imul mA ⟨[2, 1], fun i => if i.head? = some 0 then 1 else 2⟩ = .ok r ∧
      amount r 7 [0] = 3 ∧ amount r 8 [0] = 10 := by
  refine ⟨_, rfl, ?_⟩
  simp [amount, mA, clip, Arr.atleast1, Finset.sum_range_succ]
  norm_num

/-- **C39 disagreement.** An addition that is rejected leaves the mixture changed: after
`a += b` with incompatible shapes has raised, `a` lists the substances of `b` but has no amounts
for them (`igtools.py:415-423`). -/
theorem C39_failed_iadd_defect :
    ∃ a b m : Mix Nat, Wf a ∧ Wf b ∧ iadd a b = (m, some .param) ∧ m ≠ a ∧ ¬ Wf m := by
  refine ⟨⟨[7], ⟨[1, 2], fun _ => 1⟩⟩, ⟨[8], ⟨[1, 3], fun _ => 1⟩⟩, _, ⟨rfl, by simp [Mix.shape]⟩,
    ⟨rfl, by simp [Mix.shape]⟩, rfl, ?_, ?_⟩
  · intro h
    have := congrArg Mix.c h
    simp [extend] at this
  · intro h
    have := h.rows
    simp [extend] at this

end PyroMat.Igt.Props
