import Mathlib.Analysis.Calculus.Deriv.ZPow
import Mathlib.Tactic.Linarith
import Mathlib.Tactic.NormNum
import Mathlib.Tactic.IntervalCases
import Verif.Mp.Jet
import Verif.If97.Spec

/-!
# Steam: polynomial evaluation (C59)
-/

set_option linter.unusedSimpArgs false

namespace PyroMat.If97.Props

open PyroMat PyroMat.Mp PyroMat.Mp.Spec PyroMat.If97 PyroMat.If97.Spec Filter Topology

/-! ## Powers -/

theorem pow_toNat (y : ℝ) {k : ℤ} (h : 0 ≤ k) : y ^ k.toNat = y ^ k := by
  obtain ⟨n, rfl⟩ := Int.eq_ofNat_of_zero_le h
  simp

theorem zpow_split (y : ℝ) {a b : ℤ} (h : y ≠ 0 ∨ 0 ≤ a ∧ 0 ≤ b) : y ^ (a + b) = y ^ a * y ^ b := by
  rcases h with h | ⟨ha, hb⟩
  · exact zpow_add₀ h a b
  · obtain ⟨n, rfl⟩ := Int.eq_ofNat_of_zero_le ha
    obtain ⟨k, rfl⟩ := Int.eq_ofNat_of_zero_le hb
    rw [← Int.natCast_add, zpow_natCast, zpow_natCast,
      zpow_natCast, pow_add]

theorem powJet_value (n : ℤ) {y : ℝ} (h : y ≠ 0 ∨ 0 ≤ n) (h0 : n ≠ 0) : (powJet n y).p = y ^ n := by
  unfold powJet
  by_cases h1 : n = 1
  · simp [h1]
  · rw [if_neg h1]
    have h2 : y ≠ 0 ∨ 0 ≤ n - 2 ∧ (0 : ℤ) ≤ 2 := h.imp id (fun hn => ⟨by omega, by omega⟩)
    have := zpow_split y (a := n - 2) (b := 2) h2
    rw [show n - 2 + 2 = n by ring] at this
    simp only [this]
    rw [show (2 : ℤ) = ((2 : ℕ) : ℤ) by rfl, zpow_natCast]; ring

theorem powJet_jet (n : ℤ) {y : ℝ} (h : y ≠ 0 ∨ 0 ≤ n) (h0 : n ≠ 0) : Jet1 (powJet n) y := by
  by_cases h1 : n = 1
  · refine (Jet1.id y).congr (Eventually.of_forall fun s => ?_)
    simp [powJet, h1]
  · have key : ∀ᶠ s in 𝓝 y, s ≠ 0 ∨ 0 ≤ n := by
      rcases h with h | h
      · have h' : ∀ᶠ s in 𝓝 y, s ≠ 0 := isOpen_ne.mem_nhds h
        exact h'.mono fun s hs => Or.inl hs
      · exact Eventually.of_forall fun s => Or.inr h
    have hpx : ∀ s : ℝ, (s ≠ 0 ∨ 0 ≤ n) → (powJet n s).px = n * s ^ (n - 1) := by
      intro s hs
      have h2 : s ≠ 0 ∨ 0 ≤ n - 2 ∧ (0 : ℤ) ≤ 1 := hs.imp id (fun hn => ⟨by omega, by omega⟩)
      have := zpow_split s (a := n - 2) (b := 1) h2
      rw [show n - 2 + 1 = n - 1 by ring, zpow_one] at this
      simp only [powJet, if_neg h1, this]; ring
    refine ⟨?_, ?_⟩
    · rw [hpx y h]
      exact (hasDerivAt_zpow n y h).congr_of_eventuallyEq
        (key.mono fun s hs => powJet_value n hs h0)
    · have h3 : y ≠ 0 ∨ 0 ≤ n - 1 := h.imp id (fun hn => by omega)
      refine (((hasDerivAt_zpow (n - 1) y h3).const_mul (n : ℝ)).congr_of_eventuallyEq
        (key.mono fun s hs => hpx s hs)).congr_deriv ?_
      simp only [powJet, if_neg h1]
      rw [show n - 1 - 1 = n - 2 by ring]
      push_cast; ring

/-! ## The loop in y -/

theorem foldY_jet {S : ℝ → P3} {y : ℝ} (h : Jet1 S y) (c : ℝ) :
    Jet1 (fun u => foldY 2 u c (S u)) y := by
  refine ⟨?_, ?_⟩
  · refine (((h.d1.mul (hasDerivAt_id y)).add_const c).congr_of_eventuallyEq
      (Eventually.of_forall fun s => ?_)).congr_deriv ?_
    · simp [foldY]
    · simp [foldY]
  · refine (((h.d2.mul (hasDerivAt_id y)).add h.d1).congr_of_eventuallyEq
      (Eventually.of_forall fun s => ?_)).congr_deriv ?_
    · simp [foldY]
    · simp [foldY]; ring

theorem foldY_cut (ord : Nat) (y c : ℝ) (s : P3) :
    foldY ord y c (s.cut ord) = (foldY 2 y c s).cut ord := by
  rcases Nat.lt_or_ge 1 ord with h | h
  · have h0 : 0 < ord := by omega
    simp [foldY, P3.cut, h, h0]
  · interval_cases ord <;> simp [foldY, P3.cut]

theorem shiftY_jet (n : ℤ) {S : ℝ → P3} {y : ℝ} (h : Jet1 S y) (hy : y ≠ 0 ∨ 0 ≤ n) :
    Jet1 (fun u => shiftY 2 n u (S u)) y := by
  by_cases h0 : n = 0
  · simpa [shiftY, h0] using h
  · refine (h.mul (powJet_jet n hy h0)).congr (Eventually.of_forall fun s => ?_)
    simp only [shiftY, h0, if_false, P3.mk.injEq, true_and]
    refine ⟨?_, ?_⟩ <;> simp <;> ring

theorem shiftY_value (ord : Nat) (n : ℤ) (s : P3) {y : ℝ} (hy : y ≠ 0 ∨ 0 ≤ n) :
    (shiftY ord n y s).p = s.p * y ^ n := by
  by_cases h0 : n = 0
  · simp [shiftY, h0]
  · simp [shiftY, h0, powJet_value n hy h0]

theorem shiftY_cut (ord : Nat) (n : ℤ) (y : ℝ) (s : P3) :
    shiftY ord n y (s.cut ord) = (shiftY 2 n y s).cut ord := by
  by_cases h0 : n = 0
  · simp [shiftY, h0]
  · rcases Nat.lt_or_ge 1 ord with h | h
    · have h0' : 0 < ord := by omega
      simp [shiftY, P3.cut, h, h0', h0]
    · interval_cases ord <;> simp [shiftY, P3.cut, h0]

/-- The terms of the x-exponent `m` at the head of the list. -/
def block (m : ℤ) (l : List Term) : List Term := l.takeWhile (fun t => decide (t.1 = m))

/-- The other terms. -/
def after (m : ℤ) (l : List Term) : List Term := l.dropWhile (fun t => decide (t.1 = m))

theorem block_after (m : ℤ) (l : List Term) : block m l ++ after m l = l :=
  List.takeWhile_append_dropWhile

theorem block_cons_pos {m : ℤ} {t : Term} (h : t.1 = m) (r : List Term) :
    block m (t :: r) = t :: block m r := by simp [block, h]

theorem block_cons_neg {m : ℤ} {t : Term} (h : t.1 ≠ m) (r : List Term) :
    block m (t :: r) = [] := by simp [block, h]

theorem after_cons_pos {m : ℤ} {t : Term} (h : t.1 = m) (r : List Term) :
    after m (t :: r) = after m r := by simp [after, h]

theorem after_cons_neg {m : ℤ} {t : Term} (h : t.1 ≠ m) (r : List Term) :
    after m (t :: r) = t :: r := by simp [after, h]

theorem block_mem {m : ℤ} {l : List Term} {t : Term} (h : t ∈ block m l) : t.1 = m := by
  induction l with
  | nil => cases h
  | cons u r ih =>
    by_cases hu : u.1 = m
    · rw [block, List.takeWhile_cons_of_pos (by simp [hu])] at h
      rcases List.mem_cons.mp h with rfl | h
      · exact hu
      · exact ih h
    · rw [block, List.takeWhile_cons_of_neg (by simp [hu])] at h; cases h

/-- What the loop over y computes on a block it accepts. -/
theorem inner_does (m : ℤ) (n : ℤ) (l : List Term)
    (hs : (block m l).Pairwise (fun a b => b.2.1 < a.2.1))
    (hr : ∀ t ∈ block m l, -100 < t.2.1 ∧ t.2.1 ≤ n) :
    ∃ (n' : ℤ) (G : Nat → ℝ → P3 → P3),
      (∀ ord y s, inner ord y m n l s = .ok (n', after m l, G ord y s)) ∧ n' ≤ n ∧
      (block m l = [] ∧ n' = n ∨ ∃ t ∈ block m l, n' + 1 = t.2.1) ∧
      (∀ t ∈ block m l, n' < t.2.1) ∧
      (∀ (S : ℝ → P3) y, Jet1 S y → Jet1 (fun u => G 2 u (S u)) y) ∧
      (∀ ord y s, (G ord y s).p = s.p * y ^ (n - n').toNat +
        ((block m l).map (fun t => t.2.2 * y ^ (t.2.1 - (n' + 1)).toNat)).sum) ∧
      (∀ ord y s, G ord y (s.cut ord) = (G 2 y s).cut ord) := by
  generalize hk : (n + 101).toNat = k
  induction k using Nat.strong_induction_on generalizing n l with
  | _ k ih =>
    cases l with
    | nil =>
      refine ⟨n, fun _ _ s => s, ?_, le_refl _, ?_, ?_, fun S y h => h, ?_, fun _ _ _ => rfl⟩
      · intro ord y s; rw [inner]; rfl
      · left; simp [block]
      · simp [block]
      · simp [block]
    | cons t r =>
      by_cases ht : t.1 = m
      · rw [block_cons_pos ht] at hs hr ⊢
        rw [after_cons_pos ht]
        have hs' := List.pairwise_cons.mp hs
        have ht0 := hr t (by simp)
        have hn : ¬ n - 1 < -large := by simp only [large]; omega
        by_cases hnt : n = t.2.1
        · obtain ⟨n', G, h1, h2, h3, h4, h5, h6, h7⟩ := ih (n - 1 + 101).toNat (by omega) (n - 1) r
            hs'.2 (fun u hu => ⟨(hr u (by simp [hu])).1, by have := hs'.1 u hu; omega⟩) rfl
          refine ⟨n', fun ord y s => G ord y (foldY ord y t.2.2 s), ?_, by omega, ?_, ?_, ?_, ?_, ?_⟩
          · intro ord y s
            rw [inner, if_pos ht, if_neg hn, if_pos hnt, h1]
          · right
            rcases h3 with ⟨_, h3⟩ | ⟨u, hu, h3⟩
            · exact ⟨t, by simp, by omega⟩
            · exact ⟨u, by simp [hu], h3⟩
          · intro u hu
            rcases List.mem_cons.mp hu with rfl | hu
            · omega
            · exact h4 u hu
          · exact fun S y h => h5 _ y (foldY_jet h t.2.2)
          · intro ord y s
            rw [h6]
            simp only [foldY, List.map_cons, List.sum_cons]
            rw [show (n - n').toNat = (n - 1 - n').toNat + 1 by omega,
              show (t.2.1 - (n' + 1)).toNat = (n - 1 - n').toNat by omega, pow_succ]
            ring
          · intro ord y s
            simp only [foldY_cut, h7]
        · have hs1 : (block m (t :: r)).Pairwise (fun a b => b.2.1 < a.2.1) := by
            rw [block_cons_pos ht]; exact hs
          have hr1 : ∀ u ∈ block m (t :: r), -100 < u.2.1 ∧ u.2.1 ≤ n - 1 := by
            rw [block_cons_pos ht]
            intro u hu
            refine ⟨(hr u hu).1, ?_⟩
            rcases List.mem_cons.mp hu with rfl | hu
            · omega
            · have := hs'.1 u hu; omega
          obtain ⟨n', G, h1, h2, h3, h4, h5, h6, h7⟩ := ih (n - 1 + 101).toNat (by omega) (n - 1)
            (t :: r) hs1 hr1 rfl
          rw [block_cons_pos ht] at h3 h4 h6
          rw [after_cons_pos ht] at h1
          refine ⟨n', fun ord y s => G ord y (foldY ord y 0 s), ?_, by omega, ?_, h4, ?_, ?_, ?_⟩
          · intro ord y s
            rw [inner, if_pos ht, if_neg hn, if_neg hnt, h1]
          · right
            rcases h3 with ⟨h3, _⟩ | h3
            · cases h3
            · exact h3
          · exact fun S y h => h5 _ y (foldY_jet h 0)
          · intro ord y s
            rw [h6]
            simp only [foldY]
            rw [show (n - n').toNat = (n - 1 - n').toNat + 1 by omega, pow_succ]
            ring
          · intro ord y s
            simp only [foldY_cut, h7]
      · rw [block_cons_neg ht, after_cons_neg ht]
        refine ⟨n, fun _ _ s => s, ?_, le_refl _, ?_, ?_, fun S y h => h, ?_, fun _ _ _ => rfl⟩
        · intro ord y s; rw [inner, if_neg ht]
        · left; simp
        · simp
        · simp

/-- A block the loop over y accepts is sorted and in range. -/
theorem inner_needs (ord : Nat) (y : ℝ) (m : ℤ) (n : ℤ) (l : List Term) (s : P3)
    {w : ℤ × List Term × P3} (h : inner ord y m n l s = .ok w) :
    (block m l).Pairwise (fun a b => b.2.1 < a.2.1) ∧
      (∀ t ∈ block m l, -100 < t.2.1 ∧ t.2.1 ≤ n) ∧ w.2.1 = after m l := by
  generalize hk : (n + 101).toNat = k
  induction k using Nat.strong_induction_on generalizing n l s with
  | _ k ih =>
    cases l with
    | nil =>
      rw [inner] at h; cases h
      simp [block, after]
    | cons t r =>
      rw [inner] at h
      by_cases ht : t.1 = m
      · rw [if_pos ht] at h
        by_cases hn : n - 1 < -large
        · rw [if_pos hn] at h; cases h
        rw [if_neg hn] at h
        simp only [large] at hn
        by_cases hnt : n = t.2.1
        · rw [if_pos hnt] at h
          obtain ⟨h1, h2, h3⟩ := ih (n - 1 + 101).toNat (by omega) (n - 1) r _ h rfl
          rw [block_cons_pos ht, after_cons_pos ht]
          refine ⟨List.pairwise_cons.mpr ⟨fun u hu => ?_, h1⟩, ?_, h3⟩
          · have := h2 u hu; omega
          · intro u hu
            rcases List.mem_cons.mp hu with rfl | hu
            · omega
            · have := h2 u hu; omega
        · rw [if_neg hnt] at h
          obtain ⟨h1, h2, h3⟩ := ih (n - 1 + 101).toNat (by omega) (n - 1) (t :: r) _ h rfl
          exact ⟨h1, fun u hu => by have := h2 u hu; omega, h3⟩
      · rw [if_neg ht] at h; cases h
        rw [block_cons_neg ht, after_cons_neg ht]
        simp

/-! ## The sub-polynomial of one x-exponent -/

/-- Condition on the lists: descending order, y-exponents in range. -/
structure Ok (l : List Term) : Prop where
  sorted : l.Pairwise (fun a b => b.1 < a.1 ∨ b.1 = a.1 ∧ b.2.1 < a.2.1)
  yr : ∀ t ∈ l, -100 < t.2.1 ∧ t.2.1 ≤ 100

theorem Ok.block {l : List Term} (h : Ok l) (m : ℤ) :
    (block m l).Pairwise (fun a b => b.2.1 < a.2.1) := by
  have := h.sorted
  rw [← block_after m l, List.pairwise_append] at this
  refine this.1.imp_of_mem ?_
  intro a b ha hb hab
  have := block_mem ha; have := block_mem hb
  omega

theorem Ok.after {l : List Term} (h : Ok l) (m : ℤ) : Ok (after m l) := by
  have := h.sorted
  rw [← block_after m l, List.pairwise_append] at this
  exact ⟨this.2.1, fun t ht => h.yr t (by
    rw [← block_after m l]; exact List.mem_append_right _ ht)⟩

theorem after_lt {l : List Term} (h : Ok l) {m : ℤ} (hm : ∀ t ∈ l, t.1 ≤ m) :
    ∀ t ∈ after m l, t.1 ≤ m - 1 := by
  intro t ht
  have ho := (h.after m).sorted
  cases hl : If97.Props.after m l with
  | nil => rw [hl] at ht; cases ht
  | cons u r =>
    rw [hl] at ht ho
    have hu : u.1 ≠ m := by
      have := List.head?_dropWhile_not (fun t : Term => decide (t.1 = m)) l
      unfold If97.Props.after at hl
      rw [hl] at this
      simpa using this
    have hul : u ∈ l := by
      rw [← block_after m l, hl]; simp
    have := hm u hul
    rcases List.mem_cons.mp ht with rfl | ht
    · omega
    · have := (List.pairwise_cons.mp ho).1 t ht
      omega

/-- What a pass over one x-exponent computes. -/
theorem sub_does (m : ℤ) (l : List Term) (h : Ok l) :
    ∃ Q : Nat → ℝ → P3, (∀ ord y, subPoly ord y m l = .ok (Q ord y, after m l)) ∧
      (∀ y, (y ≠ 0 ∨ ∀ t ∈ l, 0 ≤ t.2.1) → Jet1 (Q 2) y) ∧
      (∀ ord y, (y ≠ 0 ∨ ∀ t ∈ l, 0 ≤ t.2.1) →
        (Q ord y).p = ((block m l).map (fun t => t.2.2 * y ^ t.2.1)).sum) ∧
      (∀ ord y, Q ord y = (Q 2 y).cut ord) := by
  have zero : ∀ ord, (⟨0, 0, 0⟩ : P3) = P3.cut ord ⟨0, 0, 0⟩ := by intro ord; simp [P3.cut]
  cases l with
  | nil =>
    exact ⟨fun _ _ => ⟨0, 0, 0⟩, fun _ _ => rfl, fun y _ => Jet1.const 0 y, by simp [block],
      fun ord _ => zero ord⟩
  | cons t r =>
    by_cases ht : t.1 = m
    · have hb := h.block m
      have hhead : ∀ u ∈ block m (t :: r), -100 < u.2.1 ∧ u.2.1 ≤ t.2.1 := by
        intro u hu
        have hul : u ∈ t :: r := by
          rw [← block_after m (t :: r)]; exact List.mem_append_left _ hu
        refine ⟨(h.yr u hul).1, ?_⟩
        rw [block_cons_pos ht] at hb hu
        rcases List.mem_cons.mp hu with rfl | hu
        · exact le_refl _
        · exact le_of_lt ((List.pairwise_cons.mp hb).1 u hu)
      obtain ⟨n', G, h1, h2, h3, h4, h5, h6, h7⟩ := inner_does m t.2.1 (t :: r) hb hhead
      have hmem : ∀ u ∈ block m (t :: r), u ∈ t :: r := fun u hu => by
        rw [← block_after m (t :: r)]; exact List.mem_append_left _ hu
      have hn' : ∀ y : ℝ, (y ≠ 0 ∨ ∀ u ∈ t :: r, 0 ≤ u.2.1) → y ≠ 0 ∨ 0 ≤ n' + 1 := by
        intro y hy
        rcases hy with hy | hy
        · exact Or.inl hy
        · right
          rcases h3 with ⟨h3, _⟩ | ⟨u, hu, h3⟩
          · rw [block_cons_pos ht] at h3; cases h3
          · rw [h3]; exact hy u (hmem u hu)
      refine ⟨fun ord y => shiftY ord (n' + 1) y (G ord y ⟨0, 0, 0⟩), ?_, ?_, ?_, ?_⟩
      · intro ord y
        have hl : ¬ t.2.1 > large := by
          have := h.yr t (by simp); simp only [large]; omega
        simp only [subPoly, if_pos ht, if_neg hl, h1]
        rfl
      · intro y hy
        exact shiftY_jet _ (h5 _ y (Jet1.const 0 y)) (hn' y hy)
      · intro ord y hy
        rw [shiftY_value ord _ _ (hn' y hy), h6]
        simp only [zero_mul, zero_add]
        rw [← List.sum_map_mul_right]
        congr 1
        refine List.map_congr_left fun u hu => ?_
        have := h4 u hu
        rw [pow_toNat y (by omega), mul_assoc, ← zpow_split y ((hn' y hy).imp id
          (fun h => ⟨by omega, h⟩))]
        congr 2; ring
      · intro ord y
        rw [← shiftY_cut, ← h7, ← zero]
    · refine ⟨fun _ _ => ⟨0, 0, 0⟩, fun ord y => ?_, fun y _ => Jet1.const 0 y, ?_,
        fun ord _ => zero ord⟩
      · rw [after_cons_neg ht]; simp [subPoly, ht]
      · rw [block_cons_neg ht]; simp

theorem sub_needs (ord : Nat) (y : ℝ) (m : ℤ) (l : List Term) {w : P3 × List Term}
    (h : subPoly ord y m l = .ok w) :
    (block m l).Pairwise (fun a b => b.2.1 < a.2.1) ∧
      (∀ t ∈ block m l, -100 < t.2.1 ∧ t.2.1 ≤ 100) ∧ w.2 = after m l := by
  cases l with
  | nil => cases h; simp [block, after]
  | cons t r =>
    by_cases ht : t.1 = m
    · simp only [subPoly, if_pos ht] at h
      by_cases hl : t.2.1 > large
      · rw [if_pos hl] at h; cases h
      rw [if_neg hl] at h
      simp only [large] at hl
      cases hi : inner ord y m t.2.1 (t :: r) ⟨0, 0, 0⟩ with
      | error e => rw [hi] at h; cases h
      | ok v =>
        rw [hi] at h; cases h
        obtain ⟨h1, h2, h3⟩ := inner_needs ord y m _ _ _ hi
        exact ⟨h1, fun u hu => by have := h2 u hu; omega, h3⟩
    · simp only [subPoly, if_neg ht] at h; cases h
      rw [block_cons_neg ht, after_cons_neg ht]; simp

/-! ## The loop in x -/

theorem foldX_jet {S : ℝ → ℝ → J6} {Q : ℝ → P3} {x y : ℝ} (h : Jet2 S x y) (hq : Jet1 Q y) :
    Jet2 (fun u v => foldX 2 u (Q v) (S u v)) x y := by
  refine ((h.mul (Jet2.liftX (Jet1.id x) y)).add (Jet2.liftY hq x)).congr' fun s t => ?_
  simp only [foldX, J6.mul, J6.add, P3.liftX, P3.liftY, J6.mk.injEq]
  refine ⟨?_, ?_, ?_, ?_, ?_, ?_⟩ <;> simp

theorem foldX_cut (ord : Nat) (x : ℝ) (q : P3) (s : J6) :
    foldX ord x (q.cut ord) (s.cut ord) = (foldX 2 x q s).cut ord := by
  rcases Nat.lt_or_ge 1 ord with h | h
  · have h0 : 0 < ord := by omega
    simp [foldX, P3.cut, J6.cut, h, h0]
  · interval_cases ord <;> simp [foldX, P3.cut, J6.cut]

theorem shiftX_jet (n : ℤ) {S : ℝ → ℝ → J6} {x y : ℝ} (h : Jet2 S x y) (hx : x ≠ 0 ∨ 0 ≤ n) :
    Jet2 (fun u v => shiftX 2 n u (S u v)) x y := by
  by_cases h0 : n = 0
  · simpa [shiftX, h0] using h
  · refine (h.mul (Jet2.liftX (powJet_jet n hx h0) y)).congr' fun s t => ?_
    simp only [shiftX, h0, if_false, J6.mul, P3.liftX, J6.mk.injEq]
    refine ⟨?_, ?_, ?_, ?_, ?_, ?_⟩ <;> simp

theorem shiftX_value (ord : Nat) (n : ℤ) (s : J6) {x : ℝ} (hx : x ≠ 0 ∨ 0 ≤ n) :
    (shiftX ord n x s).p = s.p * x ^ n := by
  by_cases h0 : n = 0
  · simp [shiftX, h0]
  · simp [shiftX, h0, powJet_value n hx h0]

theorem shiftX_cut (ord : Nat) (n : ℤ) (x : ℝ) (s : J6) :
    shiftX ord n x (s.cut ord) = (shiftX 2 n x s).cut ord := by
  by_cases h0 : n = 0
  · simp [shiftX, h0]
  · rcases Nat.lt_or_ge 1 ord with h | h
    · have h0' : 0 < ord := by omega
      simp [shiftX, J6.cut, h, h0', h0]
    · interval_cases ord <;> simp [shiftX, J6.cut, h0]

theorem outer_does (m : ℤ) (l : List Term) (h : Ok l) (hm : ∀ t ∈ l, -100 < t.1 ∧ t.1 ≤ m) :
    ∃ (m' : ℤ) (G : Nat → ℝ → ℝ → J6 → J6),
      (∀ ord x y s, outer ord x y m l s = .ok (m', G ord x y s)) ∧ m' ≤ m ∧
      (l = [] ∧ m' = m ∨ ∃ t ∈ l, m' + 1 = t.1) ∧
      (∀ t ∈ l, m' < t.1) ∧
      (∀ (S : ℝ → ℝ → J6) x y, (y ≠ 0 ∨ ∀ t ∈ l, 0 ≤ t.2.1) → Jet2 S x y →
        Jet2 (fun u v => G 2 u v (S u v)) x y) ∧
      (∀ ord x y s, (y ≠ 0 ∨ ∀ t ∈ l, 0 ≤ t.2.1) → (G ord x y s).p = s.p * x ^ (m - m').toNat +
        (l.map (fun t => t.2.2 * x ^ (t.1 - (m' + 1)).toNat * y ^ t.2.1)).sum) ∧
      (∀ ord x y s, G ord x y (s.cut ord) = (G 2 x y s).cut ord) := by
  generalize hk : (m + 101).toNat = k
  induction k using Nat.strong_induction_on generalizing m l with
  | _ k ih =>
    cases l with
    | nil =>
      refine ⟨m, fun _ _ _ s => s, ?_, le_refl _, Or.inl ⟨rfl, rfl⟩, by simp,
        fun S x y _ h => h, by simp, fun _ _ _ _ => rfl⟩
      intro ord x y s; rw [outer]
    | cons t r =>
      have hlt : (t :: r).map Prod.fst ≠ [] := by simp
      have ht := hm t (by simp)
      have hmm : ¬ m - 1 < -large := by simp only [large]; omega
      obtain ⟨Q, q1, q2, q3, q4⟩ := sub_does m (t :: r) h
      have hmem : ∀ u ∈ after m (t :: r), u ∈ t :: r := fun u hu => by
        rw [← block_after m (t :: r)]; exact List.mem_append_right _ hu
      have hy' : ∀ y : ℝ, (y ≠ 0 ∨ ∀ u ∈ t :: r, 0 ≤ u.2.1) →
          (y ≠ 0 ∨ ∀ u ∈ after m (t :: r), 0 ≤ u.2.1) :=
        fun y hy => hy.imp id (fun hy u hu => hy u (hmem u hu))
      have hal := after_lt h (fun u hu => (hm u hu).2)
      obtain ⟨m', G, h1, h2, h3, h4, h5, h6, h7⟩ := ih (m - 1 + 101).toNat (by omega) (m - 1)
        (after m (t :: r)) (h.after m) (fun u hu => ⟨(hm u (hmem u hu)).1, hal u hu⟩) rfl
      have hblk : ∀ u ∈ t :: r, u ∈ block m (t :: r) ∨ u ∈ after m (t :: r) := fun u hu => by
        rw [← block_after m (t :: r)] at hu; exact List.mem_append.mp hu
      refine ⟨m', fun ord x y s => G ord x y (foldX ord x (Q ord y) s), ?_, by omega, ?_, ?_, ?_, ?_,
        ?_⟩
      · intro ord x y s
        rw [outer, q1]
        simp only [if_neg hmm, h1]
      · right
        rcases h3 with ⟨h3, h3'⟩ | ⟨u, hu, h3⟩
        · refine ⟨t, by simp, ?_⟩
          rcases hblk t (by simp) with hb | hb
          · have := block_mem hb; omega
          · rw [h3] at hb; cases hb
        · exact ⟨u, hmem u hu, h3⟩
      · intro u hu
        rcases hblk u hu with hb | hb
        · have := block_mem hb; omega
        · exact h4 u hb
      · intro S x y hy hS
        exact h5 _ x y (hy' y hy) (foldX_jet hS (q2 y hy))
      · intro ord x y s hy
        rw [h6 ord x y _ (hy' y hy)]
        simp only [foldX, q3 ord y hy]
        conv_rhs => rw [← block_after m (t :: r)]
        rw [List.map_append, List.sum_append]
        have e : ((block m (t :: r)).map
            (fun u => u.2.2 * x ^ (u.1 - (m' + 1)).toNat * y ^ u.2.1)).sum =
            ((block m (t :: r)).map (fun u => u.2.2 * y ^ u.2.1)).sum * x ^ (m - 1 - m').toNat := by
          rw [← List.sum_map_mul_right]
          congr 1
          refine List.map_congr_left fun u hu => ?_
          rw [block_mem hu, show (m - (m' + 1)).toNat = (m - 1 - m').toNat by omega]
          ring
        rw [e, show (m - m').toNat = (m - 1 - m').toNat + 1 by omega, pow_succ]
        ring
      · intro ord x y s
        simp only []
        rw [q4 ord y, foldX_cut, h7]

theorem outer_needs (ord : Nat) (x y : ℝ) (m : ℤ) (l : List Term) (s : J6) {w : ℤ × J6}
    (h : outer ord x y m l s = .ok w) : Ok l ∧ ∀ t ∈ l, -100 < t.1 ∧ t.1 ≤ m := by
  generalize hk : (m + 101).toNat = k
  induction k using Nat.strong_induction_on generalizing m l s with
  | _ k ih =>
    cases l with
    | nil => exact ⟨⟨List.Pairwise.nil, by simp⟩, by simp⟩
    | cons t r =>
      rw [outer] at h
      cases hq : subPoly ord y m (t :: r) with
      | error e => rw [hq] at h; cases h
      | ok v =>
        rw [hq] at h
        simp only at h
        by_cases hmm : m - 1 < -large
        · rw [if_pos hmm] at h; cases h
        rw [if_neg hmm] at h
        simp only [large] at hmm
        obtain ⟨b1, b2, b3⟩ := sub_needs ord y m _ hq
        rw [b3] at h
        obtain ⟨o, hr⟩ := ih (m - 1 + 101).toNat (by omega) (m - 1) _ _ h rfl
        have hblk : ∀ u ∈ t :: r, u ∈ block m (t :: r) ∨ u ∈ after m (t :: r) := fun u hu => by
          rw [← block_after m (t :: r)] at hu; exact List.mem_append.mp hu
        refine ⟨⟨?_, ?_⟩, ?_⟩
        · rw [← block_after m (t :: r), List.pairwise_append]
          refine ⟨b1.imp_of_mem ?_, o.sorted, ?_⟩
          · intro a b ha hb hab
            have := block_mem ha; have := block_mem hb
            right; exact ⟨by omega, hab⟩
          · intro a ha b hb
            have := block_mem ha; have := hr b hb
            left; omega
        · intro u hu
          rcases hblk u hu with hb | hb
          · exact b2 u hb
          · exact o.yr u hb
        · intro u hu
          rcases hblk u hu with hb | hb
          · have := block_mem hb; omega
          · have := hr u hb; omega

/-! ## The whole evaluation -/

theorem reg_open (A : List Term) : IsOpen {z : ℝ × ℝ | Regular A z.1 z.2} := by
  have h1 : ∀ P : Prop, IsOpen {a : ℝ | a ≠ 0 ∨ P} := by
    intro P
    by_cases hP : P
    · simp [hP]
    · simp only [hP, or_false]; exact isOpen_ne
  have := (h1 (∀ t ∈ A, 0 ≤ t.1)).prod (h1 (∀ t ∈ A, 0 ≤ t.2.1))
  exact this

theorem peval_does (A : List Term) (h : WellFormed A) :
    ∃ F : Nat → ℝ → ℝ → J6, (∀ ord x y, peval x y A ord = .ok (F ord x y)) ∧
      (∀ x y, Regular A x y → Jet2 (F 2) x y) ∧
      (∀ ord x y, Regular A x y → (F ord x y).p = polyAt A x y) ∧
      (∀ ord x y, F ord x y = (F 2 x y).cut ord) := by
  cases hA : A.reverse with
  | nil => exact absurd (by simpa using hA) h.nonempty
  | cons t r =>
    have hmem : ∀ u, u ∈ t :: r ↔ u ∈ A := fun u => by rw [← hA]; simp
    have hs : (t :: r).Pairwise (fun a b => b.1 < a.1 ∨ b.1 = a.1 ∧ b.2.1 < a.2.1) := by
      rw [← hA, List.pairwise_reverse]; exact h.sorted
    have ho : Ok (t :: r) := ⟨hs, fun u hu => h.yrange u ((hmem u).mp hu)⟩
    have hx := fun u hu => h.xrange u ((hmem u).mp hu)
    obtain ⟨m', G, h1, h2, h3, h4, h5, h6, h7⟩ := outer_does t.1 (t :: r) ho (by
      intro u hu
      refine ⟨(hx u hu).1, ?_⟩
      rcases List.mem_cons.mp hu with rfl | hu
      · exact le_refl _
      · have := (List.pairwise_cons.mp hs).1 u hu; omega)
    have hy : ∀ {x y : ℝ}, Regular A x y → (y ≠ 0 ∨ ∀ u ∈ t :: r, 0 ≤ u.2.1) := fun hr =>
      hr.2.imp id (fun hh u hu => hh u ((hmem u).mp hu))
    have hxx : ∀ {x y : ℝ}, Regular A x y → (x ≠ 0 ∨ 0 ≤ m' + 1) := by
      intro x y hr
      refine hr.1.imp id (fun hh => ?_)
      rcases h3 with ⟨h3, _⟩ | ⟨u, hu, h3⟩
      · cases h3
      · rw [h3]; exact hh u ((hmem u).mp hu)
    refine ⟨fun ord x y => shiftX ord (m' + 1) x (G ord x y ⟨0, 0, 0, 0, 0, 0⟩), ?_, ?_, ?_, ?_⟩
    · intro ord x y
      have hl : ¬ t.1 > large := by have := hx t (by simp); simp only [large]; omega
      unfold peval
      rw [hA]
      simp only [if_neg hl, h1]
      rfl
    · intro x y hr
      exact shiftX_jet _ (h5 _ x y (hy hr) (Jet2.const 0 x y)) (hxx hr)
    · intro ord x y hr
      rw [shiftX_value ord _ _ (hxx hr), h6 ord x y _ (hy hr)]
      simp only [zero_mul, zero_add]
      rw [← List.sum_map_mul_right]
      have e : polyAt A x y = ((t :: r).map (fun t => t.2.2 * x ^ t.1 * y ^ t.2.1)).sum := by
        rw [← hA, List.map_reverse, List.sum_reverse]; rfl
      rw [e]
      congr 1
      refine List.map_congr_left fun u hu => ?_
      have := h4 u hu
      rw [pow_toNat x (by omega)]
      have e2 : x ^ u.1 = x ^ (u.1 - (m' + 1)) * x ^ (m' + 1) := by
        rw [← zpow_split x ((hxx hr).imp id (fun h => ⟨by omega, h⟩))]
        congr 1; ring
      rw [e2]; ring
    · intro ord x y
      simp only []
      rw [← shiftX_cut, ← h7]
      simp [J6.cut]

/-- **C59.** The evaluation returns exactly for the lists whose terms are sorted by exponent and whose
exponents are in range; it raises for any other list. -/
theorem C59_exact (A : List Term) (x y : ℝ) (order : Nat) :
    (∃ j, peval x y A order = .ok j) ↔ WellFormed A := by
  constructor
  · rintro ⟨j, hj⟩
    unfold peval at hj
    cases hA : A.reverse with
    | nil => rw [hA] at hj; cases hj
    | cons t r =>
      rw [hA] at hj
      simp only at hj
      by_cases hl : t.1 > large
      · rw [if_pos hl] at hj; cases hj
      rw [if_neg hl] at hj
      simp only [large] at hl
      have hmem : ∀ u, u ∈ t :: r ↔ u ∈ A := fun u => by rw [← hA]; simp
      cases ho : outer order x y t.1 (t :: r) ⟨0, 0, 0, 0, 0, 0⟩ with
      | error e => rw [ho] at hj; cases hj
      | ok w =>
        obtain ⟨o, hr⟩ := outer_needs order x y _ _ _ ho
        refine ⟨?_, ?_, ?_, ?_⟩
        · rintro rfl; cases hA
        · have := o.sorted
          rw [← hA, List.pairwise_reverse] at this
          exact this
        · intro u hu
          have := hr u ((hmem u).mpr hu); omega
        · intro u hu
          exact o.yr u ((hmem u).mpr hu)
  · intro h
    obtain ⟨F, h1, _⟩ := peval_does A h
    exact ⟨_, h1 order x y⟩

/-- **C59.** Whenever the evaluation returns, it returns the value of the polynomial and its partial
derivatives up to second order. -/
theorem C59_correct (A : List Term) (x y : ℝ) (hr : Regular A x y) {j : J6}
    (h : peval x y A 2 = .ok j) : Is2 (polyAt A) x y j := by
  obtain ⟨F, h1, h2, h3, -⟩ := peval_does A ((C59_exact A x y 2).mp ⟨j, h⟩)
  rw [h1] at h; cases h
  exact Jet2.is (reg_open A) (fun a b hab => h2 a b hab) (fun a b hab => h3 2 a b hab) hr

/-- **C59.** Asking for fewer derivatives changes none of those that are returned. -/
theorem C59_orders (A : List Term) (x y : ℝ) (order : Nat) {j : J6}
    (h : peval x y A order = .ok j) :
    ∃ k, peval x y A 2 = .ok k ∧ j.p = k.p ∧ (0 < order → j.px = k.px ∧ j.py = k.py) ∧
      (1 < order → j.pxx = k.pxx ∧ j.pxy = k.pxy ∧ j.pyy = k.pyy) := by
  obtain ⟨F, h1, -, -, h4⟩ := peval_does A ((C59_exact A x y order).mp ⟨j, h⟩)
  rw [h1, h4] at h; cases h
  refine ⟨_, h1 2 x y, rfl, fun h => ?_, fun h => ?_⟩
  · simp [J6.cut, h]
  · simp [J6.cut, h]

/-- A list with a gap, negative exponents and several x-exponents meets the hypotheses. -/
example : WellFormed [(0, -2, 0.5), (0, 1, 1.2), (2, -7, 0.1), (2, -6, 3)] :=
  ⟨by simp, by simp, by simp, by simp⟩

example : Regular [(0, -2, 0.5), (0, 1, 1.2), (2, -7, 0.1), (2, -6, 3)] 0 1.5 :=
  ⟨Or.inr (by simp), Or.inl (by norm_num)⟩

end PyroMat.If97.Props
