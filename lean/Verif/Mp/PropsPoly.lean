import Mathlib.Tactic.Linarith
import Mathlib.Tactic.NormNum
import Verif.Mp.Jet

/-!
# Polynomial evaluation (C46, C47)
-/

set_option linter.unusedSimpArgs false

namespace PyroMat.Mp.Props

open PyroMat PyroMat.Mp PyroMat.Mp.Spec Filter Topology

/-! ## One variable: the loop -/

theorem fold1_jet {S : ℝ → P3} {x : ℝ} (h : Jet1 S x) (c : ℝ) :
    Jet1 (fun X => fold1 2 X c (S X)) x := by
  refine ⟨?_, ?_⟩
  · have := ((hasDerivAt_id x).mul h.d1).const_add c
    refine (this.congr_of_eventuallyEq (Eventually.of_forall fun s => ?_)).congr_deriv ?_
    · simp [fold1]
    · simp [fold1]
  · have := h.d1.add ((hasDerivAt_id x).mul h.d2)
    refine (this.congr_of_eventuallyEq (Eventually.of_forall fun s => ?_)).congr_deriv ?_
    · simp [fold1]
    · simp [fold1]; ring

theorem loop1_jet (n : Nat) (r : List (Nat × ℝ)) {S : ℝ → P3} {x : ℝ} (h : Jet1 S x) :
    Jet1 (fun X => loop1 2 X n r (S X)) x := by
  induction n generalizing r S with
  | zero => simpa [loop1] using h
  | succ n ih =>
    cases r with
    | nil => simpa [loop1] using ih [] (fold1_jet h 0)
    | cons p r =>
      obtain ⟨i, c⟩ := p
      by_cases hi : i = n
      · simpa [loop1, hi] using ih r (fold1_jet h c)
      · simpa [loop1, hi] using ih ((i, c) :: r) (fold1_jet h 0)

theorem loop1_value (d : Nat) (X : ℝ) (n : Nat) (r : List (Nat × ℝ)) (s : P3)
    (hs : r.Pairwise (fun a b => b.1 < a.1)) (hn : ∀ t ∈ r, t.1 < n) :
    (loop1 d X n r s).p = s.p * X ^ n + (r.map (fun t => t.2 * X ^ t.1)).sum := by
  induction n generalizing r s with
  | zero =>
    cases r with
    | nil => simp [loop1]
    | cons p r => exact absurd (hn p (by simp)) (by omega)
  | succ n ih =>
    cases r with
    | nil =>
      rw [loop1, ih [] _ (by simp) (by simp)]
      simp only [fold1, List.map_nil, List.sum_nil]
      ring
    | cons p r =>
      obtain ⟨i, c⟩ := p
      rw [List.pairwise_cons] at hs
      by_cases hi : i = n
      · rw [loop1, if_pos hi, ih r _ hs.2 (fun t ht => by have := hs.1 t ht; simp only at this; omega)]
        simp only [fold1, List.map_cons, List.sum_cons, hi]
        ring
      · have hlt : i < n := by have := hn (i, c) (by simp); simp only at this; omega
        rw [loop1, if_neg hi, ih ((i, c) :: r) _ (List.pairwise_cons.mpr hs) ?_]
        · simp only [fold1]
          ring
        · intro t ht
          rcases List.mem_cons.mp ht with rfl | ht
          · exact hlt
          · have := hs.1 t ht
            simp only at this; omega

/-! ## One variable: exponents -/

theorem preExp_jet (pre : ℝ) {x : ℝ} (hx : 0 < x) : Jet1 (fun s => preExp 2 s pre) x := by
  by_cases h : pre = 1
  · refine (Jet1.id x).congr (Eventually.of_forall fun s => ?_)
    simp [preExp, h]
  · refine (Jet1.rpow pre hx.ne').congr (Eventually.of_forall fun s => ?_)
    simp only [preExp, ne_eq, h, not_false_eq_true, if_true, gt_iff_lt, Nat.lt_add_one,
      Nat.zero_lt_succ, P3.mk.injEq, true_and]
    refine ⟨by ring, by ring⟩

theorem preExp_value (d : Nat) (x pre : ℝ) : (preExp d x pre).p = x ^ pre := by
  by_cases h : pre = 1
  · simp [preExp, h]
  · simp [preExp, h]

/-- The value computed for a group. -/
noncomputable def evalG1 (d : Nat) (g : Group1) (x : ℝ) : P3 :=
  postFix1 d x g.post (preFix1 d g (preExp d x g.pre)
    (loop1 d (preExp d x g.pre).p ((g.terms.head?.map Prod.fst).getD 0 + 1) g.terms ⟨0, 0, 0⟩))

theorem group1_eq (d : Nat) (g : Group1) (x : ℝ) (h : g.terms ≠ []) :
    group1 d x g = .ok (evalG1 d g x) := by
  unfold group1 evalG1
  cases ht : g.terms with
  | nil => exact absurd ht h
  | cons p r => rfl

theorem evalG1_jet (g : Group1) {x : ℝ} (hx : 0 < x) : Jet1 (evalG1 2 g) x := by
  have hl : ∀ X : ℝ, Jet1 (fun X => loop1 2 X ((g.terms.head?.map Prod.fst).getD 0 + 1) g.terms
      ⟨0, 0, 0⟩) X := fun X => loop1_jet _ _ (Jet1.const 0 X)
  have hpre : Jet1 (fun s => preFix1 2 g (preExp 2 s g.pre)
      (loop1 2 (preExp 2 s g.pre).p ((g.terms.head?.map Prod.fst).getD 0 + 1) g.terms ⟨0, 0, 0⟩)) x := by
    by_cases h : g.pre = 1
    · refine (hl x).congr (Eventually.of_forall fun s => ?_)
      simp [preFix1, preExp, h]
    · refine (Jet1.comp (F := fun X => loop1 2 X ((g.terms.head?.map Prod.fst).getD 0 + 1) g.terms
        ⟨0, 0, 0⟩) (hl _) (preExp_jet g.pre hx)).congr (Eventually.of_forall fun s => ?_)
      simp [preFix1, h]
  by_cases h : g.post = 0
  · refine hpre.congr (Eventually.of_forall fun s => ?_)
    simp [evalG1, postFix1, h]
  · refine (hpre.mul (Jet1.rpow g.post hx.ne')).congr (Eventually.of_forall fun s => ?_)
    simp [evalG1, postFix1, h]

theorem evalG1_value (d : Nat) (g : Group1) (x : ℝ) (h : Sorted1 g) :
    (evalG1 d g x).p =
      x ^ g.post * (g.terms.map (fun t => t.2 * (x ^ g.pre) ^ t.1)).sum := by
  have hl : (loop1 d (preExp d x g.pre).p ((g.terms.head?.map Prod.fst).getD 0 + 1) g.terms
      ⟨0, 0, 0⟩).p = (g.terms.map (fun t => t.2 * (x ^ g.pre) ^ t.1)).sum := by
    obtain ⟨hne, hs⟩ := h
    rw [loop1_value d _ _ g.terms _ hs]
    · rw [preExp_value]; simp
    · intro t ht
      cases hg : g.terms with
      | nil => exact absurd hg hne
      | cons p r =>
        rw [hg] at ht hs
        simp only [List.head?_cons, Option.map_some, Option.getD_some]
        rcases List.mem_cons.mp ht with rfl | ht
        · omega
        · have := (List.pairwise_cons.mp hs).1 t ht
          omega
  have hp : (preFix1 d g (preExp d x g.pre) (loop1 d (preExp d x g.pre).p
      ((g.terms.head?.map Prod.fst).getD 0 + 1) g.terms ⟨0, 0, 0⟩)).p =
      (g.terms.map (fun t => t.2 * (x ^ g.pre) ^ t.1)).sum := by
    unfold preFix1
    split_ifs <;> exact hl
  have hX : ∀ s : P3, (postFix1 d x g.post s).p = s.p * x ^ g.post := by
    intro s
    unfold postFix1
    by_cases h0 : g.post = 0
    · simp [h0]
    · simp [h0]
  unfold evalG1
  rw [hX, hp]
  ring

/-- The sum over groups. -/
noncomputable def evalGs1 (gs : List Group1) (x : ℝ) : P3 :=
  match gs with
  | [] => ⟨0, 0, 0⟩
  | g :: gs => ⟨(evalG1 2 g x).p + (evalGs1 gs x).p, (evalG1 2 g x).px + (evalGs1 gs x).px,
      (evalG1 2 g x).pxx + (evalGs1 gs x).pxx⟩

theorem groups1_eq (gs : List Group1) (x : ℝ) (h : ∀ g ∈ gs, g.terms ≠ []) (s : P3) :
    groups1 2 x gs s = .ok ⟨s.p + (evalGs1 gs x).p, s.px + (evalGs1 gs x).px,
      s.pxx + (evalGs1 gs x).pxx⟩ := by
  induction gs generalizing s with
  | nil => simp [groups1, evalGs1]
  | cons g gs ih =>
    rw [groups1, group1_eq 2 g x (h g (by simp))]
    simp only [Bind.bind, Except.bind]
    rw [ih (fun g' hg' => h g' (by simp [hg']))]
    simp [evalGs1, add_assoc]

theorem poly1_eq (gs : List Group1) (x : ℝ) (h : ∀ g ∈ gs, g.terms ≠ []) :
    poly1 x gs 2 = .ok (evalGs1 gs x) := by
  unfold poly1
  split
  · rename_i g
    rw [group1_eq 2 g x (h g (by simp))]
    simp [evalGs1]
  · rw [groups1_eq gs x h]
    simp

theorem evalGs1_jet (gs : List Group1) {x : ℝ} (hx : 0 < x) : Jet1 (evalGs1 gs) x := by
  induction gs with
  | nil => exact Jet1.const 0 x
  | cons g gs ih => exact (evalG1_jet g hx).add ih

theorem evalGs1_value (gs : List Group1) (x : ℝ) (h : ∀ g ∈ gs, Sorted1 g) :
    (evalGs1 gs x).p = poly1At gs x := by
  induction gs with
  | nil => simp [evalGs1, poly1At]
  | cons g gs ih =>
    simp only [evalGs1, poly1At, List.map_cons, List.sum_cons]
    rw [evalG1_value 2 g x (h g (by simp)), ih (fun g' hg' => h g' (by simp [hg']))]
    rfl

/-- **C46.** For every list of groups in the documented order and every positive argument, the
evaluation succeeds and returns the value of the polynomial and its first and second derivatives. -/
theorem C46_poly1 (gs : List Group1) (h : ∀ g ∈ gs, Sorted1 g) (x : ℝ) (hx : 0 < x) :
    ∃ j, poly1 x gs 2 = .ok j ∧ Is1 (poly1At gs) x j := by
  refine ⟨evalGs1 gs x, poly1_eq gs x (fun g hg => (h g hg).1), ?_⟩
  refine Jet1.is ?_ ?_
  · exact (eventually_gt_nhds hx).mono fun s hs => evalGs1_jet gs hs
  · exact Eventually.of_forall fun s => evalGs1_value gs s h

/-- **C46.** The value is also right at arguments that are not positive (with `0` and negative bases
raised to real powers as in `Real.rpow`), in particular for integer exponents at 0. -/
theorem C46_value (gs : List Group1) (h : ∀ g ∈ gs, Sorted1 g) (x : ℝ) :
    ∃ j, poly1 x gs 2 = .ok j ∧ j.p = poly1At gs x :=
  ⟨evalGs1 gs x, poly1_eq gs x (fun g hg => (h g hg).1), evalGs1_value gs x h⟩

/-! ## One variable: lower orders -/

theorem fold1_cut (d : Nat) (x c : ℝ) (s : P3) :
    fold1 d x c (P3.cut d s) = P3.cut d (fold1 2 x c s) := by
  rcases d with _ | _ | d <;> simp [fold1, P3.cut]

theorem loop1_cut (d : Nat) (x : ℝ) (n : Nat) (r : List (Nat × ℝ)) (s : P3) :
    loop1 d x n r (P3.cut d s) = P3.cut d (loop1 2 x n r s) := by
  induction n generalizing r s with
  | zero => simp [loop1]
  | succ n ih =>
    cases r with
    | nil => rw [loop1, loop1, fold1_cut, ih]
    | cons p r =>
      obtain ⟨i, c⟩ := p
      rw [loop1, loop1]
      split_ifs
      · rw [fold1_cut, ih]
      · rw [fold1_cut, ih]

theorem zero_cut (d : Nat) : P3.cut d ⟨0, 0, 0⟩ = ⟨0, 0, 0⟩ := by simp [P3.cut]

theorem preFix1_cut (d : Nat) (g : Group1) (x : ℝ) (s : P3) :
    preFix1 d g (preExp d x g.pre) (P3.cut d s) =
      P3.cut d (preFix1 2 g (preExp 2 x g.pre) s) := by
  unfold preFix1 preExp
  by_cases h : g.pre = 1
  · simp [h]
  · rcases d with _ | _ | d <;> simp [P3.cut, h]

theorem postFix1_cut (d : Nat) (x post : ℝ) (s : P3) :
    postFix1 d x post (P3.cut d s) = P3.cut d (postFix1 2 x post s) := by
  unfold postFix1
  by_cases h : post = 0
  · simp [h]
  · rcases d with _ | _ | d <;> simp [P3.cut, h]

theorem group1_cut (d : Nat) (x : ℝ) (g : Group1) :
    group1 d x g = (group1 2 x g).map (P3.cut d) := by
  unfold group1
  cases g.terms with
  | nil => rfl
  | cons p r =>
    simp only [Except.map]
    rw [← zero_cut d, preExp_value, loop1_cut, preFix1_cut, postFix1_cut, zero_cut d, preExp_value]

theorem groups1_cut (d : Nat) (x : ℝ) (gs : List Group1) (s : P3) :
    groups1 d x gs (P3.cut d s) = (groups1 2 x gs s).map (P3.cut d) := by
  induction gs generalizing s with
  | nil => rfl
  | cons g gs ih =>
    rw [groups1, groups1, group1_cut]
    cases group1 2 x g with
    | error e => rfl
    | ok q =>
      simp only [Except.map, Bind.bind, Except.bind] at ih ⊢
      rw [← ih]
      congr 1
      rcases d with _ | _ | d <;> simp [P3.cut]

/-- **C46.** Asking for fewer derivatives returns the same numbers with the others 0, as
documented. -/
theorem C46_order (d : Nat) (x : ℝ) (gs : List Group1) :
    poly1 x gs d = (poly1 x gs 2).map (P3.cut d) := by
  unfold poly1
  split
  · exact group1_cut d x _
  · rw [← groups1_cut, zero_cut]

/-! ## Two variables: the loops -/

theorem inner_jet (ii n : Nat) (r : List Term2) {S : ℝ → P3} {y : ℝ} (h : Jet1 S y) :
    Jet1 (fun Y => (inner 2 Y ii n r (S Y)).1) y := by
  induction n generalizing r S with
  | zero => simpa [inner] using h
  | succ n ih =>
    cases r with
    | nil => simpa [inner] using ih [] (fold1_jet h 0)
    | cons p r =>
      obtain ⟨i, j, c⟩ := p
      by_cases hi : i = ii ∧ j = n
      · simpa [inner, hi] using ih r (fold1_jet h c)
      · simp only [inner, hi, if_false]
        exact ih ((i, j, c) :: r) (fold1_jet h 0)

theorem inner_rest (d : Nat) (ii n : Nat) (r : List Term2) (y y' : ℝ) (s s' : P3) :
    (inner d y ii n r s).2 = (inner d y' ii n r s').2 := by
  induction n generalizing r s s' with
  | zero => rfl
  | succ n ih =>
    cases r with
    | nil => simp only [inner]; exact ih _ _ _
    | cons p r =>
      obtain ⟨i, j, c⟩ := p
      simp only [inner]
      split_ifs
      · exact ih _ _ _
      · exact ih _ _ _

theorem fold2_jet {Q : ℝ → P3} {S : ℝ → ℝ → J6} {x y : ℝ} (hq : Jet1 Q y) (h : Jet2 S x y) :
    Jet2 (fun X Y => fold2 2 X (Q Y) (S X Y)) x y := by
  have hid := hasDerivAt_id x
  refine ⟨?_, ?_, ?_, ?_, ?_, ?_⟩
  · refine (((hid.mul h.dx).const_add (Q y).p).congr_of_eventuallyEq
      (Eventually.of_forall fun s => ?_)).congr_deriv ?_ <;> simp [fold2]
  · refine ((hq.d1.add (h.dy.const_mul x)).congr_of_eventuallyEq
      (Eventually.of_forall fun s => ?_)).congr_deriv ?_ <;> simp [fold2]
  · refine ((h.dx.add (hid.mul h.dxx)).congr_of_eventuallyEq
      (Eventually.of_forall fun s => ?_)).congr_deriv ?_
    · simp [fold2]
    · simp [fold2]; ring
  · refine ((h.dy.add (h.dxy.const_mul x)).congr_of_eventuallyEq
      (Eventually.of_forall fun s => ?_)).congr_deriv ?_ <;> simp [fold2]
  · refine (((hid.mul h.dyx).const_add (Q y).px).congr_of_eventuallyEq
      (Eventually.of_forall fun s => ?_)).congr_deriv ?_ <;> simp [fold2]
  · refine ((hq.d2.add (h.dyy.const_mul x)).congr_of_eventuallyEq
      (Eventually.of_forall fun s => ?_)).congr_deriv ?_ <;> simp [fold2]

theorem outer_jet (n : Nat) (r : List Term2) {S : ℝ → ℝ → J6} {x y : ℝ} (h : Jet2 S x y) :
    Jet2 (fun X Y => outer 2 X Y n r (S X Y)) x y := by
  induction n generalizing r S with
  | zero => simpa [outer] using h
  | succ n ih =>
    cases r with
    | nil => simpa [outer] using ih [] (fold2_jet (Jet1.const 0 y) h)
    | cons p r =>
      obtain ⟨i, j, c⟩ := p
      by_cases hi : i = n
      · have hq := inner_jet n (j + 1) ((i, j, c) :: r) (Jet1.const 0 y)
        have := ih (inner 2 0 n (j + 1) ((i, j, c) :: r) ⟨0, 0, 0⟩).2 (fold2_jet hq h)
        refine this.congr' fun s t => ?_
        simp only [outer, if_pos hi]
        rw [inner_rest 2 n (j + 1) ((i, j, c) :: r) t 0 ⟨0, 0, 0⟩ ⟨0, 0, 0⟩]
      · simp only [outer, if_neg hi]
        exact ih ((i, j, c) :: r) (fold2_jet (Jet1.const 0 y) h)

/-- The order of terms. -/
def After (a b : Term2) : Prop := b.1 < a.1 ∨ b.1 = a.1 ∧ b.2.1 < a.2.1

theorem inner_value (d : Nat) (Y : ℝ) (ii n : Nat) (r : List Term2) (s : P3)
    (hs : r.Pairwise After) (hle : ∀ t ∈ r, t.1 ≤ ii) (hn : ∀ t ∈ r, t.1 = ii → t.2.1 < n) :
    (inner d Y ii n r s).1.p = s.p * Y ^ n +
      ((r.filter (fun t => t.1 = ii)).map (fun t => t.2.2 * Y ^ t.2.1)).sum ∧
    (inner d Y ii n r s).2 = r.filter (fun t => ¬ t.1 = ii) := by
  induction n generalizing r s with
  | zero =>
    have hno : ∀ t ∈ r, ¬ t.1 = ii := fun t ht h => by have := hn t ht h; omega
    have h1 : r.filter (fun t => t.1 = ii) = [] := by
      rw [List.filter_eq_nil_iff]
      intro t ht
      simpa using hno t ht
    have h2 : r.filter (fun t => ¬ t.1 = ii) = r := by
      rw [List.filter_eq_self]
      intro t ht
      simpa using hno t ht
    rw [h1, h2]
    simp [inner]
  | succ n ih =>
    cases r with
    | nil =>
      rw [inner]
      have := ih [] (fold1 d Y 0 s) (by simp) (by simp) (by simp)
      refine ⟨?_, by simpa using this.2⟩
      rw [this.1]
      simp only [fold1, List.filter_nil, List.map_nil, List.sum_nil]
      ring
    | cons p r =>
      obtain ⟨i, j, c⟩ := p
      have hs' := List.pairwise_cons.mp hs
      by_cases hi : i = ii ∧ j = n
      · obtain ⟨rfl, rfl⟩ := hi
        rw [inner, if_pos ⟨rfl, rfl⟩]
        have := ih r (fold1 d Y c s) hs'.2 (fun t ht => hle t (by simp [ht])) (fun t ht h => by
          rcases hs'.1 t ht with h1 | h1
          · simp only at h1; omega
          · exact h1.2)
        refine ⟨?_, ?_⟩
        · rw [this.1]
          simp only [fold1, List.filter_cons, decide_true, if_true, List.map_cons, List.sum_cons]
          ring
        · rw [this.2]
          simp
      · rw [inner, if_neg hi]
        have := ih ((i, j, c) :: r) (fold1 d Y 0 s) hs hle (fun t ht h => by
          have h1 := hn t ht h
          rcases List.mem_cons.mp ht with rfl | ht'
          · simp only at h h1 ⊢
            have : j ≠ n := fun e => hi ⟨h, e⟩
            omega
          · have h2 := hn (i, j, c) (by simp)
            rcases hs'.1 t ht' with h3 | h3
            · have h4 := hle (i, j, c) (by simp)
              simp only at h3 h4; omega
            · simp only at h2 h3
              have h5 := h2 (by omega)
              have : j ≠ n := fun e => hi ⟨by omega, e⟩
              omega)
        refine ⟨?_, this.2⟩
        rw [this.1]
        simp only [fold1]
        ring

theorem outer_value (d : Nat) (X Y : ℝ) (n : Nat) (r : List Term2) (s : J6)
    (hs : r.Pairwise After) (hn : ∀ t ∈ r, t.1 < n) :
    (outer d X Y n r s).p =
      s.p * X ^ n + (r.map (fun t => t.2.2 * X ^ t.1 * Y ^ t.2.1)).sum := by
  induction n generalizing r s with
  | zero =>
    cases r with
    | nil => simp [outer]
    | cons p r => exact absurd (hn p (by simp)) (by omega)
  | succ n ih =>
    cases r with
    | nil =>
      rw [outer, ih [] _ (by simp) (by simp)]
      simp only [fold2, List.map_nil, List.sum_nil]
      ring
    | cons p r =>
      obtain ⟨i, j, c⟩ := p
      have hs' := List.pairwise_cons.mp hs
      by_cases hi : i = n
      · subst hi
        rw [outer, if_pos rfl]
        simp only
        obtain ⟨hv, hr⟩ := inner_value d Y i (j + 1) ((i, j, c) :: r) ⟨0, 0, 0⟩ hs
          (fun t ht => by have := hn t ht; omega) (fun t ht h => by
            rcases List.mem_cons.mp ht with rfl | ht
            · simp
            · rcases hs'.1 t ht with h1 | h1
              · simp only at h1; omega
              · simp only at h1; omega)
        rw [hr, ih _ _ (hs.filter _) (fun t ht => by
          have := hn t (List.mem_filter.mp ht).1
          have h2 := (List.mem_filter.mp ht).2
          simp only [decide_not, Bool.not_eq_true', decide_eq_false_iff_not] at h2
          omega)]
        simp only [fold2, hv]
        have hsplit : ∀ l : List Term2, (l.map (fun t => t.2.2 * X ^ t.1 * Y ^ t.2.1)).sum =
            ((l.filter (fun t => t.1 = i)).map (fun t => t.2.2 * Y ^ t.2.1)).sum * X ^ i +
            ((l.filter (fun t => ¬ t.1 = i)).map (fun t => t.2.2 * X ^ t.1 * Y ^ t.2.1)).sum := by
          intro l
          induction l with
          | nil => simp
          | cons t l ihl =>
            by_cases ht : t.1 = i
            · simp only [List.map_cons, List.sum_cons, ihl, List.filter_cons, ht, decide_true,
                if_true, not_true_eq_false, decide_false, Bool.false_eq_true, if_false]
              ring
            · simp only [List.map_cons, List.sum_cons, ihl, List.filter_cons, ht, decide_false,
                Bool.false_eq_true, if_false, not_false_eq_true, decide_true, if_true]
              ring
        rw [hsplit ((i, j, c) :: r)]
        ring
      · have hlt : i < n := by have := hn (i, j, c) (by simp); simp only at this; omega
        rw [outer, if_neg hi, ih ((i, j, c) :: r) _ hs ?_]
        · simp only [fold2]
          ring
        · intro t ht
          rcases List.mem_cons.mp ht with rfl | ht
          · exact hlt
          · rcases hs'.1 t ht with h1 | h1 <;> simp only at h1 <;> omega

/-! ## Two variables: groups -/

/-- The value computed for a group. -/
noncomputable def evalG2 (d : Nat) (g : Group2) (x y : ℝ) : J6 :=
  postY d y g.posty (postX d x g.postx (preFix2 d g (preExp d x g.prex) (preExp d y g.prey)
    (outer d (preExp d x g.prex).p (preExp d y g.prey).p
      ((g.terms.head?.map Prod.fst).getD 0 + 1) g.terms ⟨0, 0, 0, 0, 0, 0⟩)))

theorem group2_eq (d : Nat) (g : Group2) (x y : ℝ) (h : g.terms ≠ []) :
    group2 d x y g = .ok (evalG2 d g x y) := by
  unfold group2 evalG2
  cases ht : g.terms with
  | nil => exact absurd ht h
  | cons p r => rfl

theorem postX_jet {S : ℝ → ℝ → J6} {x y : ℝ} (hx : 0 < x) (post : ℝ) (h : Jet2 S x y) :
    Jet2 (fun s t => postX 2 s post (S s t)) x y := by
  by_cases h0 : post = 0
  · refine h.congr' fun s t => ?_
    simp [postX, h0]
  · refine (h.mul (Jet2.liftX (Jet1.rpow post hx.ne') y)).congr' fun s t => ?_
    simp [postX, h0, J6.mul, P3.liftX]

theorem postY_jet {S : ℝ → ℝ → J6} {x y : ℝ} (hy : 0 < y) (post : ℝ) (h : Jet2 S x y) :
    Jet2 (fun s t => postY 2 t post (S s t)) x y := by
  by_cases h0 : post = 0
  · refine h.congr' fun s t => ?_
    simp [postY, h0]
  · refine (h.mul (Jet2.liftY (Jet1.rpow post hy.ne') x)).congr' fun s t => ?_
    simp [postY, h0, J6.mul, P3.liftY]

/-- The pre-exponents for which the correction is right: it is skipped when the x pre-exponent is 1,
so then the y pre-exponent must be 1 too. -/
def PreOk (g : Group2) : Prop := g.prex = 1 → g.prey = 1

theorem evalG2_jet (g : Group2) (hok : PreOk g) {x y : ℝ} (hx : 0 < x) (hy : 0 < y) :
    Jet2 (evalG2 2 g) x y := by
  have ho : ∀ X Y : ℝ, Jet2 (fun X Y => outer 2 X Y ((g.terms.head?.map Prod.fst).getD 0 + 1)
      g.terms ⟨0, 0, 0, 0, 0, 0⟩) X Y := fun X Y => outer_jet _ _ (Jet2.const 0 X Y)
  have hpre : Jet2 (fun s t => preFix2 2 g (preExp 2 s g.prex) (preExp 2 t g.prey)
      (outer 2 (preExp 2 s g.prex).p (preExp 2 t g.prey).p
        ((g.terms.head?.map Prod.fst).getD 0 + 1) g.terms ⟨0, 0, 0, 0, 0, 0⟩)) x y := by
    by_cases h : g.prex = 1
    · have h' := hok h
      refine (ho x y).congr' fun s t => ?_
      simp [preFix2, preExp, h, h']
    · refine (Jet2.comp (F := fun X Y => outer 2 X Y ((g.terms.head?.map Prod.fst).getD 0 + 1)
        g.terms ⟨0, 0, 0, 0, 0, 0⟩) (ho _ _) (preExp_jet g.prex hx) (preExp_jet g.prey hy)).congr'
        fun s t => ?_
      simp [preFix2, h]
  exact postY_jet hy _ (postX_jet hx _ hpre)

theorem evalG2_value (d : Nat) (g : Group2) (x y : ℝ) (h : Sorted2 g) :
    (evalG2 d g x y).p = x ^ g.postx * y ^ g.posty *
      (g.terms.map (fun t => t.2.2 * (x ^ g.prex) ^ t.1 * (y ^ g.prey) ^ t.2.1)).sum := by
  have hl : (outer d (preExp d x g.prex).p (preExp d y g.prey).p
      ((g.terms.head?.map Prod.fst).getD 0 + 1) g.terms ⟨0, 0, 0, 0, 0, 0⟩).p =
      (g.terms.map (fun t => t.2.2 * (x ^ g.prex) ^ t.1 * (y ^ g.prey) ^ t.2.1)).sum := by
    obtain ⟨hne, hs⟩ := h
    rw [outer_value d _ _ _ g.terms _ hs]
    · rw [preExp_value, preExp_value]; simp
    · intro t ht
      cases hg : g.terms with
      | nil => exact absurd hg hne
      | cons p r =>
        rw [hg] at ht hs
        simp only [List.head?_cons, Option.map_some, Option.getD_some]
        rcases List.mem_cons.mp ht with rfl | ht
        · omega
        · rcases (List.pairwise_cons.mp hs).1 t ht with h1 | h1 <;> omega
  have hp : (preFix2 d g (preExp d x g.prex) (preExp d y g.prey)
      (outer d (preExp d x g.prex).p (preExp d y g.prey).p
      ((g.terms.head?.map Prod.fst).getD 0 + 1) g.terms ⟨0, 0, 0, 0, 0, 0⟩)).p =
      (g.terms.map (fun t => t.2.2 * (x ^ g.prex) ^ t.1 * (y ^ g.prey) ^ t.2.1)).sum := by
    unfold preFix2
    split_ifs <;> exact hl
  have hX : ∀ s : J6, (postX d x g.postx s).p = s.p * x ^ g.postx := by
    intro s
    unfold postX
    by_cases h0 : g.postx = 0
    · simp [h0]
    · simp [h0]
  have hY : ∀ s : J6, (postY d y g.posty s).p = s.p * y ^ g.posty := by
    intro s
    unfold postY
    by_cases h0 : g.posty = 0
    · simp [h0]
    · simp [h0]
  unfold evalG2
  rw [hY, hX, hp]
  ring

/-- The sum over groups. -/
noncomputable def evalGs2 (gs : List Group2) (x y : ℝ) : J6 :=
  match gs with
  | [] => ⟨0, 0, 0, 0, 0, 0⟩
  | g :: gs => (evalG2 2 g x y).add (evalGs2 gs x y)

theorem groups2_eq (gs : List Group2) (x y : ℝ) (h : ∀ g ∈ gs, g.terms ≠ []) (s : J6) :
    groups2 2 x y gs s = .ok (s.add (evalGs2 gs x y)) := by
  induction gs generalizing s with
  | nil => simp [groups2, evalGs2, J6.add]
  | cons g gs ih =>
    rw [groups2, group2_eq 2 g x y (h g (by simp))]
    simp only [Bind.bind, Except.bind]
    rw [ih (fun g' hg' => h g' (by simp [hg']))]
    simp [evalGs2, J6.add, add_assoc]

theorem poly2_eq (gs : List Group2) (x y : ℝ) (h : ∀ g ∈ gs, g.terms ≠ []) :
    poly2 x y gs 2 = .ok (evalGs2 gs x y) := by
  unfold poly2
  split
  · rename_i g
    rw [group2_eq 2 g x y (h g (by simp))]
    simp [evalGs2, J6.add]
  · rw [groups2_eq gs x y h]
    simp [J6.add]

theorem evalGs2_jet (gs : List Group2) (hok : ∀ g ∈ gs, PreOk g) {x y : ℝ} (hx : 0 < x)
    (hy : 0 < y) : Jet2 (evalGs2 gs) x y := by
  induction gs with
  | nil => exact Jet2.const 0 x y
  | cons g gs ih =>
    exact (evalG2_jet g (hok g (by simp)) hx hy).add (ih (fun g' hg' => hok g' (by simp [hg'])))

theorem evalGs2_value (gs : List Group2) (x y : ℝ) (h : ∀ g ∈ gs, Sorted2 g) :
    (evalGs2 gs x y).p = poly2At gs x y := by
  induction gs with
  | nil => simp [evalGs2, poly2At]
  | cons g gs ih =>
    simp only [evalGs2, poly2At, List.map_cons, List.sum_cons, J6.add]
    rw [evalG2_value 2 g x y (h g (by simp)), ih (fun g' hg' => h g' (by simp [hg']))]
    rfl

theorem quadrant_open : IsOpen {z : ℝ × ℝ | 0 < z.1 ∧ 0 < z.2} :=
  (isOpen_lt continuous_const continuous_fst).inter (isOpen_lt continuous_const continuous_snd)

/-- **C47, partial.** For every list of groups in the documented order and all positive arguments,
the evaluation succeeds and returns the value of the polynomial and its five partial derivatives,
provided no group has x pre-exponent 1 with a y pre-exponent other than 1 (`PreOk`).  All shipped data
satisfy this.  Missing: that excluded combination, see `C47_pre_exponent_defect`. -/
theorem C47_poly2_partial (gs : List Group2) (h : ∀ g ∈ gs, Sorted2 g) (hok : ∀ g ∈ gs, PreOk g)
    (x y : ℝ) (hx : 0 < x) (hy : 0 < y) :
    ∃ j, poly2 x y gs 2 = .ok j ∧ Is2 (poly2At gs) x y j := by
  refine ⟨evalGs2 gs x y, poly2_eq gs x y (fun g hg => (h g hg).1), ?_⟩
  exact Jet2.is quadrant_open (fun a b hab => evalGs2_jet gs hok hab.1 hab.2)
    (fun a b _ => evalGs2_value gs a b h) (x := x) (y := y) ⟨hx, hy⟩

/-- **C47.** The value is right whatever the pre-exponents and the signs of the arguments. -/
theorem C47_value (gs : List Group2) (h : ∀ g ∈ gs, Sorted2 g) (x y : ℝ) :
    ∃ j, poly2 x y gs 2 = .ok j ∧ j.p = poly2At gs x y :=
  ⟨evalGs2 gs x y, poly2_eq gs x y (fun g hg => (h g hg).1), evalGs2_value gs x y h⟩

/-! ## Two variables: lower orders -/

theorem inner_cut (d : Nat) (y : ℝ) (ii n : Nat) (r : List Term2) (s : P3) :
    (inner d y ii n r (P3.cut d s)).1 = P3.cut d (inner 2 y ii n r s).1 ∧
    (inner d y ii n r (P3.cut d s)).2 = (inner 2 y ii n r s).2 := by
  induction n generalizing r s with
  | zero => simp [inner]
  | succ n ih =>
    cases r with
    | nil => rw [inner, inner, fold1_cut]; exact ih _ _
    | cons p r =>
      obtain ⟨i, j, c⟩ := p
      rw [inner, inner]
      split_ifs
      · rw [fold1_cut]; exact ih _ _
      · rw [fold1_cut]; exact ih _ _

theorem fold2_cut (d : Nat) (x : ℝ) (q : P3) (s : J6) :
    fold2 d x (P3.cut d q) (J6.cut d s) = J6.cut d (fold2 2 x q s) := by
  rcases d with _ | _ | d <;> simp [fold2, P3.cut, J6.cut]

theorem outer_cut (d : Nat) (x y : ℝ) (n : Nat) (r : List Term2) (s : J6) :
    outer d x y n r (J6.cut d s) = J6.cut d (outer 2 x y n r s) := by
  induction n generalizing r s with
  | zero => simp [outer]
  | succ n ih =>
    cases r with
    | nil => rw [outer, outer, ← zero_cut d, fold2_cut, zero_cut, ih]
    | cons p r =>
      obtain ⟨i, j, c⟩ := p
      rw [outer, outer]
      split_ifs
      · simp only
        have hi := inner_cut d y n (j + 1) ((i, j, c) :: r) ⟨0, 0, 0⟩
        rw [zero_cut] at hi
        rw [hi.1, hi.2, fold2_cut, ih]
      · rw [← zero_cut d, fold2_cut, zero_cut, ih]

theorem zero_cut6 (d : Nat) : J6.cut d ⟨0, 0, 0, 0, 0, 0⟩ = ⟨0, 0, 0, 0, 0, 0⟩ := by simp [J6.cut]

theorem postX_cut (d : Nat) (x post : ℝ) (s : J6) :
    postX d x post (J6.cut d s) = J6.cut d (postX 2 x post s) := by
  unfold postX
  by_cases h : post = 0
  · simp [h]
  · rcases d with _ | _ | d <;> simp [J6.cut, h]

theorem postY_cut (d : Nat) (y post : ℝ) (s : J6) :
    postY d y post (J6.cut d s) = J6.cut d (postY 2 y post s) := by
  unfold postY
  by_cases h : post = 0
  · simp [h]
  · rcases d with _ | _ | d <;> simp [J6.cut, h]

theorem preFix2_cut (d : Nat) (g : Group2) (x y : ℝ) (s : J6) :
    preFix2 d g (preExp d x g.prex) (preExp d y g.prey) (J6.cut d s) =
      J6.cut d (preFix2 2 g (preExp 2 x g.prex) (preExp 2 y g.prey) s) := by
  unfold preFix2 preExp
  by_cases h : g.prex = 1
  · simp [h]
  · by_cases h' : g.prey = 1
    · rcases d with _ | _ | d <;> simp [J6.cut, h, h']
    · rcases d with _ | _ | d <;> simp [J6.cut, h, h']

theorem group2_cut (d : Nat) (x y : ℝ) (g : Group2) :
    group2 d x y g = (group2 2 x y g).map (J6.cut d) := by
  unfold group2
  cases g.terms with
  | nil => rfl
  | cons p r =>
    simp only [Except.map]
    rw [← zero_cut6 d, preExp_value, preExp_value, outer_cut, preFix2_cut, postX_cut, postY_cut,
      zero_cut6 d, preExp_value, preExp_value]

theorem groups2_cut (d : Nat) (x y : ℝ) (gs : List Group2) (s : J6) :
    groups2 d x y gs (J6.cut d s) = (groups2 2 x y gs s).map (J6.cut d) := by
  induction gs generalizing s with
  | nil => rfl
  | cons g gs ih =>
    rw [groups2, groups2, group2_cut]
    cases group2 2 x y g with
    | error e => rfl
    | ok q =>
      simp only [Except.map, Bind.bind, Except.bind] at ih ⊢
      rw [← ih]
      congr 1
      rcases d with _ | _ | d <;> simp [J6.cut]

/-- **C47.** Asking for fewer derivatives returns the same numbers with the others 0. -/
theorem C47_order (d : Nat) (x y : ℝ) (gs : List Group2) :
    poly2 x y gs d = (poly2 x y gs 2).map (J6.cut d) := by
  unfold poly2
  split
  · exact group2_cut d x y _
  · rw [← groups2_cut, zero_cut6]

/-! ## Disagreements -/

/-- **C47 disagreement.** With x pre-exponent 1 and another y pre-exponent the y-derivatives are
those with respect to `y^prey`: the correction depends on the x pre-exponent only (`mp1.py:767`).
For `p(x, y) = (y²)^1` at `y = 3` the routine returns 1 instead of 6. -/
theorem C47_pre_exponent_defect :
    ∃ g : Group2, Sorted2 g ∧ ∃ j, poly2 1 3 [g] 2 = .ok j ∧
      HasDerivAt (fun y => poly2At [g] 1 y) 6 3 ∧ j.py = 1 := by
  refine ⟨⟨1, 2, 0, 0, [(0, 1, 1)]⟩, ⟨by simp, by simp⟩, _, rfl, ?_, ?_⟩
  · have hd : HasDerivAt (fun y : ℝ => y ^ 2) 6 3 := by
      refine (hasDerivAt_pow 2 (3 : ℝ)).congr_deriv ?_
      norm_num
    refine hd.congr_of_eventuallyEq (Eventually.of_forall fun y => ?_)
    simp [poly2At]
  · simp [postY, postX, preFix2, preExp, outer, inner, fold2, fold1]

/-! ## Concrete cases -/

/-- `2 x^(-3/2) - x^(1/2)` (the docstring's example, in the documented order). -/
example : Sorted1 ⟨1 / 2, -3 / 2, [(4, -1), (0, 2)]⟩ := ⟨by simp, by simp⟩

/-- `0.5 + 1.2 y + 0.2 y² + 0.1 x y` (the docstring's example). -/
example : Sorted2 ⟨1, 1, 0, 0, [(1, 1, 0.1), (0, 2, 0.2), (0, 1, 1.2), (0, 0, 0.5)]⟩ ∧
    PreOk ⟨1, 1, 0, 0, [(1, 1, 0.1), (0, 2, 0.2), (0, 1, 1.2), (0, 0, 0.5)]⟩ := by
  refine ⟨⟨by simp, by simp⟩, fun _ => rfl⟩

end PyroMat.Mp.Props
