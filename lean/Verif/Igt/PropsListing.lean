import Verif.Igt.Listing
import Verif.Igt.PropsAccess

/-!
# Listings of a dynamic mixture (C45)
-/

namespace PyroMat.Igt.Props

open PyroMat PyroMat.Gas PyroMat.Igt PyroMat.Igt.Spec
open PyroMat.Units PyroMat.Units.Spec PyroMat.Units.Props PyroMat.Gas.Spec PyroMat.Gas.Props

set_option linter.unusedSectionVars false

variable {σ : Type} [DecidableEq σ]

theorem items_get (m : Mix σ) (hwf : Wf m) (r : Nat) :
    (items m)[r]? = (m.c[r]?).map fun s => (s, m.q.row r) := by
  unfold items
  rw [hwf.rows, List.headD_cons]
  by_cases h : r < m.c.length
  · rw [List.getElem?_eq_getElem (by simpa using h), List.getElem?_eq_getElem h]
    simp
  · rw [List.getElem?_eq_none (by simpa using h), List.getElem?_eq_none (by simpa using h)]
    rfl

/-- **C45**, listings.  A loop over the mixture, a loop over `items()` and `tolist` with any of its modes
visit the constituents in the same order (that of the rows), none with an amount left out and nothing
else: position `k` of `tolist('sid')`
and `tolist('hill')` is the identifier and the formula of the substance at position `k` of
`tolist('instance')`; selecting by that identifier reads the same array as selecting by position; and
an unknown mode is a parameter error. -/
theorem C45_listing (L : Lib σ) (hill : σ → String) (E : Env) (m : Mix σ) (hwf : Wf m) :
    tolist L hill m "instance" = .ok ((iter m).map .obj) ∧
    tolist L hill m "sid" = .ok ((iter m).map fun s => .text (L.sid s)) ∧
    tolist L hill m "hill" = .ok ((iter m).map fun s => .text (hill s)) ∧
    (items m).map Prod.fst = iter m ∧
    (∀ s i, amount m s i ≠ 0 → s ∈ iter m) ∧ (∀ s, s ∉ iter m → getItem E L m (.obj s) = .error .param) ∧
    (∀ s (k : Nat), (∀ x ∈ m.c, ∀ y ∈ m.c, L.sid x = L.sid y → x = y) → m.c.Nodup →
      (∀ x ∈ m.c, '.' ∈ (L.sid x).toList) → (iter m)[k]? = some s →
      getItem E L m (.str (L.sid s).toList) = getItem E L m (.int k) ∧
      getItem E L m (.obj s) = getItem E L m (.int k)) ∧
    (∀ mode, mode ≠ "sid" → mode ≠ "hill" → mode ≠ "instance" → tolist L hill m mode = .error .param) := by
  refine ⟨rfl, rfl, rfl, ?_, fun s i h => ?_, fun s h => (C45_absent E L m (.obj s) (.arr ⟨[], fun _ => 0⟩) (Or.inl ⟨s, rfl, h⟩)).1, ?_, fun mode h1 h2 h3 => by simp [tolist, h1, h2, h3]⟩
  · refine List.ext_getElem? fun r => ?_
    rw [List.getElem?_map, items_get m hwf, Option.map_map]
    show Option.map id _ = _
    rw [Option.map_id]; rfl
  · by_contra hs
    exact h (amount_absent m hs i)
  · intro s k hd hn hdot hk
    have hs : s ∈ m.c := List.mem_of_getElem? hk
    obtain ⟨e1, e2, e3⟩ := C45_same_row L m s hs (L.sid s).toList
      (by rw [fullId, if_pos (hdot s hs), String.ofList_toList]) (fun x hx h => hd x hx s hs h)
    have hkk : m.c.idxOf s = k := by
      have h1 : k < m.c.length := (List.getElem?_eq_some_iff.mp hk).1
      have h2 := (List.getElem?_eq_some_iff.mp hk).2
      have h3 := List.idxOf_lt_length_of_mem hs
      have h4 := List.getElem_idxOf h3
      exact (List.Nodup.getElem_inj_iff hn).mp (h4.trans h2.symm)
    have h0 : sindex L m (.int k) = sindex L m (.obj s) := by rw [e2, hkk]; rfl
    constructor
    · unfold getItem; rw [e1, h0]
    · unfold getItem; rw [h0]

section units
variable {E : Env} {S : Sys} {um un : String}

/-- **C45**, items.  `items()` pairs every substance with its amount in kmol at every position; a mixture
built from these pairs with `units='kmol'` is the mixture again.  The full claim, that `items()` gives
what indexing gives, holds when `unit_matter` is kmol; for other units see
`C45_items_units_defect`. -/
theorem C45_items_partial (hW : Works E S um un) (L : Lib σ) (m : Mix σ) (hwf : Wf m) (hnd : m.c.Nodup)
    (hne : m.c ≠ []) (hm : Weighs L m) (hin : ∀ s ∈ m.c, L.inIg s = true) :
    (∀ p ∈ items m, p.2.shape = m.shape ∧ ∀ i, p.2.val i = amount m p.1 i) ∧
    (∀ s ∈ m.c, ∃ a, (s, a) ∈ items m) ∧
    (S.m = "kmol" → ∀ p ∈ items m, ∃ A, getItem E L m (.obj p.1) = .ok (.arr A) ∧ A.shape = p.2.shape ∧
      ∀ i, A.val i = p.2.val i) ∧
    ∃ m', init E L ((items m).map fun p => (.subst p.1, p.2)) (some "kmol") = .ok m' ∧ m'.c = m.c ∧
      Same m' m := by
  have hmem : ∀ p ∈ items m, ∃ r : Nat, ∃ h : r < m.c.length, p = (m.c[r], m.q.row r) := by
    intro p hp
    obtain ⟨r, hr⟩ := List.mem_iff_getElem?.mp hp
    rw [items_get m hwf] at hr
    obtain ⟨s, h1, h2⟩ := Option.map_eq_some_iff.mp hr
    obtain ⟨h3, h4⟩ := List.getElem?_eq_some_iff.mp h1
    exact ⟨r, h3, by rw [← h2, h4]⟩
  have hlen : (items m).length = m.c.length := by
    unfold items; rw [hwf.rows]; simp
  have hrow : ∀ r (h : r < m.c.length) i, (m.q.row r).val i = amount m m.c[r] i := by
    intro r h i
    unfold amount
    rw [Finset.sum_eq_single r]
    · rw [if_pos (List.getElem?_eq_getElem h)]; rfl
    · intro b hb hbr
      rw [if_neg]
      intro he
      have hb' := Finset.mem_range.mp hb
      rw [List.getElem?_eq_getElem hb'] at he
      exact hbr ((List.Nodup.getElem_inj_iff hnd).mp (Option.some.inj he))
    · intro h'; exact absurd (Finset.mem_range.mpr h) h'
  have hshape : ∀ r, (m.q.row r).shape = m.shape := fun r => rfl
  refine ⟨?_, ?_, ?_, ?_⟩
  · intro p hp
    obtain ⟨r, h, rfl⟩ := hmem p hp
    exact ⟨hshape r, fun i => hrow r h i⟩
  · intro s hs
    obtain ⟨r, hr⟩ := List.mem_iff_getElem?.mp hs
    exact ⟨_, List.mem_iff_getElem?.mpr ⟨r, by rw [items_get m hwf, hr]; rfl⟩⟩
  · intro hk p hp
    obtain ⟨r, h, rfl⟩ := hmem p hp
    have hs : m.c[r] ∈ m.c := List.getElem_mem h
    have hf : matterFactor E L m.c[r] (some "kmol") none = .ok 1 := by
      rw [matterFactor_eq hW L _ (hm _ hs) (some "kmol") none "kmol" "kmol" (Or.inl rfl)
        (Or.inr ⟨rfl, hk.symm⟩) (kmol_unit E) (kmol_unit E), msize_kmol, div_one]
    have hi : sindex L m (.obj m.c[r]) = some (.row r) := by
      simp only [sindex, if_pos hs]
      congr 2
      exact (List.Nodup.getElem_inj_iff hnd (hi := List.idxOf_lt_length_of_mem hs) (hj := h)).mp (List.getElem_idxOf _)
    refine ⟨_, getItem_row hW L m _ r _ hi (List.getElem?_eq_getElem h) (hm _ hs) 1 hf, rfl, fun i => ?_⟩
    show (m.q.row r).val i * 1 = _
    rw [mul_one]
  · obtain ⟨m', e, hc, hsh, -, hv⟩ := C45_construct hW L ((items m).map fun p => (.subst p.1, p.2)) (some "kmol")
      "kmol" (Or.inl rfl) (kmol_unit E) m.c (by
        rw [List.forall₂_map_left_iff, List.forall₂_iff_get]
        refine ⟨hlen, fun i h1 h2 => ?_⟩
        have := items_get m hwf i
        rw [List.getElem?_eq_getElem h2, List.getElem?_eq_getElem h1, Option.map_some] at this
        rw [List.get_eq_getElem, Option.some.inj this]
        show Key.resolve L (.subst m.c[i]) = .ok m.c[i]
        rw [Key.resolve, if_pos (hin _ (List.getElem_mem h2))])
      hm m.shape hwf.rank (by
        intro p hp
        obtain ⟨x, hx, rfl⟩ := List.mem_map.mp hp
        obtain ⟨r, h, rfl⟩ := hmem x hx
        exact Or.inr (fits_refl _))
      (Or.inr (by
        obtain ⟨s, c, hsc⟩ := List.exists_cons_of_ne_nil hne
        refine ⟨_, List.mem_map.mpr ⟨(s, m.q.row 0), List.mem_iff_getElem?.mpr ⟨0, ?_⟩, rfl⟩, rfl⟩
        rw [items_get m hwf, hsc]; rfl))
    refine ⟨m', e, hc, hsh, fun s i hi => ?_⟩
    unfold amount
    rw [hc]
    refine Finset.sum_congr rfl fun r hr => ?_
    have hr' := Finset.mem_range.mp hr
    rw [hsh] at hi
    have hget : m.c[r]? = some m.c[r] := List.getElem?_eq_getElem hr'
    have hg2 : ((items m).map fun p => ((.subst p.1 : Key σ), p.2))[r]? = some (.subst m.c[r], m.q.row r) := by
      rw [List.getElem?_map, items_get m hwf, hget]; rfl
    have := hv r _ _ hget hg2 i
    rw [this]
    have h1 : src (m.q.row r).shape i = i := src_within hi
    rw [h1, msize_kmol, mul_one]; rfl

end units

/-- **C45 disagreement.** `items()`, documented to work like that of a dictionary, gives quantities in
kmol whatever units are configured, while indexing and `todict()` give them in `unit_matter`: with
`unit_matter` mol, a mixture of one kmol has the item 1 and reads 1000 when indexed with the same
substance (`igtools.py:1340` and `940`). -/
theorem C45_items_units_defect :
    ∃ a A, (7, a) ∈ items mOne ∧ getItem (mixEnv "kg" "kmol" "mol") lib2 mOne (.obj 7) = .ok (.arr A) ∧
      a.val [0] = 1 ∧ A.val [0] = 1000 := by
  have hW := mixEnv_works (um := "kg") (un := "kmol") (uq := "mol") rfl rfl (Or.inr rfl)
  have hf : matterFactor (mixEnv "kg" "kmol" "mol") lib2 7 (some "kmol") none = .ok 1000 := by
    rw [matterFactor_eq hW lib2 7 (by simp [lib2, ig, constData]) (some "kmol") none "kmol" "mol"
      (Or.inl rfl) (Or.inr ⟨rfl, rfl⟩) (kmol_unit _) (Or.inr rfl), msize_kmol]
    have : msize (mixEnv "kg" "kmol" "mol").a (wU (mixEnv "kg" "kmol" "mol") "kg" "kmol" lib2 7) "mol"
      = (1e-3 : ℝ) := rfl
    rw [this]; norm_num
  refine ⟨mOne.q.row 0, _, ?_, getItem_row hW lib2 mOne (.obj 7) 0 7 rfl rfl (by simp [lib2, ig, constData]) _ hf,
    rfl, ?_⟩
  · simp [items, mOne]
  · show (1 : ℝ) * 1000 = 1000
    norm_num

/-- A mixture of two substances: listed in order, and rebuilt from its items under any units. -/
example : tolist lib2 (fun _ => "") mA "sid" = .ok [.text "ig.N2", .text "ig.H2"] ∧
    getItem (mixEnv "kg" "kmol" "mol") lib2 mA (.str "ig.H2".toList) =
      getItem (mixEnv "kg" "kmol" "mol") lib2 mA (.int 1) ∧
    ∃ m', init (mixEnv "kg" "kmol" "mol") lib2 ((items mA).map fun p => (.subst p.1, p.2)) (some "kmol") = .ok m' ∧
      Same m' mA := by
  have h := C45_listing lib2 (fun _ => "") (mixEnv "kg" "kmol" "mol") mA mA_wf
  refine ⟨?_, ?_, ?_⟩
  · rw [h.2.1]; simp [iter, mA, lib2]
  · have := (h.2.2.2.2.2.2.1 8 1 (by simp [mA, lib2]) (by simp [mA]) (by simp [mA, lib2]) rfl).1
    simpa [lib2] using this
  · obtain ⟨-, -, -, m', e, -, hs⟩ := C45_items_partial
      (mixEnv_works (um := "kg") (un := "kmol") (uq := "mol") rfl rfl (Or.inr rfl)) lib2 mA mA_wf (by simp [mA])
      (by simp [mA]) (lib2_weighs mA) (fun _ _ => rfl)
    exact ⟨m', e, hs⟩

end PyroMat.Igt.Props
