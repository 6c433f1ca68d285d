import Verif.Igt.PropsMeasure

/-!
# Construction and element access (C45)
-/

namespace PyroMat.Igt.Props

open PyroMat PyroMat.Gas PyroMat.Igt PyroMat.Igt.Spec
open PyroMat.Units PyroMat.Units.Spec PyroMat.Units.Props PyroMat.Gas.Spec PyroMat.Gas.Props
open scoped BigOperators

set_option linter.unusedSectionVars false

variable {σ : Type} [DecidableEq σ]

section units
variable {E : Env} {S : Sys} {um un : String}

theorem factor_in (hW : Works E S um un) (L : Lib σ) (s : σ) (h : 0 < (L.gas s).mw) :
    ∃ k, k ≠ 0 ∧ matterFactor E L s none (some "kmol") = .ok k ∧
      matterFactor E L s (some "kmol") none = .ok k⁻¹ := by
  refine ⟨_, ?_, matterFactor_eq hW L s h none (some "kmol") S.m "kmol" (Or.inr ⟨rfl, rfl⟩) (Or.inl rfl)
    hW.uses.valid.m (kmol_unit E), ?_⟩
  · have := msize_ne hW (wU_pos hW h).ne' hW.uses.valid.m
    exact div_ne_zero this (by rw [msize_kmol]; exact one_ne_zero)
  · rw [matterFactor_eq hW L s h (some "kmol") none "kmol" S.m (Or.inl rfl) (Or.inr ⟨rfl, rfl⟩)
      (kmol_unit E) hW.uses.valid.m, inv_div]

/-- Reading the row of a substance. -/
theorem getItem_row (hW : Works E S um un) (L : Lib σ) (m : Mix σ) (i : Idx σ) (n : Nat) (s : σ)
    (hi : sindex L m i = some (.row n)) (hn : m.c[n]? = some s) (h : 0 < (L.gas s).mw) (k : ℝ)
    (hk : matterFactor E L s (some "kmol") none = .ok k) :
    getItem E L m i = .ok (.arr ((m.q.row n).scale k)) := by
  unfold getItem
  rw [hi]
  simp only [hn, hk, exbind_ok]

theorem sindex_congr (L : Lib σ) (m m' : Mix σ) (h : m'.c = m.c) (i : Idx σ) :
    sindex L m' i = sindex L m i := by
  induction i with
  | tup i rest ih => simp only [sindex, ih]
  | _ => simp only [sindex, h]

theorem bto_tail {a : Arr} {n : Nat} {t : List Nat} (hl : a.shape.length = t.length + 1)
    (hf : fits a.shape (n :: t) = true) :
    a.bto (n :: t) = .ok ⟨n :: t, fun i => a.val (src a.shape i)⟩ :=
  bto_same (by simpa using hl) hf

/-- **C45.** Assigning to a substance (selected by position, identifier or object) whose value is
broadcastable to the mixture: reading it back gives the value assigned, in whatever units are
configured, repeated to the common shape; no substance is added or removed and every other
substance keeps its amount. -/
theorem C45_set_get (hW : Works E S um un) (L : Lib σ) (m : Mix σ) (hwf : Wf m) (i : Idx σ) (n : Nat)
    (s : σ) (hi : sindex L m i = some (.row n)) (hn : m.c[n]? = some s) (hs : 0 < (L.gas s).mw)
    (v : Arr) (hv : Compat m.shape v.atleast1.shape) :
    ∃ m' A, setItem E L m i (.arr v) = .ok m' ∧ getItem E L m' i = .ok (.arr A) ∧
      Wf m' ∧ m'.c = m.c ∧ m'.shape = joined m.shape v.atleast1.shape ∧ A.shape = m'.shape ∧
      (∀ j, A.val j = v.atleast1.val (src v.atleast1.shape j)) ∧
      (∀ r j, r ≠ n → r < m.c.length → Within j m'.shape →
        m'.q.val (r :: j) = m.q.val (r :: src m.shape j)) := by
  obtain ⟨k, hk0, hk1, hk2⟩ := factor_in hW L s hs
  have hsh := broadcastShape_compat hv hwf.rank
  have hfit : fits v.atleast1.shape (joined m.shape v.atleast1.shape) = true := fits_joined' hv
  have hlen : v.atleast1.shape.length = (joined m.shape v.atleast1.shape).length := by
    rw [joined_length hv, compat_length hv]
  obtain ⟨q, hq, hqs, hqv⟩ : ∃ q, reshapeTo m (joined m.shape v.atleast1.shape) = .ok q ∧
      q.shape = m.c.length :: joined m.shape v.atleast1.shape ∧
      ∀ r j, r < m.c.length → Within j (joined m.shape v.atleast1.shape) →
        q.val (r :: j) = m.q.val (r :: src m.shape j) := by
    unfold reshapeTo
    by_cases hc : joined m.shape v.atleast1.shape = m.shape
    · rw [if_neg (not_not.mpr hc)]
      refine ⟨m.q, rfl, by rw [hc, hwf.rows], fun r j _ hj => ?_⟩
      rw [hc] at hj
      rw [src_within hj]
    · rw [if_pos hc]
      have hhd : m.q.shape.headD 0 = m.c.length := by rw [hwf.rows]; rfl
      rw [hhd, bto_same (by rw [hwf.rows]; simp [joined_length hv])
        (by rw [hwf.rows]; simp [fits, fits_joined hv])]
      refine ⟨_, rfl, rfl, fun r j hr _ => ?_⟩
      show m.q.val (src m.q.shape (r :: j)) = _
      rw [hwf.rows]
      show m.q.val ((if m.c.length = 1 then 0 else r) :: src m.shape j) = _
      by_cases h1 : m.c.length = 1
      · have : r = 0 := by omega
        rw [if_pos h1, this]
      · rw [if_neg h1]
  have hb : (v.atleast1.scale k).bto (joined m.shape v.atleast1.shape) =
      .ok ⟨joined m.shape v.atleast1.shape, fun j => (v.atleast1.scale k).val (src v.atleast1.shape j)⟩ :=
    bto_same hlen hfit
  obtain ⟨m', hm'⟩ : ∃ m' : Mix σ, m' = ⟨m.c, tab q.shape fun r j =>
    if r = n then (v.atleast1.scale k).val (src v.atleast1.shape j) else q.val (r :: j)⟩ := ⟨_, rfl⟩
  have hset : setItem E L m i (.arr v) = .ok m' := by
    unfold setItem
    rw [hi]
    unfold setRow
    simp only [hsh, exbind_ok, hq, hn, hk1, hb, hm']
  have hc : m'.c = m.c := by rw [hm']
  have hsp : m'.shape = joined m.shape v.atleast1.shape := by
    rw [hm']
    show q.shape.tail = _
    rw [hqs]; rfl
  refine ⟨m', (m'.q.row n).scale k⁻¹, hset, getItem_row hW L m' i n s
    (by rw [← hi]; exact sindex_congr L m m' hc i) (by rw [hc]; exact hn) hs k⁻¹ hk2,
    ⟨?_, ?_⟩, hc, hsp, rfl, ?_, ?_⟩
  · rw [hsp, hc, hm']; exact hqs
  · rw [hsp]; exact joined_ne_nil hv hwf.rank
  · intro j
    rw [hm']
    show (if n = n then v.atleast1.val (src v.atleast1.shape j) * k else _) * k⁻¹ = _
    rw [if_pos rfl, mul_assoc, mul_inv_cancel₀ hk0, mul_one]
  · intro r j hr hrl hj
    rw [hsp] at hj
    rw [hm']
    show (if r = n then _ else q.val (r :: j)) = _
    rw [if_neg hr]
    exact hqv r j hrl hj

/-- **C45.** A substance that is not in the mixture can be neither read nor assigned nor removed,
by identifier or by object; a parameter error is raised. -/
theorem C45_absent (E : Env) (L : Lib σ) (m : Mix σ) (i : Idx σ) (v : Assigned σ)
    (h : (∃ s, i = .obj s ∧ s ∉ m.c) ∨
      (∃ t, i = .str t ∧ ∀ s ∈ m.c, L.sid s ≠ String.ofList (fullId t))) :
    getItem E L m i = .error .param ∧ setItem E L m i v = .error .param ∧
      remove L m i = .error .param := by
  have hnone : sindex L m i = none := by
    rcases h with ⟨s, rfl, hs⟩ | ⟨t, rfl, ht⟩
    · simp [sindex, hs]
    · have : ∀ (c : List σ) k, (∀ s ∈ c, L.sid s ≠ String.ofList (fullId t)) →
          findSid L (String.ofList (fullId t)) c k = none := by
        intro c
        induction c with
        | nil => intro k _; rfl
        | cons x xs ih =>
          intro k hx
          unfold findSid
          rw [if_neg (hx x (by simp))]
          exact ih _ fun s hs => hx s (by simp [hs])
      simp only [sindex, this m.c 0 ht, Option.map_none]
  refine ⟨?_, ?_, ?_⟩
  · unfold getItem; rw [hnone]
  · unfold setItem; rw [hnone]
  · unfold remove; rw [hnone]

/-- Selection by identifier and by object reach the same row when identifiers are distinct. -/
theorem C45_same_row (L : Lib σ) (m : Mix σ) (s : σ) (hs : s ∈ m.c) (t : List Char)
    (ht : L.sid s = String.ofList (fullId t))
    (hd : ∀ x ∈ m.c, L.sid x = L.sid s → x = s) :
    sindex L m (.str t) = sindex L m (.obj s) ∧ sindex L m (.obj s) = some (.row (m.c.idxOf s)) ∧
      m.c[m.c.idxOf s]? = some s := by
  have key : ∀ (c : List σ) k, s ∈ c → (∀ x ∈ c, L.sid x = L.sid s → x = s) →
      findSid L (String.ofList (fullId t)) c k = some (k + c.idxOf s) := by
    intro c
    induction c with
    | nil => intro k h; cases h
    | cons x xs ih =>
      intro k hm hdx
      unfold findSid
      by_cases hx : x = s
      · subst hx
        rw [if_pos ht]; simp
      · rw [if_neg (fun h => hx (hdx x (by simp) (by rw [h, ht]))),
          ih (k + 1) (by
            rcases List.mem_cons.mp hm with h | h
            · exact absurd h.symm hx
            · exact h) (fun y hy => hdx y (by simp [hy]))]
        rw [List.idxOf_cons_ne _ hx]
        congr 1; omega
  have h2 : sindex L m (.obj s) = some (.row (m.c.idxOf s)) := by
    simp only [sindex, if_pos hs]
  refine ⟨?_, h2, idxOf_get hs⟩
  rw [h2]
  simp only [sindex, key m.c 0 hs hd, Nat.zero_add, Option.map_some]

/-- **C45.** `insert` with units adds exactly the new substance: reading it in those units gives
the quantity inserted, and every other substance keeps its amount.  Inserting a substance that is
present is an error. -/
theorem C45_insert (hW : Works E S um un) (L : Lib σ) (m : Mix σ) (hwf : Wf m) (key : Key σ) (s : σ)
    (hkey : key.resolve L = .ok s) (hs : 0 < (L.gas s).mw) (v : Arr)
    (hv : Compat m.shape v.atleast1.shape) :
    (s ∈ m.c → ∀ u, insert E L m key v u = .error .param) ∧
    (s ∉ m.c → ∃ m' A, insert E L m key v (some S.m) = .ok m' ∧
      getItem E L m' (.obj s) = .ok (.arr A) ∧ Wf m' ∧ m'.c = m.c ++ [s] ∧
      m'.shape = joined m.shape v.atleast1.shape ∧ A.shape = m'.shape ∧
      (∀ j, A.val j = v.atleast1.val (src v.atleast1.shape j)) ∧
      (∀ r j, r < m.c.length → m'.q.val (r :: j) = m.q.val (r :: src m.shape j))) := by
  constructor
  · intro hm u
    unfold insert
    rw [hkey, exbind_ok, if_pos hm]
  · intro hm
    have hfk : matterFactor E L s (some S.m) (some "kmol") =
        .ok (msize E.a (wU E um un L s) S.m / msize E.a (wU E um un L s) "kmol") :=
      matterFactor_eq hW L s hs _ _ S.m "kmol" (Or.inl rfl) (Or.inl rfl) hW.uses.valid.m (kmol_unit E)
    have hfo := matterFactor_eq hW L s hs (some "kmol") none "kmol" S.m (Or.inl rfl)
      (Or.inr ⟨rfl, rfl⟩) (kmol_unit E) hW.uses.valid.m
    have hk0 : msize E.a (wU E um un L s) S.m / msize E.a (wU E um un L s) "kmol" ≠ 0 :=
      div_ne_zero (msize_ne hW (wU_pos hW hs).ne' hW.uses.valid.m)
        (by rw [msize_kmol]; exact one_ne_zero)
    have hinv : msize E.a (wU E um un L s) "kmol" / msize E.a (wU E um un L s) S.m =
        (msize E.a (wU E um un L s) S.m / msize E.a (wU E um un L s) "kmol")⁻¹ := by rw [inv_div]
    rw [hinv] at hfo
    generalize msize E.a (wU E um un L s) S.m / msize E.a (wU E um un L s) "kmol" = k at hfk hfo hk0
    have hsh : broadcastShape (v.atleast1.scale k).shape m.shape =
        .ok (joined m.shape v.atleast1.shape) := broadcastShape_compat hv hwf.rank
    have hb : (v.atleast1.scale k).bto (joined m.shape v.atleast1.shape) =
      .ok ⟨joined m.shape v.atleast1.shape, fun j => (v.atleast1.scale k).val (src v.atleast1.shape j)⟩ :=
      bto_same (by rw [joined_length hv, compat_length hv]; rfl) (fits_joined' hv)
    have ho : m.q.bto (m.c.length :: joined m.shape v.atleast1.shape) =
        .ok ⟨m.c.length :: joined m.shape v.atleast1.shape, fun j => m.q.val (src m.q.shape j)⟩ :=
      bto_same (by rw [hwf.rows]; simp [joined_length hv])
        (by rw [hwf.rows]; simp [fits, fits_joined hv])
    have hins : insert E L m key v (some S.m) = .ok ⟨m.c ++ [s],
        tab ((m.c.length + 1) :: joined m.shape v.atleast1.shape) fun r i =>
          if r = m.c.length then (v.atleast1.scale k).val (src v.atleast1.shape i)
            else m.q.val (src m.q.shape (r :: i))⟩ := by
      unfold insert
      rw [hkey, exbind_ok, if_neg hm]
      simp only [hfk, exbind_ok, hsh, hb, ho]
    have hidx : (m.c ++ [s]).idxOf s = m.c.length := by
      rw [List.idxOf_append]
      simp [hm]
    refine ⟨_, _, hins, getItem_row hW L ⟨m.c ++ [s], _⟩ (.obj s) m.c.length s ?_ ?_ hs _ hfo,
      ⟨?_, ?_⟩, rfl, rfl, rfl, ?_, ?_⟩
    · simp only [sindex, List.mem_append, List.mem_singleton, or_true, if_true, hidx]
    · simp
    · simp [Mix.shape, tab]
    · exact joined_ne_nil hv hwf.rank
    · intro j
      show (if m.c.length = m.c.length then v.atleast1.val (src v.atleast1.shape j) * k else _) * k⁻¹ = _
      rw [if_pos rfl, mul_assoc, mul_inv_cancel₀ hk0, mul_one]
    · intro r j hr
      show (if r = m.c.length then _ else m.q.val (src m.q.shape (r :: j))) = _
      rw [if_neg (by omega), hwf.rows]
      show m.q.val ((if m.c.length = 1 then 0 else r) :: src m.shape j) = _
      by_cases h1 : m.c.length = 1
      · have : r = 0 := by omega
        rw [if_pos h1, this]
      · rw [if_neg h1]

/-- **C45.** `remove` takes out exactly the selected substance: the others keep their order and
their amounts, and when substances are distinct it can no longer be selected. -/
theorem C45_remove (L : Lib σ) (m : Mix σ) (hwf : Wf m) (i : Idx σ) (n : Nat) (s : σ)
    (hi : sindex L m i = some (.row n)) (hn : m.c[n]? = some s) :
    ∃ m', remove L m i = .ok m' ∧ Wf m' ∧ m'.c = m.c.eraseIdx n ∧ m'.shape = m.shape ∧
      (∀ r j, r < n → m'.q.val (r :: j) = m.q.val (r :: j)) ∧
      (∀ r j, n ≤ r → m'.q.val (r :: j) = m.q.val ((r + 1) :: j)) ∧
      (m.c.Nodup → s ∉ m'.c ∧ ∀ t j, t ≠ s → amount m' t j = amount m t j) := by
  have hlt : n < m.c.length := by
    by_contra h
    rw [List.getElem?_eq_none (by omega)] at hn
    cases hn
  have hrem : remove L m i = .ok ⟨m.c.eraseIdx n, tab ((m.c.length - 1) :: m.shape) fun r i => m.q.val ((if r < n then r else r + 1) :: i)⟩ := by
    unfold remove
    rw [hi]
    simp only [if_pos hlt]
  have hlow : ∀ r (j : List Nat), r < n → m.q.val ((if r < n then r else r + 1) :: j) = m.q.val (r :: j) := by
    intro r j hr; rw [if_pos hr]
  have hhigh : ∀ r (j : List Nat), n ≤ r → m.q.val ((if r < n then r else r + 1) :: j) = m.q.val ((r + 1) :: j) := by
    intro r j hr; rw [if_neg (by omega)]
  refine ⟨_, hrem, ⟨?_, hwf.rank⟩, rfl, rfl, hlow, hhigh, ?_⟩
  · show (m.c.length - 1) :: m.shape = (m.c.eraseIdx n).length :: _
    rw [List.length_eraseIdx, if_pos hlt]; rfl
  · intro hnd
    constructor
    · show s ∉ m.c.eraseIdx n
      intro hmem
      rw [List.mem_eraseIdx_iff_getElem?] at hmem
      obtain ⟨k, hk, hks⟩ := hmem
      have hk' : k < m.c.length := by
        by_contra h
        rw [List.getElem?_eq_none (by omega)] at hks
        cases hks
      rw [List.getElem?_eq_getElem hk'] at hks
      rw [List.getElem?_eq_getElem hlt] at hn
      have : m.c[k] = m.c[n] := by rw [Option.some.inj hks, Option.some.inj hn]
      exact hk ((List.Nodup.getElem_inj_iff hnd).mp this)
    · intro t j hts
      show (∑ r ∈ Finset.range (m.c.eraseIdx n).length, if (m.c.eraseIdx n)[r]? = some t then
        m.q.val ((if r < n then r else r + 1) :: j) else 0) = _
      unfold amount
      rw [List.length_eraseIdx, if_pos hlt]
      have hN : m.c.length = n + (m.c.length - 1 - n) + 1 := by omega
      have hl : m.c.length - 1 = n + (m.c.length - 1 - n) := by omega
      have hr2 : Finset.range m.c.length = Finset.range (n + (1 + (m.c.length - 1 - n))) := by
        congr 1; omega
      rw [hl, hr2]
      rw [Finset.sum_range_add, Finset.sum_range_add, Finset.sum_range_add]
      have h0 : (∑ x ∈ Finset.range 1, if m.c[n + x]? = some t then m.q.val ((n + x) :: j) else 0) = 0 := by
        rw [Finset.sum_range_one, Nat.add_zero, hn, if_neg (fun h => hts (Option.some.inj h).symm)]
      rw [h0, zero_add]
      congr 1
      · refine Finset.sum_congr rfl fun r hr => ?_
        have hr' := Finset.mem_range.mp hr
        rw [List.getElem?_eraseIdx, if_pos hr', if_pos hr']
      · refine Finset.sum_congr rfl fun x _ => ?_
        have hnx : ¬ (n + x < n) := by omega
        rw [List.getElem?_eraseIdx, if_neg hnx, if_neg hnx]
        rw [show n + x + 1 = n + (1 + x) by omega]

/-! ## Construction -/

theorem padR_one (k : Nat) (hk : 1 ≤ k) : padR k [1] = List.replicate k 1 := by
  obtain ⟨j, rfl⟩ : ∃ j, k = j + 1 := ⟨k - 1, by omega⟩
  simp [padR, List.replicate_succ]

theorem padR_nil (k : Nat) : padR k [] = List.replicate k 1 := by simp [padR]

theorem compat_ones (s : List Nat) : Compat s (List.replicate s.length 1) := by
  induction s with
  | nil => exact .nil
  | cons a s ih => exact .cons (Or.inr (Or.inr rfl)) ih

theorem joined_ones (s : List Nat) : joined s (List.replicate s.length 1) = s := by
  induction s with
  | nil => rfl
  | cons a s ih =>
    have ih' : List.zipWith (fun a b => if a = 1 then b else a) s (List.replicate s.length 1) = s := ih
    simp only [joined, List.length_cons, List.replicate_succ, List.zipWith_cons_cons, ih']
    congr 1
    split <;> simp_all

theorem compat_of_fits {s t sh : List Nat} (h1 : fits s sh = true) (h2 : fits t sh = true) :
    Compat s t := by
  induction sh generalizing s t with
  | nil =>
    cases s <;> cases t <;> simp [fits] at h1 h2
    exact .nil
  | cons n sh ih =>
    cases s with
    | nil => simp [fits] at h1
    | cons a s =>
      cases t with
      | nil => simp [fits] at h2
      | cons b t =>
        simp only [fits, Bool.and_eq_true, Bool.or_eq_true, beq_iff_eq] at h1 h2
        exact .cons (by omega) (ih h1.2 h2.2)

theorem fits_joined3 {s t sh : List Nat} (h1 : fits s sh = true) (h2 : fits t sh = true) :
    fits (joined s t) sh = true := by
  induction sh generalizing s t with
  | nil =>
    cases s <;> cases t <;> simp [fits] at h1 h2
    rfl
  | cons n sh ih =>
    cases s with
    | nil => simp [fits] at h1
    | cons a s =>
      cases t with
      | nil => simp [fits] at h2
      | cons b t =>
        simp only [fits, Bool.and_eq_true] at h1 h2
        have ih' : fits (List.zipWith (fun a b => if a = 1 then b else a) s t) sh = true := ih h1.2 h2.2
        simp only [joined, List.zipWith_cons_cons, fits, ih', Bool.and_true]
        split
        · exact h2.1
        · exact h1.1

theorem joined_absorb {s sh : List Nat} (h : fits s sh = true) : joined s sh = sh := by
  induction sh generalizing s with
  | nil =>
    cases s <;> simp [fits] at h
    rfl
  | cons n sh ih =>
    cases s with
    | nil => simp [fits] at h
    | cons a s =>
      simp only [fits, Bool.and_eq_true, Bool.or_eq_true, beq_iff_eq] at h
      have ih' : List.zipWith (fun a b => if a = 1 then b else a) s sh = sh := ih h.2
      simp only [joined, List.zipWith_cons_cons, ih']
      congr 1
      split <;> omega

/-- A quantity that fits the shape: a scalar, or an array of the same rank whose axes have length
1 or that of the shape. -/
def Fit (a : Arr) (sh : List Nat) : Prop := a.shape = [] ∨ fits a.shape sh = true

theorem step_shape {sh s : List Nat} {a : Arr} (h0 : sh ≠ []) (ha : Fit a sh)
    (hs : s = [1] ∨ fits s sh = true) :
    ∃ s', broadcastShape a.shape s = .ok s' ∧ (s' = [1] ∨ fits s' sh = true) ∧
      (a.shape = sh ∨ s = sh → s' = sh) := by
  have hpos : 1 ≤ sh.length := by
    have : sh.length ≠ 0 := fun h => h0 (List.length_eq_zero_iff.mp h)
    omega
  rcases ha with ha | ha
  · -- a scalar leaves the shape alone
    have hsl : s.length ≠ 0 := by
      rcases hs with rfl | hs
      · simp
      · rw [fits_length hs]; omega
    refine ⟨s, ?_, hs, ?_⟩
    · rw [ha]
      unfold broadcastShape
      rw [if_neg (by intro h; exact hsl h.1)]
      show joinDims (padR 0 s) (padR s.length []) = _
      have : padR 0 s = s := by simp [padR]
      rw [this, padR_nil, joinDims_compat (compat_ones s), joined_ones]
    · rintro (h | h)
      · rw [ha] at h; exact absurd h.symm h0
      · exact h
  · have hal := fits_length ha
    rcases hs with rfl | hs
    · refine ⟨a.shape, ?_, Or.inr ha, ?_⟩
      · unfold broadcastShape
        rw [if_neg (by simp)]
        have : padR ([1] : List Nat).length a.shape = a.shape := by
          unfold padR
          rw [show ([1] : List Nat).length - a.shape.length = 0 by simp; omega]
          simp
        rw [this, padR_one _ (by omega),
          joinDims_compat (compat_symm (compat_ones a.shape)),
          joined_comm (compat_symm (compat_ones a.shape)), joined_ones]
      · rintro (h | h)
        · exact h
        · rw [← h] at ha ⊢
          have hc := compat_of_fits ha (fits_refl [1])
          have h1 := joined_absorb ha
          cases hx : a.shape with
          | nil => rw [hx] at hal; simp at hal; omega
          | cons x xs =>
            rw [hx] at ha
            simp only [fits, Bool.and_eq_true, Bool.or_eq_true, beq_iff_eq] at ha
            cases xs with
            | nil => rcases ha.1 with h | h <;> rw [h]
            | cons => simp [fits] at ha
    · have hc := compat_of_fits hs ha
      have hne : s ≠ [] := by
        intro h
        rw [h] at hs
        cases hsh : sh with
        | nil => exact h0 hsh
        | cons => rw [hsh] at hs; simp [fits] at hs
      refine ⟨joined s a.shape, broadcastShape_compat hc hne, Or.inr (fits_joined3 hs ha), ?_⟩
      rintro (h | h)
      · rw [h]; exact joined_absorb hs
      · rw [joined_comm hc, h]; exact joined_absorb ha

theorem gather_ok (L : Lib σ) (sh : List Nat) (h0 : sh ≠ []) (contents : List (Key σ × Arr))
    (subs : List σ) (hr : List.Forall₂ (fun p s => Key.resolve L p.1 = .ok s) contents subs)
    (hf : ∀ p ∈ contents, Fit p.2 sh) (c : List σ) (s : List Nat) (hs : s = [1] ∨ fits s sh = true)
    (hend : s = sh ∨ ∃ p ∈ contents, p.2.shape = sh) :
    gather L contents c s = .ok (c ++ subs, sh) := by
  induction hr generalizing c s with
  | nil =>
    rcases hend with rfl | ⟨p, hp, _⟩
    · simp [gather]
    · cases hp
  | @cons p t ps ts e rest ih =>
    obtain ⟨k, a⟩ := p
    obtain ⟨s', e', hs', hend'⟩ := step_shape h0 (hf (k, a) (by simp)) hs
    unfold gather
    have e1 : Key.resolve L k = .ok t := e
    have e2 : broadcastShape a.shape s = .ok s' := e'
    rw [e1, exbind_ok, e2, exbind_ok, ih (fun p hp => hf p (by simp [hp])) _ s' hs']
    · simp
    · rcases hend with h | ⟨p, hp, h⟩
      · exact Or.inl (hend' (Or.inr h))
      · rcases List.mem_cons.mp hp with rfl | hp
        · exact Or.inl (hend' (Or.inl h))
        · exact Or.inr ⟨p, hp, h⟩

theorem bto_fit {a : Arr} {sh : List Nat} (h : Fit a sh) :
    a.bto sh = .ok ⟨sh, fun j => a.val (src a.shape (j.drop (sh.length - a.shape.length)))⟩ := by
  unfold Arr.bto
  rw [if_pos]
  · rfl
  · rcases h with h | h
    · rw [h]; simp [fits]
    · have := fits_length h
      refine ⟨by omega, ?_⟩
      rw [show sh.length - a.shape.length = 0 by omega]
      exact h

/-- The value an array that fits the shape takes at a position. -/
theorem fit_val {a : Arr} {sh : List Nat} (h : Fit a sh) (j : List Nat) :
    src a.shape (j.drop (sh.length - a.shape.length)) = src a.shape j := by
  rcases h with h | h
  · rw [h]; simp [src]
  · have := fits_length h
    rw [show sh.length - a.shape.length = 0 by omega]; rfl

theorem fillRows_ok (E : Env) (L : Lib σ) (units : Option String) (sh : List Nat) (g : σ → ℝ)
    (subs : List σ) (as : List Arr) (hl : subs.length = as.length)
    (hk : ∀ s ∈ subs, matterFactor E L s units (some "kmol") = .ok (g s))
    (hf : ∀ a ∈ as, Fit a sh) :
    ∃ rows : List Arr, fillRows E L units sh subs as = .ok rows ∧ rows.length = subs.length ∧
      ∀ (r : Nat) (s : σ) (a : Arr), subs[r]? = some s → as[r]? = some a →
        ∃ row, rows[r]? = some row ∧ ∀ j, row.val j = a.val (src a.shape j) * g s := by
  induction subs generalizing as with
  | nil => exact ⟨[], rfl, rfl, by intro r s a h; simp at h⟩
  | cons s ss ih =>
    cases as with
    | nil => simp at hl
    | cons a as =>
      obtain ⟨rows, e, hlen, hv⟩ := ih as (by simpa using hl) (fun t ht => hk t (by simp [ht]))
        (fun b hb => hf b (by simp [hb]))
      have hfa : Fit (a.scale (g s)) sh := hf a (by simp)
      unfold fillRows
      rw [hk s (by simp), exbind_ok, bto_fit hfa, exbind_ok, e, exbind_ok]
      refine ⟨_, rfl, by simp [hlen], fun r t b hr hb => ?_⟩
      cases r with
      | zero =>
        simp only [List.getElem?_cons_zero, Option.some.injEq] at hr hb
        subst hr; subst hb
        refine ⟨_, rfl, fun j => ?_⟩
        show (a.scale (g s)).val (src (a.scale (g s)).shape _) = _
        rw [fit_val hfa]
        rfl
      | succ r =>
        simp only [List.getElem?_cons_succ] at hr hb ⊢
        exact hv r t b hr hb

/-- **C45, C39.** Building a mixture from a dictionary of substances and quantities: one row per
entry in order, each holding the quantity given, converted from the given units to kmol, repeated
to the common shape.  Scalars and arrays of the common shape (or with axes of length 1) may be
mixed. -/
theorem C45_construct (hW : Works E S um un) (L : Lib σ) (contents : List (Key σ × Arr))
    (units : Option String) (u : String) (hu : units = some u ∨ units = none ∧ u = S.m)
    (hmu : IsMatterUnit E.a u) (subs : List σ)
    (hr : List.Forall₂ (fun p s => Key.resolve L p.1 = .ok s) contents subs)
    (hmw : ∀ s ∈ subs, 0 < (L.gas s).mw) (sh : List Nat) (h0 : sh ≠ [])
    (hf : ∀ p ∈ contents, Fit p.2 sh) (hend : sh = [1] ∨ ∃ p ∈ contents, p.2.shape = sh) :
    ∃ m, init E L contents units = .ok m ∧ m.c = subs ∧ m.shape = sh ∧ Wf m ∧
      ∀ (r : Nat) (s : σ) (p : Key σ × Arr), subs[r]? = some s → contents[r]? = some p → ∀ j,
        m.q.val (r :: j) = p.2.val (src p.2.shape j) *
          msize E.a (wU E um un L s) u := by
  have hg := gather_ok L sh h0 contents subs hr hf [] [1] (Or.inl rfl)
    (hend.imp (fun h => h.symm) id)
  have hlen := List.Forall₂.length_eq hr
  obtain ⟨rows, e, hl, hv⟩ := fillRows_ok E L units sh (fun s => msize E.a (wU E um un L s) u) subs
    (contents.map Prod.snd) (by rw [List.length_map, hlen])
    (fun s hs => by
      rw [matterFactor_eq hW L s (hmw s hs) units (some "kmol") u "kmol" hu (Or.inl rfl) hmu (kmol_unit E),
        msize_kmol, div_one])
    (fun a ha => by
      obtain ⟨p, hp, rfl⟩ := List.mem_map.mp ha
      exact hf p hp)
  refine ⟨⟨subs, stack sh rows⟩, ?_, rfl, rfl, ⟨?_, h0⟩, fun r s p hs hp j => ?_⟩
  · unfold init
    rw [hg, exbind_ok]
    simp only [List.nil_append]
    rw [e, exbind_ok]
  · show rows.length :: sh = subs.length :: sh
    rw [hl]
  · obtain ⟨row, h1, h2⟩ := hv r s p.2 hs (by rw [List.getElem?_map, hp]; rfl)
    show (match rows[r]? with
      | some a => a.val j
      | none => 0) = _
    rw [h1]
    exact h2 j

/-- **C45.** Converting to a dictionary in any units and building a mixture from it in the same
units gives the mixture back, when every substance is the one its identifier names. -/
theorem C45_todict_roundtrip (hW : Works E S um un) (L : Lib σ) (m : Mix σ) (hwf : Wf m)
    (hne : m.c ≠ []) (hm : Weighs L m) (units : Option String) (u : String)
    (hu : units = some u ∨ units = none ∧ u = S.m) (hmu : IsMatterUnit E.a u)
    (hid : ∀ s ∈ m.c, '.' ∈ (L.sid s).toList ∧ L.find (L.sid s) = some s) :
    ∃ d m', todict E L m units = .ok d ∧ init E L d units = .ok m' ∧ m'.c = m.c ∧
      m'.shape = m.shape ∧ Same m' m := by
  have hd : todict E L m units = .ok ((m.c.zip (List.range m.c.length)).map (fun p =>
      ((Key.str (L.sid p.1).toList : Key σ), (m.q.row p.2).scale (1 / msize E.a (wU E um un L p.1) u)))) := by
    unfold todict
    refine mapM_ok _ _ _ fun p hp => ?_
    have hp1 : p.1 ∈ m.c := (List.of_mem_zip hp).1
    rw [matterFactor_eq hW L p.1 (hm _ hp1) (some "kmol") units "kmol" u (Or.inl rfl) hu (kmol_unit E) hmu,
      msize_kmol, exbind_ok]
  have hlz : (m.c.zip (List.range m.c.length)).length = m.c.length := by simp
  obtain ⟨m', e, hc, hsh, hw', hv⟩ := C45_construct hW L ((m.c.zip (List.range m.c.length)).map (fun p =>
      ((Key.str (L.sid p.1).toList : Key σ), (m.q.row p.2).scale (1 / msize E.a (wU E um un L p.1) u))))
    units u hu hmu m.c (by
      rw [List.forall₂_map_left_iff]
      rw [List.forall₂_iff_get]
      refine ⟨hlz, fun i h1 h2 => ?_⟩
      simp only [List.get_eq_getElem, List.getElem_zip]
      have hs := hid _ (List.getElem_mem h2)
      simp only [Key.resolve, fullId, if_pos hs.1, String.ofList_toList, hs.2])
    hm m.shape hwf.rank (by
      intro p hp
      obtain ⟨x, _, rfl⟩ := List.mem_map.mp hp
      exact Or.inr (fits_refl _))
    (Or.inr (by
      obtain ⟨s, c, hsc⟩ := List.exists_cons_of_ne_nil hne
      refine ⟨_, List.mem_map.mpr ⟨(s, 0), ?_, rfl⟩, rfl⟩
      rw [hsc]
      simp [List.range_succ_eq_map]))
  refine ⟨_, m', hd, e, hc, hsh, hsh, fun s i hi => ?_⟩
  unfold amount
  rw [hc]
  refine Finset.sum_congr rfl fun r hr => ?_
  have hr' := Finset.mem_range.mp hr
  rw [hsh] at hi
  have hget : m.c[r]? = some m.c[r] := List.getElem?_eq_getElem hr'
  have hget2 : ((m.c.zip (List.range m.c.length)).map (fun p =>
      ((Key.str (L.sid p.1).toList : Key σ), (m.q.row p.2).scale (1 / msize E.a (wU E um un L p.1) u))))[r]? =
      some ((Key.str (L.sid m.c[r]).toList : Key σ), (m.q.row r).scale (1 / msize E.a (wU E um un L m.c[r]) u)) := by
    rw [List.getElem?_map, List.getElem?_eq_getElem (by rw [hlz]; exact hr')]
    simp
  have := hv r _ _ hget hget2 i
  rw [this]
  have hne' := msize_ne hW (wU_pos hW (hm _ (List.getElem_mem hr'))).ne' hmu
  have hval : ((m.q.row r).scale (1 / msize E.a (wU E um un L m.c[r]) u)).val
      (src ((m.q.row r).scale (1 / msize E.a (wU E um un L m.c[r]) u)).shape i) *
      msize E.a (wU E um un L m.c[r]) u = m.q.val (r :: i) := by
    have : src ((m.q.row r).scale (1 / msize E.a (wU E um un L m.c[r]) u)).shape i = i := src_within hi
    rw [this]
    show m.q.val (r :: i) * _ * _ = _
    field_simp
  rw [hval]

end units

/-! ## Disagreements -/

/-- **C45 disagreement.** The documented assignment to one element, `m['N2', 4] = x`, never
succeeds: after the index has been resolved the substance list is indexed with the whole tuple, a
`TypeError` (`igtools.py:978`; the example in the class documentation is `igtools.py:294-300`). -/
theorem C45_element_assignment_defect (E : Env) (L : Lib σ) (m : Mix σ) (i : Idx σ) (n : Nat)
    (hi : sindex L m i = some (.row n)) (rest : List Nat) (v : Arr)
    (hv : Compat m.shape v.atleast1.shape) (hwf : Wf m) :
    setItem E L m (.tup i rest) (.arr v) = .error .type := by
  unfold setItem
  simp only [sindex, hi, Option.map_some]
  unfold setTuple
  rw [broadcastShape_compat hv hwf.rank, exbind_ok]
  unfold reshapeTo
  split
  · have hhd : m.q.shape.headD 0 = m.c.length := by rw [hwf.rows]; rfl
    rw [hhd, bto_same (by rw [hwf.rows]; simp [joined_length hv])
      (by rw [hwf.rows]; simp [fits, fits_joined hv]), exbind_ok]
  · rw [exbind_ok]

/-- **C45 disagreement.** Nor does the documented assignment of a mixture to a position,
`m[:, 4] = {...}` (`igtools.py:957-963`): every row goes through the assignment above. -/
theorem C45_position_assignment_defect (E : Env) (L : Lib σ) (m b : Mix σ) (rest : List Nat)
    (hb : b.c ≠ []) (hsub : ∀ s ∈ b.c, s ∈ m.c) :
    ∃ e, setItem E L m (.tup .all rest) (.mix b) = .error e := by
  obtain ⟨s, ss, hbc⟩ := List.exists_cons_of_ne_nil hb
  have hs : s ∈ m.c := hsub s (by simp [hbc])
  unfold setItem
  simp only [sindex, Option.map_some, hbc]
  unfold setRows
  simp only [pure_bind, sindex, if_pos hs, Option.map_some]
  unfold setTuple
  cases broadcastShape (b.q.row 0).atleast1.shape m.shape with
  | error e => exact ⟨e, rfl⟩
  | ok sh =>
    rw [exbind_ok]
    cases reshapeTo m sh with
    | error e => exact ⟨e, rfl⟩
    | ok q => exact ⟨_, rfl⟩

/-- 1 kmol of substance 7. -/
noncomputable def mOne : Mix Nat := ⟨[7], ⟨[1, 1], fun _ => 1⟩⟩

/-- **C45 disagreement.** Assigning a mixture to a slice converts its amounts, already in kmol, a
second time: with `unit_matter` mol, `m[:] = m` reduces the mixture to a thousandth
(`igtools.py:963`). -/
theorem C45_slice_defect :
    amount mOne 7 [0] = 1 ∧
    ∃ m', setItem (mixEnv "kg" "kmol" "mol") lib2 mOne .all (.mix mOne) = .ok m' ∧
      amount m' 7 [0] = 1 / 1000 := by
  have hW := mixEnv_works (um := "kg") (un := "kmol") (uq := "mol") rfl rfl (Or.inr rfl)
  have hf : matterFactor (mixEnv "kg" "kmol" "mol") lib2 7 none (some "kmol") = .ok (1 / 1000) := by
    rw [matterFactor_eq hW lib2 7 (lib2_weighs mOne 7 (by simp [mOne])) none (some "kmol") "mol" "kmol"
      (Or.inr ⟨rfl, rfl⟩) (Or.inl rfl) (Or.inr rfl) (kmol_unit _), msize_kmol, div_one]
    have : msize (mixEnv "kg" "kmol" "mol").a (wU (mixEnv "kg" "kmol" "mol") "kg" "kmol" lib2 7) "mol"
      = (1e-3 : ℝ) := rfl
    rw [this]; norm_num
  constructor
  · simp [amount, mOne]
  · refine ⟨⟨[7], tab [1, 1] fun j i => if j = 0 then 1 * (1 / 1000) else 1⟩, ?_, ?_⟩
    · show setRows _ _ mOne.q none [7] 0 mOne = _
      have hm : (7 : Nat) ∈ mOne.c := by simp [mOne]
      have h0 : mOne.c.idxOf 7 = 0 := rfl
      simp only [setRows, pure_bind, sindex, if_pos hm, h0]
      simp only [setRow]
      have hb : broadcastShape (mOne.q.row 0).atleast1.shape mOne.shape = .ok [1] := rfl
      have hq : reshapeTo mOne [1] = .ok mOne.q := rfl
      have hc : mOne.c[0]? = some 7 := rfl
      rw [hb, exbind_ok, hq, exbind_ok]
      simp only [hc, hf, exbind_ok]
      rfl
    · simp [amount, tab]

/-- **C45 disagreement.** `insert` without units takes the quantity in kmol although reading and
every other operation use `unit_matter`: with `unit_matter` mol, inserting 2 and reading it back
gives 2000 (`igtools.py:1104-1106`). -/
theorem C45_insert_units_defect :
    ∃ m' A, insert (mixEnv "kg" "kmol" "mol") lib2 mOne (.subst 8) ⟨[], fun _ => 2⟩ none = .ok m' ∧
      getItem (mixEnv "kg" "kmol" "mol") lib2 m' (.obj 8) = .ok (.arr A) ∧ A.val [0] = 2000 := by
  have hW := mixEnv_works (um := "kg") (un := "kmol") (uq := "mol") rfl rfl (Or.inr rfl)
  have hf : matterFactor (mixEnv "kg" "kmol" "mol") lib2 8 (some "kmol") none = .ok 1000 := by
    rw [matterFactor_eq hW lib2 8 (by simp [lib2, ig, constData]) (some "kmol") none "kmol" "mol"
      (Or.inl rfl) (Or.inr ⟨rfl, rfl⟩) (kmol_unit _) (Or.inr rfl), msize_kmol]
    have : msize (mixEnv "kg" "kmol" "mol").a (wU (mixEnv "kg" "kmol" "mol") "kg" "kmol" lib2 8) "mol"
      = (1e-3 : ℝ) := rfl
    rw [this]; norm_num
  refine ⟨_, _, rfl, getItem_row hW lib2 _ (.obj 8) 1 8 rfl rfl (by simp [lib2, ig, constData]) _ hf, ?_⟩
  show (2 : ℝ) * 1000 = 2000
  norm_num

/-! ## A concrete case of the hypotheses -/

/-- Setting 1.5 kg of substance 8 in a mixture of two positions. -/
example : ∃ m' A, setItem (mixEnv "kg" "kmol" "kg") lib2 mB (.str "H2".toList) (.arr ⟨[], fun _ => 1.5⟩)
      = .ok m' ∧ getItem (mixEnv "kg" "kmol" "kg") lib2 m' (.str "H2".toList) = .ok (.arr A) ∧
      A.shape = [2] ∧ A.val [1] = 1.5 := by
  have hs : sindex lib2 mB (.str "H2".toList) = some (.row 0) := by
    have := (C45_same_row lib2 mB 8 (by simp [mB]) "H2".toList (by simp [lib2, fullId]) (by simp [mB])).1
    rw [this]; rfl
  obtain ⟨m', A, e1, e2, _, _, h3, h4, h5, _⟩ := C45_set_get
    (mixEnv_works (um := "kg") (un := "kmol") (uq := "kg") rfl rfl (Or.inl rfl)) lib2 mB mB_wf
    (.str "H2".toList) 0 8 hs rfl (by simp [lib2, ig, constData]) ⟨[], fun _ => 1.5⟩
    (.cons (Or.inr (Or.inr rfl)) .nil)
  exact ⟨m', A, e1, e2, by rw [h4, h3]; rfl, by rw [h5]; rfl⟩

end PyroMat.Igt.Props
