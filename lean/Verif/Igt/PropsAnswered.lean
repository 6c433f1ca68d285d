import Verif.Igt.PropsGiven
import Verif.Igt.PropsAccess

/-!
# C84: calls with temperature and pressure are answered
-/

set_option linter.unusedSectionVars false
set_option linter.unusedSimpArgs false

namespace PyroMat.Igt.Props

open PyroMat PyroMat.Gas PyroMat.Igt PyroMat.Igt.Spec PyroMat.Config.Defaults
open PyroMat.Units PyroMat.Units.Spec PyroMat.Units.Props PyroMat.Gas.Spec PyroMat.Gas.Props

open scoped BigOperators

variable {σ : Type} [DecidableEq σ]

/-- A shape that is a single value or stretches to `sh`. -/
def Near (s sh : List Nat) : Prop := s = [1] ∨ fits s sh = true

theorem fits_one {s : List Nat} (h : fits s [1] = true) : s = [1] := by
  cases s with
  | nil => simp [fits] at h
  | cons x xs =>
    simp only [fits, Bool.and_eq_true, Bool.or_eq_true, beq_iff_eq] at h
    cases xs with
    | nil => rcases h.1 with h | h <;> rw [h]
    | cons => simp [fits] at h

theorem FitsR.of_fits {s r : List Nat} (h : fits s r = true) : FitsR s r := by
  have := fits_length h
  exact ⟨by omega, by rw [this, Nat.sub_self, List.drop_zero]; exact h⟩

theorem Near.ne {s sh : List Nat} (h0 : sh ≠ []) (h : Near s sh) : s ≠ [] := by
  rcases h with rfl | h
  · simp
  · intro hs
    rw [hs] at h
    cases sh with
    | nil => exact h0 rfl
    | cons => simp [fits] at h

theorem joins {sh s a : List Nat} (h0 : sh ≠ []) (ha : Near a sh) (hs : Near s sh) :
    ∃ r, broadcastShape a s = .ok r ∧ Near r sh ∧ FitsR a r ∧ FitsR s r ∧
      (a = sh ∨ s = sh → r = sh) := by
  have hsl : s.length ≠ 0 := fun h => hs.ne h0 (List.length_eq_zero_iff.mp h)
  have hal : a.length ≠ 0 := fun h => ha.ne h0 (List.length_eq_zero_iff.mp h)
  have pad0 : ∀ {n : Nat} {l : List Nat}, n ≤ l.length → padR n l = l := by
    intro n l h; simp [padR, Nat.sub_eq_zero_of_le h]
  rcases ha with rfl | ha
  · refine ⟨s, ?_, hs, FitsR.one (hs.ne h0), FitsR.refl s, ?_⟩
    · unfold broadcastShape
      rw [if_neg (by simp), pad0 (by simp; omega), padR_one _ (by omega),
        joinDims_compat (compat_ones s), joined_ones]
    · rintro (h | h)
      · rcases hs with rfl | hs
        · exact h
        · rw [← h] at hs ⊢; exact fits_one hs
      · exact h
  · rcases hs with rfl | hs
    · refine ⟨a, ?_, Or.inr ha, FitsR.refl a, FitsR.one (Near.ne h0 (Or.inr ha)), ?_⟩
      · have hb : padR ([1] : List Nat).length a = a := pad0 (Nat.one_le_iff_ne_zero.mpr hal)
        unfold broadcastShape
        rw [if_neg (by simp), hb, padR_one _ (by omega),
          joinDims_compat (compat_symm (compat_ones a)), joined_comm (compat_symm (compat_ones a)),
          joined_ones]
      · rintro (h | h)
        · exact h
        · rw [← h] at ha ⊢; exact fits_one ha
    · have hc := compat_of_fits hs ha
      refine ⟨joined s a, broadcastShape_compat hc (Near.ne h0 (Or.inr hs)),
        Or.inr (fits_joined3 hs ha), ?_, FitsR.of_fits (fits_joined hc), ?_⟩
      · rw [joined_comm hc]; exact FitsR.of_fits (fits_joined (compat_symm hc))
      · rintro (h | h)
        · rw [h]; exact joined_absorb hs
        · rw [joined_comm hc, h]; exact joined_absorb ha

theorem bto_ok {a : NArr} {t : List Nat} (h : FitsR a.shape t) :
    a.bto t = .ok ⟨t, fun i => a.val (clip a.shape (i.drop (t.length - a.shape.length)))⟩ := by
  unfold NArr.bto; exact if_pos h

theorem jointM_ok {m : Mix σ} {a b : NArr} {sh : List Nat} (h0 : sh ≠ []) (ha : Near a.shape sh)
    (hb : Near b.shape sh) (hm : Near m.shape sh) :
    ∃ x y, jointM m a b = .ok (x, y) ∧ Near x.shape sh ∧ FitsR m.shape x.shape ∧
      (a.shape = sh ∨ b.shape = sh ∨ m.shape = sh → x.shape = sh) := by
  obtain ⟨r, h1, h2, h3, h4, h5⟩ := joins h0 ha hm
  obtain ⟨q, g1, g2, g3, g4, g5⟩ := joins h0 hb h2
  refine ⟨⟨q, fun i => a.val (clip a.shape (i.drop (q.length - a.shape.length)))⟩,
    ⟨q, fun i => b.val (clip b.shape (i.drop (q.length - b.shape.length)))⟩, ?_, g2, h4.trans g4, ?_⟩
  · unfold jointM
    rw [h1, exbind_ok, g1, exbind_ok, bto_ok (h3.trans g4), exbind_ok, bto_ok g3, exbind_ok]
  · rintro (h | h | h)
    · exact g5 (Or.inr (h5 (Or.inl h)))
    · exact g5 (Or.inl h)
    · exact g5 (Or.inr (h5 (Or.inr h)))

theorem mem_indices {s i : List Nat} : i ∈ indices s ↔ Within i s := by
  induction s generalizing i with
  | nil => simp [indices, Within]
  | cons n s ih =>
    simp only [indices, List.mem_flatMap, List.mem_range, List.mem_map, ih]
    constructor
    · rintro ⟨k, hk, j, hj, rfl⟩; exact .cons hk hj
    · intro h
      cases h with
      | cons h1 h2 => exact ⟨_, h1, _, h2, rfl⟩

theorem within_exists {s : List Nat} (h : ∀ n ∈ s, n ≠ 0) : ∃ i, Within i s := by
  induction s with
  | nil => exact ⟨[], .nil⟩
  | cons n s ih =>
    obtain ⟨i, hi⟩ := ih (fun n hn => h n (by simp [hn]))
    exact ⟨0 :: i, .cons (Nat.pos_of_ne_zero (h n (by simp))) hi⟩

theorem near_pos {s sh : List Nat} (h : Near s sh) (hp : ∀ n ∈ sh, n ≠ 0) : ∀ n ∈ s, n ≠ 0 := by
  rcases h with rfl | h
  · simp
  · induction s generalizing sh with
    | nil => simp
    | cons x s ih => cases sh with
      | nil => simp [fits] at h
      | cons y sh =>
        simp only [fits, Bool.and_eq_true, Bool.or_eq_true, beq_iff_eq] at h
        intro n hn
        rcases List.mem_cons.mp hn with rfl | hn
        · rcases h.1 with h1 | h1
          · omega
          · rw [h1]; exact hp _ (by simp)
        · exact ih (fun n hn => hp n (by simp [hn])) h.2 n hn

/-- Elements in range pass the range test. -/
theorem rangeM_ok {lo hi : ℝ} {st : MixState} (hne : ∀ n ∈ st.T.shape, n ≠ 0)
    (h : ∀ i, Within i st.T.shape → ∃ t, st.T.val i = some t ∧ lo ≤ t ∧ t ≤ hi) :
    rangeM lo hi st = .ok st := by
  have hf : ∀ i ∈ indices st.T.shape, oobM lo hi (st.T.val i) = false := by
    intro i hi'
    obtain ⟨t, h1, h2, h3⟩ := h i (mem_indices.mp hi')
    rw [h1]
    simp only [oobM, decide_eq_false_iff_not]
    push Not
    exact ⟨h2, h3⟩
  unfold rangeM
  rw [if_neg, if_neg]
  · simp only [List.any_eq_true, not_exists, not_and]
    intro i hi'
    rw [hf i hi']; simp
  · simp only [List.all_eq_true]
    intro hall
    obtain ⟨i, hi'⟩ := within_exists hne
    have := hall i (mem_indices.mpr hi')
    rw [hf i (mem_indices.mpr hi')] at this
    cases this

theorem within_rd {s r i : List Nat} (h : FitsR s r) (hi : Within i r) : Within (rd s i) s := by
  obtain ⟨h1, h2⟩ := h
  unfold rd
  have hl := within_length hi
  rw [hl]
  have hd : Within (i.drop (r.length - s.length)) (r.drop (r.length - s.length)) := by
    clear h2 hl h1
    generalize r.length - s.length = k
    induction k generalizing i r with
    | zero => exact hi
    | succ k ih => cases hi with
      | nil => exact .nil
      | cons _ h => exact ih h
  generalize i.drop (r.length - s.length) = i' at hd
  generalize r.drop (r.length - s.length) = r' at hd h2
  clear hl h1 hi
  induction s generalizing i' r' with
  | nil => cases hd <;> simp [fits, clip] at h2 ⊢; exact .nil
  | cons n s ih => cases hd with
    | nil => simp [fits] at h2
    | @cons a b l l' hab hd =>
      simp only [fits, Bool.and_eq_true, Bool.or_eq_true, beq_iff_eq] at h2
      have := ih _ _ hd h2.2
      simp only [clip] at this
      simp only [clip, List.zipWith_cons_cons]
      refine .cons ?_ this
      split
      · omega
      · rcases h2.1 with h | h
        · contradiction
        · rw [h]; exact hab

/-- A temperature within the limits of the mixture. -/
theorem in_hull {E : Env} {S : Sys} (hU : Uses E S) {L : Lib σ} {m : Mix σ} {lim : ℝ × ℝ}
    (hl : limsM E L m = .ok lim) (hne : m.c ≠ []) {x : ℝ}
    (h : ∃ s ∈ m.c, ∃ s' ∈ m.c, (L.gas s).Tlo ≤ x ∧ x ≤ (L.gas s').Thi) : lim.1 ≤ x ∧ x ≤ lim.2 := by
  obtain ⟨lo, hi, e, h1, -, -⟩ := lims_eq hU L m hne
  rw [e] at hl; cases hl
  obtain ⟨s, hs, s', hs', h2, h3⟩ := h
  exact ⟨(h1 s hs).1.trans h2, h3.trans (h1 s' hs').2⟩

theorem solveM_Tp_eq {L : Lib σ} {m : Mix σ} {lo hi : ℝ} {gd : Bool} {T p : NArr} {w : Bool} {d : Option NArr} :
    solveM L m lo hi gd ⟨some (T, w), some p, d, none⟩ = (jointM m T p).map (fun x =>
      ⟨x.1, some x.2, none, true, w⟩) := by
  unfold solveM
  dsimp only
  cases jointM m T p with
  | error e => rfl
  | ok x => rfl

theorem convertM_Tp {E : Env} {S : Sys} (hU : Uses E S) {L : Lib σ} {m : Mix σ} {lo hi : ℝ} (ta pa : Arr) :
    convertM E L m lo hi [("T", ta), ("p", pa)] = .ok
      ⟨some (⟨ta.atleast1.shape, fun i => some (toKelvin S.T.name (ta.atleast1.val i))⟩, false),
       some ⟨pa.atleast1.shape, fun i => some (pa.atleast1.val i * size (pressure E.a) S.p)⟩,
       none, none⟩ := by
  unfold convertM argM argE
  simp [List.lookup_cons, conv_ok (does_in_T hU), conv_ok (does_in_p hU), exbind_ok, Except.map, Arr.nan]

/-- The state of a call with temperature and pressure. -/
theorem argparseM_Tp {E : Env} {S : Sys} (hU : Uses E S) {L : Lib σ} {m : Mix σ} (hne : m.c ≠ [])
    {varg : List Arr} {kw : KwM} {ta pa : Arr} (hs : SuppliesM varg kw "T" ta "p" pa)
    {sh : List Nat} (h0 : sh ≠ []) (hp : ∀ n ∈ sh, n ≠ 0) (hT : Near ta.atleast1.shape sh)
    (hP : Near pa.atleast1.shape sh) (hm : Near m.shape sh)
    (hv : ∀ j, Within j ta.atleast1.shape → ∃ s ∈ m.c, ∃ s' ∈ m.c,
      (L.gas s).Tlo ≤ toKelvin S.T.name (ta.atleast1.val j) ∧
      toKelvin S.T.name (ta.atleast1.val j) ≤ (L.gas s').Thi) :
    ∃ T P, argparseM E L m varg kw = .ok ⟨T, some P, none, true, false⟩ ∧ T.shape = P.shape ∧
      Near T.shape sh ∧ FitsR m.shape T.shape ∧
      (ta.atleast1.shape = sh ∨ pa.atleast1.shape = sh ∨ m.shape = sh → T.shape = sh) := by
  obtain ⟨lo, hi, hl, -⟩ := lims_eq hU L m hne
  rw [argparseM_pair hs, hl, exbind_ok]
  unfold afterM
  rw [convertM_Tp hU, exbind_ok, solveM_Tp_eq]
  obtain ⟨x, y, h1, h2, h3, h4⟩ := jointM_ok (m := m)
    (a := ⟨ta.atleast1.shape, fun i => some (toKelvin S.T.name (ta.atleast1.val i))⟩)
    (b := ⟨pa.atleast1.shape, fun i => some (pa.atleast1.val i * size (pressure E.a) S.p)⟩) h0 hT hP hm
  obtain ⟨e1, e2, e3, e4⟩ := jointM_inv h1
  refine ⟨x, y, ?_, e1, h2, h3, h4⟩
  rw [h1]
  simp only [Except.map, exbind_ok]
  refine rangeM_ok (near_pos h2 hp) fun i hi => ?_
  have := (e4 i (within_length hi)).1
  dsimp only
  rw [this, get_rd]
  exact ⟨_, rfl, in_hull hU hl hne (hv _ (within_rd e2 hi))⟩

theorem fits_of_forall {s sh : List Nat} (h : List.Forall₂ (fun a n => a = 1 ∨ a = n) s sh) :
    fits s sh = true := by
  induction h with
  | nil => rfl
  | cons h _ ih => simp only [fits, ih, Bool.and_true, Bool.or_eq_true, beq_iff_eq]; exact h

theorem suits_near {a : Arr} {sh : List Nat} (h : Suits a.shape sh) : Near a.atleast1.shape sh := by
  unfold Arr.atleast1
  split
  · exact Or.inl rfl
  · rename_i hn
    rcases h with h | h | h
    · exact absurd h hn
    · exact Or.inl h
    · exact Or.inr (fits_of_forall h)

theorem atleast1_shape {a : Arr} {sh : List Nat} (h0 : sh ≠ []) (h : a.shape = sh) : a.atleast1.shape = sh := by
  unfold Arr.atleast1
  split
  · rename_i hn; rw [hn] at h; exact absurd h.symm h0
  · exact h

theorem inLimits_atleast1 {S : Sys} {L : Lib σ} {m : Mix σ} {ta : Arr} (h : InLimits S L m ta) :
    ∀ j, Within j ta.atleast1.shape → ∃ s ∈ m.c, ∃ s' ∈ m.c,
      (L.gas s).Tlo ≤ toKelvin S.T.name (ta.atleast1.val j) ∧
      toKelvin S.T.name (ta.atleast1.val j) ≤ (L.gas s').Thi := by
  intro j hj
  unfold Arr.atleast1 at hj ⊢
  split at hj
  · rename_i hn
    obtain ⟨⟨s, h1, h2⟩, s', h3, h4⟩ := h [] (by rw [hn]; exact .nil)
    exact ⟨s, h1, s', h3, h2, h4⟩
  · obtain ⟨⟨s, h1, h2⟩, s', h3, h4⟩ := h j hj
    exact ⟨s, h1, s', h3, h2, h4⟩

theorem propeval_ok {L : Lib σ} {m : Mix σ} (f : Gas → ℝ → Nan) {T : NArr} (h : FitsR m.shape T.shape) :
    ∃ X, propeval L m f T = .ok X ∧ X.shape = T.shape := by
  unfold propeval
  rw [h.np, exbind_ok]
  exact ⟨_, rfl, rfl⟩

theorem matterMix_out_ok {E : Env} {S : Sys} (hU : Uses E S) {L : Lib σ} {m : Mix σ}
    (hk : ∀ s ∈ m.c, L.cls s ≠ .igmix) (r : ℝ) (x : Option ℤ) :
    ∃ B, matterMix E L m ⟨[], fun _ => some r⟩ (some "kmol") none x = .ok B ∧
      (B.shape = m.shape ∨ B.shape = []) := by
  unfold matterMix
  simp only [mwKeys_ok hk, hU.m, exbind_ok, crosses_out hU]
  have hd : Does (fun v => matter E.a E.c.str v 1 (some "kmol") (some S.m) x false)
      (· * powS (1 / msize E.a 1 S.m) x) := by
    intro y
    rw [scalarOf_matter2 hU one_ne_zero (kmol_scale _ _) (msize_lookup hU _)]
  split
  · rw [(FitsR.nil m.shape).np, exbind_ok, hd 0, exbind_ok]
    exact ⟨_, rfl, Or.inl rfl⟩
  · rw [conv_ok hd]
    exact ⟨_, rfl, Or.inr rfl⟩

theorem npShapeRev_comm (s t : List Nat) : npShapeRev s t = npShapeRev t s := by
  induction s generalizing t with
  | nil => cases t <;> rfl
  | cons n s ih => cases t with
    | nil => rfl
    | cons m t =>
      simp only [npShapeRev, ih t]
      by_cases h1 : n = m
      · subst h1; rfl
      · by_cases h2 : n = 1
        · by_cases h3 : m = 1
          · exact absurd (h2.trans h3.symm) h1
          · simp [h1, h2, h3, Ne.symm h1, Ne.symm h3]
        · by_cases h3 : m = 1
          · simp [h1, h2, h3, Ne.symm h1, Ne.symm h2]
          · simp [h1, h2, h3, Ne.symm h1]

theorem npShape_comm (s t : List Nat) : npShape s t = npShape t s := by
  unfold npShape; rw [npShapeRev_comm]

theorem npShape_right {s r : List Nat} (h : FitsR s r) : npShape r s = .ok r := by
  have h1 : npShape s r = .ok r := h.np
  rw [npShape_comm]; exact h1

/-- **C84.** Calls with temperature and pressure are answered.  Let every argument and the mixture be
single values or arrays that suit one shape `sh`, and let the temperatures lie within the limits of
the mixture.  Then temperature, pressure, the heat capacities and their ratio, enthalpy and internal
energy are returned, all with the same shape: `sh` if one of the three has it. -/
theorem C84_answered (E : Env) (S : Sys) (hU : Uses E S) (L : Lib σ) (m : Mix σ) (hne : m.c ≠ [])
    (varg : List Arr) (kw : KwM) (ta pa : Arr) (hs : SuppliesM varg kw "T" ta "p" pa)
    (sh : List Nat) (h0 : sh ≠ []) (hp : ∀ n ∈ sh, n ≠ 0) (hT : Suits ta.shape sh)
    (hP : Suits pa.shape sh) (hm : Suits m.shape sh) (hmn : m.shape ≠ [])
    (hv : InLimits S L m ta) :
    ∃ r, (ta.shape = sh ∨ pa.shape = sh ∨ m.shape = sh → r = sh) ∧
      HasShape (iT E L m varg kw) r ∧ HasShape (iP E L m varg kw) r ∧
      HasShape (iCp E L m varg kw) r ∧ HasShape (iCv E L m varg kw) r ∧
      HasShape (iGam E L m varg kw) r ∧ HasShape (iH E L m varg kw) r ∧
      HasShape (iE E L m varg kw) r ∧
      ((∀ s ∈ m.c, L.cls s ≠ .igmix) → HasShape (iD E L m varg kw) r ∧ HasShape (iV E L m varg kw) r) ∧
      (r = m.shape → (∀ s ∈ m.c, L.cls s ≠ .other) → HasShape (iS E L m varg kw) r ∧
        HasShape (iG E L m varg kw) r ∧ HasShape (iF E L m varg kw) r) := by
  have hm' : Near m.shape sh := by
    rcases hm with h | h | h
    · exact absurd h hmn
    · exact Or.inl h
    · exact Or.inr (fits_of_forall h)
  obtain ⟨T, P, e1, e2, e3, e4, e5⟩ := argparseM_Tp hU hne hs h0 hp (suits_near hT) (suits_near hP)
    hm' (inLimits_atleast1 hv)
  have ev : ∀ f : Gas → ℝ → Nan, ∃ X, propeval L m f T = .ok X ∧ X.shape = T.shape :=
    fun f => propeval_ok f e4
  have hD : (∀ s ∈ m.c, L.cls s ≠ .igmix) → HasShape (iD E L m varg kw) T.shape := by
    intro hk
    obtain ⟨B, b1, b2⟩ := matterMix_out_ok hU hk 1 none
    have hB : FitsR B.shape T.shape := by
      rcases b2 with h | h
      · rw [h]; exact e4
      · rw [h]; exact FitsR.nil _
    unfold iD
    rw [e1, exbind_ok]
    unfold MixState.density NArr.zip
    dsimp only
    rw [← e2, npShape_self, exbind_ok, exbind_ok, b1, exbind_ok, conv_ok (does_out_v hU), exbind_ok]
    dsimp only
    rw [npShape_right hB, exbind_ok, exbind_ok, if_neg (by simp)]
    exact ⟨_, rfl, rfl⟩
  refine ⟨T.shape, fun h => e5 ?_, ?_, ?_, ?_, ?_, ?_, ?_, ?_, fun hk => ⟨hD hk, ?_⟩, fun hr hk => ?_⟩
  · exact h.imp (atleast1_shape h0) (Or.imp_left (atleast1_shape h0))
  · unfold iT
    rw [e1, exbind_ok, conv_ok (does_out_T hU)]
    exact ⟨_, rfl, rfl⟩
  · unfold iP
    rw [e1, exbind_ok]
    unfold MixState.pressure
    dsimp only
    rw [exbind_ok, conv_ok (does_out_p hU)]
    exact ⟨_, rfl, e2.symm⟩
  · obtain ⟨X, x1, x2⟩ := ev Gas.cp
    unfold iCp
    rw [e1, exbind_ok, x1, exbind_ok, outS_ok hU]
    exact ⟨_, rfl, x2⟩
  · obtain ⟨X, x1, x2⟩ := ev Gas.cp
    unfold iCv
    rw [e1, exbind_ok, x1, exbind_ok, outS_ok hU]
    exact ⟨_, rfl, x2⟩
  · obtain ⟨X, x1, x2⟩ := ev Gas.cp
    unfold iGam
    rw [e1, exbind_ok, x1, exbind_ok]
    exact ⟨_, rfl, x2⟩
  · obtain ⟨X, x1, x2⟩ := ev (fun G t => (G.h t).map (·.1))
    unfold iH
    rw [e1, exbind_ok, x1, exbind_ok, outE_ok hU]
    exact ⟨_, rfl, x2⟩
  · obtain ⟨X, x1, x2⟩ := ev (fun G t => (G.e t).map (·.1))
    unfold iE
    rw [e1, exbind_ok, x1, exbind_ok, outE_ok hU]
    exact ⟨_, rfl, x2⟩
  · obtain ⟨A, a1, a2⟩ := hD hk
    unfold iV
    rw [a1, exbind_ok]
    exact ⟨_, rfl, a2⟩
  · have hcl : classes L m = .ok () := by
      unfold classes
      rw [if_neg]; simpa using hk
    have hsp : ∃ Y, spMix L m P = .ok Y ∧ Y.shape = T.shape := by
      unfold spMix
      rw [hcl, exbind_ok, ← e2, hr, npShape_self, exbind_ok, if_neg (by simp), if_neg (by simp)]
      exact ⟨_, rfl, rfl⟩
    obtain ⟨Y, y1, y2⟩ := hsp
    have hpr : MixState.pressure ⟨T, some P, none, true, false⟩ = .ok P := rfl
    refine ⟨?_, ?_, ?_⟩
    · obtain ⟨X, x1, x2⟩ := ev (fun G t => (G.s t).map (·.1))
      obtain ⟨Z, z1, z2, -⟩ := zip_same (f := (· + ·)) x2 y2
      unfold iS
      rw [e1, exbind_ok, hpr, exbind_ok, x1, exbind_ok, y1, exbind_ok, z1, exbind_ok, outS_ok hU]
      exact ⟨_, rfl, z2⟩
    · obtain ⟨X, x1, x2⟩ := ev (fun G t => (G.g t).map (·.1))
      obtain ⟨W, w1, w2, -⟩ := zip_same (f := (· * ·)) (rfl : T.shape = T.shape) y2
      obtain ⟨Z, z1, z2, -⟩ := zip_same (f := (· - ·)) x2 w2
      unfold iG
      rw [e1, exbind_ok, hpr, exbind_ok, x1, exbind_ok, y1, exbind_ok]
      dsimp only
      rw [w1, exbind_ok, z1, exbind_ok, outE_ok hU]
      exact ⟨_, rfl, z2⟩
    · obtain ⟨X, x1, x2⟩ := ev (fun G t => (G.f t).map (·.1))
      obtain ⟨W, w1, w2, -⟩ := zip_same (f := (· * ·)) (rfl : T.shape = T.shape) y2
      obtain ⟨Z, z1, z2, -⟩ := zip_same (f := (· - ·)) x2 w2
      unfold iF
      rw [e1, exbind_ok, hpr, exbind_ok, x1, exbind_ok, y1, exbind_ok]
      dsimp only
      rw [w1, exbind_ok, z1, exbind_ok, outE_ok hU]
      exact ⟨_, rfl, z2⟩

/-- **C81 disagreement.** A mixture with one amount per substance, asked for entropy, Gibbs or
Helmholtz energy at two or more temperatures at once, always raises `IndexError` (the mask of empty
amounts has the shape of the mixture, `igtools.py:905-909`), although enthalpy, internal energy and
heat capacity are answered (`C84_answered`). -/
theorem C81_shape_defect (E : Env) (S : Sys) (hU : Uses E S) (L : Lib σ) (m : Mix σ) (hne : m.c ≠ [])
    (hcl : ∀ s ∈ m.c, L.cls s ≠ .other) (h1 : m.shape = [1]) (varg : List Arr) (kw : KwM) (ta pa : Arr)
    (hs : SuppliesM varg kw "T" ta "p" pa) (n : Nat) (hn : 2 ≤ n) (hT : ta.shape = [n])
    (hP : pa.shape = [] ∨ pa.shape = [n]) (hv : InLimits S L m ta) :
    HasShape (iH E L m varg kw) [n] ∧ iS E L m varg kw = .error .index ∧
      iG E L m varg kw = .error .index ∧ iF E L m varg kw = .error .index := by
  have sT : Suits ta.shape [n] := Or.inr (Or.inr (by rw [hT]; exact .cons (Or.inr rfl) .nil))
  have sP : Suits pa.shape [n] := by
    rcases hP with h | h
    · exact Or.inl h
    · exact Or.inr (Or.inr (by rw [h]; exact .cons (Or.inr rfl) .nil))
  have hpos : ∀ k ∈ [n], k ≠ 0 := by simp; omega
  obtain ⟨T, P, e1, e2, e3, e4, e5⟩ := argparseM_Tp hU hne hs (sh := [n]) (by simp) hpos (suits_near sT)
    (suits_near sP) (Or.inl h1) (inLimits_atleast1 hv)
  have hTn : T.shape = [n] := e5 (Or.inl (atleast1_shape (by simp) hT))
  have hcl' : classes L m = .ok () := by
    unfold classes
    rw [if_neg]; simpa using hcl
  have hsp : spMix L m P = .error .index := by
    unfold spMix
    have : npShape P.shape m.shape = .ok [n] := by
      rw [← e2, hTn, h1]
      exact npShape_right (FitsR.one (by simp))
    rw [hcl', exbind_ok, this, exbind_ok, h1, if_pos]
    simp; omega
  have hpr : MixState.pressure ⟨T, some P, none, true, false⟩ = .ok P := rfl
  refine ⟨?_, ?_, ?_, ?_⟩
  · obtain ⟨X, x1, x2⟩ := propeval_ok (L := L) (fun G t => (G.h t).map (·.1)) e4
    unfold iH
    rw [e1, exbind_ok, x1, exbind_ok, outE_ok hU]
    exact ⟨_, rfl, x2.trans hTn⟩
  · obtain ⟨X, x1, x2⟩ := propeval_ok (L := L) (fun G t => (G.s t).map (·.1)) e4
    unfold iS
    rw [e1, exbind_ok, hpr, exbind_ok, x1, exbind_ok, hsp, exbind_err]
  · obtain ⟨X, x1, x2⟩ := propeval_ok (L := L) (fun G t => (G.g t).map (·.1)) e4
    unfold iG
    rw [e1, exbind_ok, hpr, exbind_ok, x1, exbind_ok, hsp, exbind_err]
  · obtain ⟨X, x1, x2⟩ := propeval_ok (L := L) (fun G t => (G.f t).map (·.1)) e4
    unfold iF
    rw [e1, exbind_ok, hpr, exbind_ok, x1, exbind_ok, hsp, exbind_err]

/-! ## With numbers -/

section
variable {E : Env} {S : Sys} (hU : Uses E S) {L : Lib σ} {m : Mix σ} {varg : List Arr} {kw : KwM}
include hU

theorem shows_of {A : NArr} {r : Except Err NArr} (h : r = .ok A) {i : List Nat} (hi : Within i A.shape)
    {x : ℝ} (hx : A.val i = some x) : Shows r i x :=
  ⟨A, h, by
    have := get_same hi
    unfold NArr.get at this
    rw [clip_eq_src] at this
    rw [this, hx]⟩

theorem number_of {f : Gas → ℝ → Nan} {out : NArr → Except Err NArr} {k : ℝ}
    (hout : ∀ a : NArr, out a = .ok ⟨a.shape, fun i => (a.val i).map (· * k)⟩)
    {r : Except Err NArr}
    (hr : r = (do
      let st ← argparseM E L m varg kw
      let x ← propeval L m f st.T
      out x)) {i sh : List Nat} (hs : HasShape r sh) (hi : Within i sh) {t : ℝ}
    (ht : Shows (iT E L m varg kw) i t)
    (hg : ∀ s ∈ m.c, ∃ g, f (L.gas s) (toKelvin S.T.name t) = some g) :
    Position r i ∧ ∃ x, Shows r i x := by
  obtain ⟨A, h1, h2⟩ := hs
  subst h2
  refine ⟨⟨A, h1, hi⟩, ?_⟩
  have h1' := h1
  obtain ⟨st, h4, h5⟩ := shows_T hU ht
  rw [hr, h4, exbind_ok] at h1'
  unfold propeval at h1'
  obtain ⟨X, hX, h1'⟩ := exbind_inv h1'
  obtain ⟨q, -, hX⟩ := exbind_inv hX
  cases hX
  rw [hout] at h1'
  cases h1'
  choose! g hg using hg
  refine ⟨weigh g m (place m i) * k, shows_of hU h1 hi ?_⟩
  dsimp only
  rw [h5, Option.bind_some, mixSum_weigh hg]
  rfl

end

/-- **C81.** Answers with numbers.  For a call with temperature and pressure (see `C84_answered` for
the shapes), wherever the temperature `t` given for a position is valid for every constituent, the
mixture reports the temperature and pressure given there, and its enthalpy, internal energy and heat
capacity are the sums over the constituents of amount times the constituent's own value. -/
theorem C81_answers (E : Env) (S : Sys) (hU : Uses E S) (L : Lib σ) (m : Mix σ) (hW : Weighs L m)
    (hne : m.c ≠ []) (varg : List Arr) (kw : KwM) (ta pa : Arr)
    (hs : SuppliesM varg kw "T" ta "p" pa) (sh : List Nat) (h0 : sh ≠ []) (hp : ∀ n ∈ sh, n ≠ 0)
    (hT : Suits ta.shape sh) (hP : Suits pa.shape sh) (hm : Suits m.shape sh) (hmn : m.shape ≠ [])
    (hsh : ta.shape = sh ∨ pa.shape = sh ∨ m.shape = sh) (hv : InLimits S L m ta)
    (i : List Nat) (hi : Within i sh) (hva : ValidAt S L m (entry ta i)) :
    Shows (iT E L m varg kw) i (entry ta i) ∧ Shows (iP E L m varg kw) i (entry pa i) ∧
    (∀ y : σ → ℝ, (∀ s ∈ m.c, mH E (L.gas s) [.scalar (entry ta i), .scalar (entry pa i)] [] =
        .ok [some (y s)]) →
      Shows (iH E L m varg kw) i (∑ s ∈ m.c.toFinset, holds E S L m s i * y s)) ∧
    (∀ y : σ → ℝ, (∀ s ∈ m.c, mE E (L.gas s) [.scalar (entry ta i), .scalar (entry pa i)] [] =
        .ok [some (y s)]) →
      Shows (iE E L m varg kw) i (∑ s ∈ m.c.toFinset, holds E S L m s i * y s)) ∧
    (∀ y : σ → ℝ, (∀ s ∈ m.c, mCp E (L.gas s) [.scalar (entry ta i), .scalar (entry pa i)] [] =
        .ok [some (y s)]) →
      Shows (iCp E L m varg kw) i (∑ s ∈ m.c.toFinset, holds E S L m s i * y s)) := by
  obtain ⟨r, hr, ⟨AT, aT, sT⟩, ⟨AP, aP, sP⟩, hCp, -, -, hH, hE, -⟩ :=
    C84_answered E S hU L m hne varg kw ta pa hs sh h0 hp hT hP hm hmn hv
  obtain rfl := hr hsh
  have ht : Shows (iT E L m varg kw) i (entry ta i) := shows_of hU aT (by rw [sT]; exact hi)
    (C83_given_temperature E S hU L m varg kw ta "p" pa hs AT aT i (by rw [sT]; exact hi))
  have hpp : Shows (iP E L m varg kw) i (entry pa i) := shows_of hU aP (by rw [sP]; exact hi)
    (C83_given_pressure E S hU L m varg kw pa "T" ta (suppliesM_symm hs) AP aP i
      (by rw [sP]; exact hi))
  refine ⟨ht, hpp, fun y hy => ?_, fun y hy => ?_, fun y hy => ?_⟩
  · have hg : ∀ s ∈ m.c, ∃ g, ((L.gas s).h (toKelvin S.T.name (entry ta i))).map (·.1) = some g := by
      intro s hs
      have := own_value hU (hW s hs) (hva s hs).1 (hva s hs).2 (q := .h) (hy s hs)
      simp only [value, Gas.hI, Option.bind_some] at this
      cases hh : ((L.gas s).h (toKelvin S.T.name (entry ta i))).map (·.1) with
      | none => rw [hh] at this; cases this
      | some z => exact ⟨z, rfl⟩
    obtain ⟨q, x, hx⟩ := number_of hU (r := iH E L m varg kw) (f := fun G t => (G.h t).map (fun r => r.1)) (outE_ok hU) rfl hH hi ht hg
    have := C81_enthalpy E S hU L m hW varg kw i x _ _ y q hx ht hva hy
    rw [← this]; exact hx
  · have hg : ∀ s ∈ m.c, ∃ g, ((L.gas s).e (toKelvin S.T.name (entry ta i))).map (·.1) = some g := by
      intro s hs
      have := own_value hU (hW s hs) (hva s hs).1 (hva s hs).2 (q := .e) (hy s hs)
      simp only [value, Gas.eI, Option.bind_some] at this
      unfold Gas.e
      cases hh : (L.gas s).h (toKelvin S.T.name (entry ta i)) with
      | none => rw [hh] at this; cases this
      | some z => exact ⟨_, rfl⟩
    obtain ⟨q, x, hx⟩ := number_of hU (r := iE E L m varg kw) (f := fun G t => (G.e t).map (fun r => r.1)) (outE_ok hU) rfl hE hi ht hg
    have := C81_energy E S hU L m hW varg kw i x _ _ y q hx ht hva hy
    rw [← this]; exact hx
  · have hg : ∀ s ∈ m.c, ∃ g, (L.gas s).cp (toKelvin S.T.name (entry ta i)) = some g := by
      intro s hs
      have := own_value hU (hW s hs) (hva s hs).1 (hva s hs).2 (q := .cp) (hy s hs)
      simp only [value, Gas.cpI, Option.bind_some] at this
      cases hh : (L.gas s).cp (toKelvin S.T.name (entry ta i)) with
      | none => rw [hh] at this; cases this
      | some z => exact ⟨z, rfl⟩
    have hout : ∀ a : NArr, outS E a = .ok ⟨a.shape, fun i => (a.val i).map
        (· * (1000 / size energy S.e * (size temperature S.T.name / 1.8)))⟩ := by
      intro a
      rw [outS_ok hU]
      simp only [mul_assoc]
    obtain ⟨q, x, hx⟩ := number_of hU (r := iCp E L m varg kw) (f := Gas.cp) hout rfl hCp hi ht hg
    have := C81_heat_capacity E S hU L m hW varg kw i x _ _ y q hx ht hva hy
    rw [← this]; exact hx

/-- A result of `s`, `g` or `f` is a number where the constituents' functions are. -/
theorem number_sum {L : Lib σ} {m : Mix σ} (hn : m.c.Nodup) {f : Gas → ℝ → Nan} {T P X Y : NArr}
    {i : List Nat} (hi : Within i m.shape) (hT : T.shape = m.shape) (hP : P.shape = m.shape) {t p : ℝ}
    (ht : T.val i = some t) (hp : P.val i = some p) (hX : propeval L m f T = .ok X)
    (hY : spMix L m P = .ok Y) (hg : ∀ s ∈ m.c, ∃ g, f (L.gas s) t = some g) :
    X.shape = m.shape ∧ Y.shape = m.shape ∧ (∃ x, X.val i = some x) ∧ ∃ y, Y.val i = some y := by
  obtain ⟨x1, x2⟩ := propeval_same hX hT hi ht
  obtain ⟨y1, y2⟩ := spMix_val hn hY hP hi hp
  choose! g hg using hg
  refine ⟨x1, y1, ?_, _, y2⟩
  rw [x2, mixSum_weigh hg]
  exact ⟨_, rfl⟩

/-- **C81, partial.** Answers with numbers.  For a call with temperature and pressure in which the
result has the shape of the mixture, entropy, Gibbs and Helmholtz energy are reported wherever the
temperature is valid for every constituent; their values are then those of `C81_entropy_partial`,
`C81_gibbs_partial` and `C81_helmholtz_partial`. -/
theorem C81_answers_entropy_partial (E : Env) (S : Sys) (hU : Uses E S) (L : Lib σ) (m : Mix σ)
    (hW : Weighs L m) (hn : m.c.Nodup) (hne : m.c ≠ []) (hmn : m.shape ≠ [])
    (hcl : ∀ s ∈ m.c, L.cls s ≠ .other) (varg : List Arr) (kw : KwM) (ta pa : Arr)
    (hs : SuppliesM varg kw "T" ta "p" pa) (hpos : ∀ n ∈ m.shape, n ≠ 0)
    (hT : Suits ta.shape m.shape) (hP : Suits pa.shape m.shape) (hv : InLimits S L m ta)
    (i : List Nat) (hi : Within i m.shape) (hva : ValidAt S L m (entry ta i))
    (hy : ∀ s ∈ m.c, ∃ y, mS E (L.gas s) [.scalar (entry ta i), .scalar (entry pa i)] [] =
      .ok [some y])
    (hz : ∀ s ∈ m.c, ∃ y, mG E (L.gas s) [.scalar (entry ta i), .scalar (entry pa i)] [] =
      .ok [some y]) :
    HasShape (iT E L m varg kw) m.shape ∧ HasShape (iP E L m varg kw) m.shape ∧
    Shows (iT E L m varg kw) i (entry ta i) ∧ Shows (iP E L m varg kw) i (entry pa i) ∧
    (∃ x, Shows (iS E L m varg kw) i x) ∧ (∃ x, Shows (iG E L m varg kw) i x) ∧
    ∃ x, Shows (iF E L m varg kw) i x := by
  have hm : Suits m.shape m.shape := by
    refine Or.inr (Or.inr ?_)
    rw [List.forall₂_same]
    exact fun x _ => Or.inr rfl
  obtain ⟨r, hr, hsT, hsP, -, -, -, -, -, -, hS⟩ :=
    C84_answered E S hU L m hne varg kw ta pa hs m.shape hmn hpos hT hP hm hmn hv
  obtain rfl := hr (Or.inr (Or.inr rfl))
  obtain ⟨⟨A, a1, a2⟩, ⟨B, b1, b2⟩, ⟨C, c1, c2⟩⟩ := hS rfl hcl
  obtain ⟨AT, aT, sT⟩ := hsT
  obtain ⟨AP, aP, sP⟩ := hsP
  have ht : Shows (iT E L m varg kw) i (entry ta i) := shows_of hU aT (by rw [sT]; exact hi)
    (C83_given_temperature E S hU L m varg kw ta "p" pa hs AT aT i (by rw [sT]; exact hi))
  have hpp : Shows (iP E L m varg kw) i (entry pa i) := shows_of hU aP (by rw [sP]; exact hi)
    (C83_given_pressure E S hU L m varg kw pa "T" ta (suppliesM_symm hs) AP aP i
      (by rw [sP]; exact hi))
  obtain ⟨st, k1, k2, k3⟩ := shows_T' hU ht ⟨AT, aT, sT⟩ hi
  obtain ⟨st', P, l1, l2, l3, l4⟩ := shows_P hU hpp ⟨AP, aP, sP⟩ hi
  rw [k1] at l1; cases l1
  have gs : ∀ s ∈ m.c, ∃ g, (L.gas s).s (toKelvin S.T.name (entry ta i)) = some g := by
    intro s hs
    obtain ⟨y, hy⟩ := hy s hs
    have := own_value hU (hW s hs) (hva s hs).1 (hva s hs).2 (q := .s) hy
    simp only [value, Gas.sI, Option.bind_some] at this
    cases hh : (L.gas s).s (toKelvin S.T.name (entry ta i)) with
    | none => rw [hh] at this; cases this
    | some z => exact ⟨z, rfl⟩
  have gh : ∀ s ∈ m.c, ∃ g, (L.gas s).g (toKelvin S.T.name (entry ta i)) = some g := by
    intro s hs
    obtain ⟨y, hy⟩ := hz s hs
    have := own_value hU (hW s hs) (hva s hs).1 (hva s hs).2 (q := .g) hy
    simp only [value, Gas.gI, Option.bind_some] at this
    cases hh : (L.gas s).g (toKelvin S.T.name (entry ta i)) with
    | none => rw [hh] at this; cases this
    | some z => exact ⟨z, rfl⟩
  refine ⟨⟨AT, aT, sT⟩, ⟨AP, aP, sP⟩, ht, hpp, ?_, ?_, ?_⟩
  · have a1' := a1
    unfold iS at a1'
    rw [k1, exbind_ok, l2, exbind_ok] at a1'
    obtain ⟨X, hX, a1'⟩ := exbind_inv a1'
    obtain ⟨Y, hY, a1'⟩ := exbind_inv a1'
    obtain ⟨e1, e2, ⟨x, e3⟩, y, e4⟩ := number_sum hn hi k2 l3 k3 l4 hX hY (by
      intro s hs; obtain ⟨g, hg⟩ := gs s hs; exact ⟨g.1, by rw [hg]; rfl⟩)
    obtain ⟨Z, z1, z2, z3⟩ := zip_same (f := (· + ·)) e1 e2
    rw [z1, exbind_ok, outS_ok hU] at a1'
    cases a1'
    refine ⟨(x + y) * (1000 / size energy S.e) * (size temperature S.T.name / 1.8),
      shows_of hU a1 (by rw [a2]; exact hi) ?_⟩
    dsimp only
    rw [z3 i hi, e3, e4]; rfl
  · have a1' := b1
    unfold iG at a1'
    rw [k1, exbind_ok, l2, exbind_ok] at a1'
    obtain ⟨X, hX, a1'⟩ := exbind_inv a1'
    obtain ⟨Y, hY, a1'⟩ := exbind_inv a1'
    obtain ⟨e1, e2, ⟨x, e3⟩, y, e4⟩ := number_sum hn hi k2 l3 k3 l4 hX hY (by
      intro s hs; obtain ⟨g, hg⟩ := gh s hs; exact ⟨g.1, by rw [hg]; rfl⟩)
    obtain ⟨W, w1, w2, w3⟩ := zip_same (f := (· * ·)) k2 e2
    obtain ⟨Z, z1, z2, z3⟩ := zip_same (f := (· - ·)) e1 w2
    rw [w1, exbind_ok, z1, exbind_ok, outE_ok hU] at a1'
    cases a1'
    refine ⟨(x - toKelvin S.T.name (entry ta i) * y) * (1000 / size energy S.e),
      shows_of hU b1 (by rw [b2]; exact hi) ?_⟩
    dsimp only
    rw [z3 i hi, w3 i hi, e3, e4, k3]; rfl
  · have a1' := c1
    unfold iF at a1'
    rw [k1, exbind_ok, l2, exbind_ok] at a1'
    obtain ⟨X, hX, a1'⟩ := exbind_inv a1'
    obtain ⟨Y, hY, a1'⟩ := exbind_inv a1'
    obtain ⟨e1, e2, ⟨x, e3⟩, y, e4⟩ := number_sum hn hi k2 l3 k3 l4 hX hY (by
      intro s hs
      obtain ⟨g, hg⟩ := gh s hs
      unfold Gas.f
      rw [hg]; exact ⟨_, rfl⟩)
    obtain ⟨W, w1, w2, w3⟩ := zip_same (f := (· * ·)) k2 e2
    obtain ⟨Z, z1, z2, z3⟩ := zip_same (f := (· - ·)) e1 w2
    rw [w1, exbind_ok, z1, exbind_ok, outE_ok hU] at a1'
    cases a1'
    refine ⟨(x - toKelvin S.T.name (entry ta i) * y) * (1000 / size energy S.e),
      shows_of hU c1 (by rw [c2]; exact hi) ?_⟩
    dsimp only
    rw [z3 i hi, w3 i hi, e3, e4, k3]; rfl

end PyroMat.Igt.Props
