import Verif.Igt.SpecStatic
import Verif.Igt.PropsReturns
import Verif.Igt.PropsAccess
import Verif.Gas.PropsMixMore

/-!
# C85: dynamic mixtures as static mixtures and back
-/

set_option linter.unusedSectionVars false
set_option linter.unusedSimpArgs false

namespace PyroMat.Igt.Props

open PyroMat PyroMat.Gas PyroMat.Igt PyroMat.Igt.Spec
open PyroMat.Units PyroMat.Units.Spec PyroMat.Units.Props PyroMat.Gas.Spec PyroMat.Gas.Props
open scoped BigOperators

variable {σ : Type} [DecidableEq σ]

/-! ## Positions and their numbers -/

theorem flatMap_get {α β : Type} (f : α → List β) (p : Nat) (hp : ∀ a, (f a).length = p) (l : List α)
    (k r : Nat) (hr : r < p) : (l.flatMap f)[k * p + r]? = (l[k]?).bind (fun a => (f a)[r]?) := by
  induction l generalizing k with
  | nil => simp
  | cons a l ih =>
    rw [List.flatMap_cons]
    cases k with
    | zero =>
      rw [List.getElem?_append_left (by rw [hp]; omega)]
      simp
    | succ k =>
      have e : (k + 1) * p + r = p + (k * p + r) := by ring
      rw [e, List.getElem?_append_right (by rw [hp]; omega), hp, Nat.add_sub_cancel_left, ih]
      rfl

theorem indices_length (s : List Nat) : (indices s).length = s.prod := by
  induction s with
  | nil => rfl
  | cons n s ih => simp [indices, List.length_flatMap, ih]

theorem number_lt {s i : List Nat} (h : Within i s) : number s i < s.prod := by
  induction h with
  | nil => simp [number]
  | @cons k n i s hk _ ih =>
    simp only [number, List.prod_cons]
    calc k * s.prod + number s i < k * s.prod + s.prod := by omega
      _ = (k + 1) * s.prod := by ring
      _ ≤ n * s.prod := Nat.mul_le_mul_right _ hk

theorem indices_get {s i : List Nat} (h : Within i s) : (indices s)[number s i]? = some i := by
  induction h with
  | nil => rfl
  | @cons k n i s hk hi ih =>
    simp only [indices, number]
    rw [flatMap_get _ s.prod (fun a => by rw [List.length_map, indices_length]) _ _ _ (number_lt hi)]
    rw [List.getElem?_range hk, Option.bind_some, List.getElem?_map, ih]
    rfl

/-! ## The instances -/

theorem staticLoop_length (L : Lib σ) (m : Mix σ) (sid : String) (b : Bool) (l : List (List Nat)) (c : Nat) :
    (staticLoop L m sid b l c).length = l.length := by
  induction l generalizing c with
  | nil => rfl
  | cons i l ih => simp [staticLoop, ih]

theorem staticLoop_get (L : Lib σ) (m : Mix σ) (sid : String) (b : Bool) (l : List (List Nat)) (c k : Nat) :
    (staticLoop L m sid b l c)[k]? =
      (l[k]?).map (fun i => (staticName sid b (c + k), ⟨contentsAt L m i, false⟩)) := by
  induction l generalizing c k with
  | nil => simp [staticLoop]
  | cons i l ih =>
    cases k with
    | zero => simp [staticLoop]
    | succ k => simp only [staticLoop, List.getElem?_cons_succ, ih]; congr; funext i; rw [Nat.add_right_comm, Nat.add_assoc]

theorem put_all (l : List (String × ℝ)) (d : List (String × ℝ)) (h : ((d ++ l).map (·.1)).Nodup) :
    l.foldl (fun d r => putName d r.1 r.2) d = d ++ l := by
  induction l generalizing d with
  | nil => simp
  | cons q l ih =>
    rw [List.foldl_cons]
    have hq : d.any (fun p => p.1 == q.1) = false := by
      rw [List.any_eq_false]
      intro p hp
      simp only [beq_iff_eq]
      intro e
      rw [List.map_append, List.nodup_append] at h
      exact h.2.2 p.1 (List.mem_map_of_mem hp) q.1 (by simp) e
    have e : putName d q.1 q.2 = d ++ [q] := by
      unfold putName; rw [hq]; simp
    rw [e, ih _ (by simpa using h)]
    simp

/-- The constituents at a position as constituents of a static mixture. -/
noncomputable def compsAt (L : Lib σ) (m : Mix σ) (i : List Nat) : List Comp :=
  m.c.map (fun s => ⟨L.sid s, amount m s i, L.gas s⟩)

theorem rowsAt_amounts {m : Mix σ} (hn : m.c.Nodup) (i : List Nat) :
    rowsAt m i = m.c.map (fun s => (s, amount m s i)) := by
  unfold rowsAt
  apply List.ext_getElem
  · simp
  · intro k h1 h2
    have hk : k < m.c.length := by simpa using h2
    simp only [List.getElem_map, List.getElem_zip, List.getElem_range]
    rw [amount_row hn hk]

theorem sids_nodup {L : Lib σ} {coll : Gas.Mix.Coll} {m : Mix σ} (hC : Collected L coll m) :
    (m.c.map L.sid).Nodup := by
  refine List.Nodup.map_on (fun s hs t ht e => ?_) hC.once
  have h1 := hC.find s hs
  have h2 := hC.find t ht
  rw [e, h2] at h1
  exact (Option.some.inj h1).symm

theorem contentsAt_eq {L : Lib σ} {coll : Gas.Mix.Coll} {m : Mix σ} (hC : Collected L coll m)
    (i : List Nat) : contentsAt L m i = (compsAt L m i).map (fun c => (c.name, c.qty)) := by
  unfold contentsAt
  rw [rowsAt_amounts hC.once, List.foldl_map]
  have := put_all (m.c.map (fun s => (L.sid s, amount m s i))) [] (by
    simp only [List.nil_append, List.map_map]; exact sids_nodup hC)
  rw [List.foldl_map] at this
  rw [this]
  simp [compsAt, Function.comp_def]

theorem listed_at {L : Lib σ} {coll : Gas.Mix.Coll} {m : Mix σ} (hC : Collected L coll m)
    (hW : Weighs L m) (i : List Nat) (hq : ∀ s ∈ m.c, 0 ≤ amount m s i)
    (hp : ∃ s ∈ m.c, 0 < amount m s i) :
    Listed coll ⟨contentsAt L m i, false⟩ (compsAt L m i) where
  listed := contentsAt_eq hC i
  found := by
    intro c hc
    obtain ⟨s, hs, rfl⟩ := List.mem_map.mp hc
    exact hC.gas s hs
  qty := by
    intro c hc
    obtain ⟨s, hs, rfl⟩ := List.mem_map.mp hc
    exact hq s hs
  positive := by
    obtain ⟨s, hs, h⟩ := hp
    exact ⟨_, List.mem_map_of_mem hs, h⟩
  mw := by
    intro c hc
    obtain ⟨s, hs, rfl⟩ := List.mem_map.mp hc
    exact hW s hs

theorem sound_at {L : Lib σ} {coll : Gas.Mix.Coll} {m : Mix σ} (hC : Collected L coll m)
    (hW : Weighs L m) (hpr : ∀ s ∈ m.c, 0 < (L.gas s).pref) (hne : m.c ≠ []) (i : List Nat)
    (hq : ∀ s ∈ m.c, 0 < amount m s i) :
    Sound coll ⟨contentsAt L m i, false⟩ (compsAt L m i) where
  listed := contentsAt_eq hC i
  distinct := by simpa [compsAt, Function.comp_def] using sids_nodup hC
  nonempty := by simpa [compsAt] using hne
  found := by
    intro c hc
    obtain ⟨s, hs, rfl⟩ := List.mem_map.mp hc
    exact hC.gas s hs
  qty := by
    intro c hc
    obtain ⟨s, hs, rfl⟩ := List.mem_map.mp hc
    exact hq s hs
  mw := by
    intro c hc
    obtain ⟨s, hs, rfl⟩ := List.mem_map.mp hc
    exact hW s hs
  pref := by
    intro c hc
    obtain ⟨s, hs, rfl⟩ := List.mem_map.mp hc
    exact hpr s hs

theorem comps_sum {L : Lib σ} {m : Mix σ} (hn : m.c.Nodup) (i : List Nat) (f : Comp → ℝ) :
    ((compsAt L m i).map f).sum = ∑ s ∈ m.c.toFinset, f ⟨L.sid s, amount m s i, L.gas s⟩ := by
  unfold compsAt
  rw [List.map_map, List.sum_toFinset _ hn]
  rfl

/-! ## Names, numbers and composition -/

theorem toString_inj {a b : Nat} (h : toString a = toString b) : a = b := by
  have h1 : (toString a).toList = (toString b).toList := by rw [h]
  simp only [Nat.toString_eq_repr, Nat.toList_repr] at h1
  rw [← Nat.ofDigitChars_ten_toDigits (n := a), h1, Nat.ofDigitChars_ten_toDigits]

/-- **C85.** `toigmix(sid)` returns one static mixture for every position, in storage order; with a
single position it is named `sid`, otherwise the one with number `k` is named `sid_k`; all names
differ. -/
theorem C85_instances (L : Lib σ) (m : Mix σ) (hr : m.shape ≠ []) (sid : String) :
    ∃ l, toigmix L m sid = .ok l ∧ l.length = m.shape.prod ∧ (l.map (·.1)).Nodup ∧
      (m.shape.prod = 1 → l.map (·.1) = [sid]) ∧
      (1 < m.shape.prod → ∀ k < m.shape.prod,
        (l.map (·.1))[k]? = some (sid ++ "_" ++ toString k)) := by
  have e : toigmix L m sid =
      .ok (staticLoop L m sid (decide (1 < m.shape.prod)) (indices m.shape) 0) := by
    unfold toigmix mixLen
    rw [if_neg hr]
    rfl
  have hlen := (staticLoop_length L m sid (decide (1 < m.shape.prod)) (indices m.shape) 0).trans
    (indices_length m.shape)
  have hname : ∀ k < m.shape.prod,
      ((staticLoop L m sid (decide (1 < m.shape.prod)) (indices m.shape) 0).map (·.1))[k]? =
        some (staticName sid (decide (1 < m.shape.prod)) k) := by
    intro k hk
    rw [List.getElem?_map, staticLoop_get, List.getElem?_eq_getElem (by rw [indices_length]; exact hk)]
    simp
  refine ⟨_, e, hlen, ?_, ?_, ?_⟩
  · rw [List.nodup_iff_getElem?_ne_getElem?]
    intro a b hab hb
    rw [List.length_map, hlen] at hb
    rw [hname a (by omega), hname b hb]
    intro h
    rw [Option.some.injEq] at h
    unfold staticName at h
    rw [if_pos (by simp; omega), if_pos (by simp; omega)] at h
    have h' : (sid ++ "_" ++ toString a).toList = (sid ++ "_" ++ toString b).toList := by rw [h]
    simp only [String.toList_append] at h'
    have := toString_inj (String.toList_inj.mp (List.append_cancel_left h'))
    omega
  · intro h1
    apply List.ext_getElem?
    intro k
    rcases Nat.eq_zero_or_pos k with rfl | hk
    · rw [hname 0 (by omega)]
      simp [staticName, h1]
    · rw [List.getElem?_eq_none (by rw [List.length_map, hlen, h1]; omega),
        List.getElem?_eq_none (by simp; omega)]
  · intro h1 k hk
    rw [hname k hk]
    simp [staticName, h1]

section
variable {L : Lib σ} {coll : Gas.Mix.Coll} {m : Mix σ} {sid name : String} {D : Gas.Mix.Entry}
  {l : List (String × Gas.Mix.Entry)} {j : List Nat} {cs : List Comp}

theorem entry_at (hl : toigmix L m sid = .ok l) (hj : Within j m.shape)
    (hD : l[number m.shape j]? = some (name, D)) : D = ⟨contentsAt L m j, false⟩ := by
  unfold toigmix at hl
  obtain ⟨n, -, h2⟩ := exbind_inv hl
  cases h2
  rw [staticLoop_get, indices_get hj] at hD
  simp only [Option.map_some, Option.some.injEq, Prod.mk.injEq] at hD
  exact hD.2.symm

theorem comps_moles (hn : m.c.Nodup) (j : List Nat) :
    ((compsAt L m j).map (moles false)).sum = ∑ s ∈ m.c.toFinset, amount m s j := by
  rw [comps_sum hn]; rfl

theorem comps_mean (hn : m.c.Nodup) (j : List Nat) (v : σ → ℝ) (w : Comp → ℝ)
    (h : ∀ s ∈ m.c, w ⟨L.sid s, amount m s j, L.gas s⟩ = v s) :
    ((compsAt L m j).map (fun c => moleFrac false (compsAt L m j) c * w c)).sum =
      weigh v m j / ∑ s ∈ m.c.toFinset, amount m s j := by
  rw [comps_sum hn]
  unfold weigh moleFrac
  rw [Finset.sum_div, comps_moles hn]
  refine Finset.sum_congr rfl fun s hs => ?_
  rw [h s (by simpa using hs)]
  show amount m s j / _ * v s = _
  ring

theorem total_pos (hq : ∀ s ∈ m.c, 0 ≤ amount m s j) (hp : ∃ s ∈ m.c, 0 < amount m s j) :
    0 < ∑ s ∈ m.c.toFinset, amount m s j := by
  obtain ⟨s, hs, h⟩ := hp
  exact Finset.sum_pos' (fun t ht => hq t (by simpa using ht)) ⟨s, by simpa using hs, h⟩

/-- **C85.** The static mixture for a position has the composition of the dynamic mixture there: its
`X()` lists the mole fractions and its `Y()` the mass fractions of the constituents, under their
identifiers, whatever was called on it before.  (Amounts may be zero.) -/
theorem C85_composition (L : Lib σ) (coll : Gas.Mix.Coll) (m : Mix σ) (hC : Collected L coll m)
    (hW : Weighs L m) (sid : String) (l : List (String × Gas.Mix.Entry)) (hl : toigmix L m sid = .ok l)
    (j : List Nat) (hj : Within j m.shape) (hq : ∀ s ∈ m.c, 0 ≤ amount m s j)
    (hp : ∃ s ∈ m.c, 0 < amount m s j) :
    ∃ name D, l[number m.shape j]? = some (name, D) ∧ ∀ o, Used coll D o →
      (Gas.Mix.mX coll D o).1 = .ok (m.c.map (fun s => (L.sid s, molFrac m s j))) ∧
      (Gas.Mix.mY coll D o).1 = .ok (m.c.map (fun s => (L.sid s, massFraction L m s j))) := by
  have h1 : ∃ name D, l[number m.shape j]? = some (name, D) := by
    unfold toigmix at hl
    obtain ⟨n, -, h2⟩ := exbind_inv hl
    cases h2
    rw [staticLoop_get, indices_get hj]
    exact ⟨_, _, rfl⟩
  obtain ⟨name, D, hD⟩ := h1
  obtain rfl := entry_at hl hj hD
  refine ⟨name, _, hD, fun o ho => ?_⟩
  have hL := listed_at hC hW j hq hp
  obtain ⟨O, -, -, hO, -, hx, hy, -⟩ := bootstrap_listed hL
  have hb := bootstrap_used hL ho
  constructor
  · unfold Gas.Mix.mX
    rw [hb, hO]
    show Except.ok O.x = _
    rw [hx]
    congr 1
    unfold compsAt
    rw [List.map_map]
    refine List.map_congr_left fun s hs => ?_
    simp only [Function.comp_apply, Prod.mk.injEq, true_and]
    unfold moleFrac molFrac kmols
    rw [place_within hj]
    have := comps_moles (L := L) hC.once j
    unfold compsAt at this
    rw [this]
    rfl
  · unfold Gas.Mix.mY
    rw [hb, hO]
    show Except.ok O.y = _
    rw [hy]
    congr 1
    unfold compsAt
    rw [List.map_map]
    refine List.map_congr_left fun s hs => ?_
    simp only [Function.comp_apply, Prod.mk.injEq, true_and]
    unfold massFrac massFraction
    rw [place_within hj]
    have := comps_sum (L := L) hC.once j (grams false)
    unfold compsAt at this
    rw [this]
    unfold weigh
    congr 1
    refine Finset.sum_congr rfl fun t _ => ?_
    show amount m t j * (L.gas t).mw = _
    ring

/-! ## Properties -/

theorem matterAt_mean {E : Env} {S : Sys} (hU : Uses E S) (hW : Weighs L m) {i : List Nat}
    (hn : 0 < kmols m i) (hmw : 0 < meanMw L m i) :
    matterAt E S L m i * msize E.a (meanMw L m i) S.m = kmols m i := by
  unfold matterAt holds
  by_cases hm : (mass E.a).contains S.m = true
  · obtain ⟨y, hy⟩ := contains_iff.mp hm
    have e : ∀ mw, msize E.a mw S.m = y / mw := by
      intro mw; unfold msize matterScale; rw [hy]; rfl
    have h0 := ms_ne hU hmw.ne'
    rw [e] at h0
    have hy0 : y ≠ 0 := fun h => h0 (by rw [h, zero_div])
    simp only [e]
    have : ∑ s ∈ m.c.toFinset, amount m s (place m i) / (y / (L.gas s).mw) =
        weigh (fun s => (L.gas s).mw) m (place m i) / y := by
      unfold weigh
      rw [Finset.sum_div]
      refine Finset.sum_congr rfl fun s hs => ?_
      have := (hW s (by simpa using hs)).ne'
      field_simp
    rw [this]
    have hne := hmw.ne'
    unfold meanMw at hne ⊢
    have := hn.ne'
    have hw : weigh (fun s => (L.gas s).mw) m (place m i) ≠ 0 := by
      intro h; rw [h, zero_div] at hne; exact hne rfl
    field_simp
  · have e : ∀ mw, msize E.a mw S.m = msize E.a 1 S.m := by
      intro mw; unfold msize matterScale
      cases hl : (mass E.a).table.lookup S.m with
      | none => rfl
      | some y => exact absurd (contains_iff.mpr ⟨y, hl⟩) hm
    have h0 := ms_ne hU hmw.ne'
    rw [e] at h0
    simp only [e (meanMw L m i), e (L.gas _).mw]
    rw [← Finset.sum_div, div_mul_cancel₀ _ h0]
    rfl

/-- What the static mixture for a position is made of. -/
theorem static_gas (hL : Listed coll D cs) {M : Gas} (hM : IsMixture coll D M) :
    (∃ c ∈ cs, M.Tlo = c.gas.Tlo) ∧ (∃ c ∈ cs, M.Thi = c.gas.Thi) ∧
    M.mw = (cs.map (fun c => moleFrac D.bymass cs c * c.gas.mw)).sum ∧
    M.cp = Gas.Mix.sumCp (cs.map (fun c => (moleFrac D.bymass cs c, c.gas))) ∧
    M.h = Gas.Mix.hM (cs.map (fun c => (moleFrac D.bymass cs c, c.gas))) := by
  obtain ⟨O, L, H, hO, hbs, hx, hy, hlo, hhi, hm, hmw, hp, l1, l2, l3, l4⟩ := bootstrap_listed hL
  have h1 := hM {} .new Gas false (fun G => .ok G)
  unfold Gas.Mix.call at h1
  rw [hO] at h1
  simp only [Bool.false_and, Bool.false_eq_true, if_false] at h1
  unfold Gas.Mix.toGas at h1
  rw [hx, species_eq hL.found, hlo, hhi] at h1
  simp only [Option.map_some, Option.some.injEq, Except.ok.injEq] at h1
  subst h1
  exact ⟨l2, l4, hmw, rfl, rfl⟩

/-- **C85.** Heat capacities, enthalpy and internal energy of a dynamic mixture and of the static
mixture made from it agree: at every position, the dynamic mixture reports the amount of matter
there (in the working unit) times what the static mixture for that position reports at the same
temperature (and any pressure).  The static mixture does report a number whenever the dynamic one
does within the limits of the constituents. -/
theorem C85_energies (E : Env) (S : Sys) (hU : Uses E S) (L : Lib σ) (coll : Gas.Mix.Coll) (m : Mix σ)
    (hC : Collected L coll m) (hW : Weighs L m) (sid : String) (l : List (String × Gas.Mix.Entry))
    (hl : toigmix L m sid = .ok l) (varg : List Arr) (kw : KwM) (i : List Nat)
    (hj : Within (place m i) m.shape) (hq : ∀ s ∈ m.c, 0 ≤ amount m s (place m i))
    (hp : ∃ s ∈ m.c, 0 < amount m s (place m i)) (name : String) (D : Gas.Mix.Entry)
    (hD : l[number m.shape (place m i)]? = some (name, D)) (M : Gas) (hM : IsMixture coll D M)
    (q : Quantity) (hqq : q = .h ∨ q = .e ∨ q = .cp ∨ q = .cv) (x t p : ℝ)
    (pos : Position (dynamic q E L m varg kw) i) (hx : Shows (dynamic q E L m varg kw) i x)
    (ht : Shows (iT E L m varg kw) i t) (hv : ValidAt S L m t) :
    ∃ y, Gives E M [.scalar t, .scalar p] [] q 0 y ∧ x = matterAt E S L m i * y := by
  obtain rfl := entry_at hl hj hD
  have hL := listed_at hC hW _ hq hp
  obtain ⟨⟨c1, hc1, e1⟩, ⟨c2, hc2, e2⟩, emw, ecp, eh⟩ := static_gas hL hM
  have hn : 0 < kmols m i := total_pos hq hp
  have hmean : 0 < meanMw L m i := meanMw_pos hW hq hn
  have emw' : M.mw = meanMw L m i := by
    rw [emw, comps_mean hC.once _ (fun s => (L.gas s).mw) (fun c => c.gas.mw) (fun _ _ => rfl)]
    rfl
  have h1 : M.Tlo ≤ toKelvin S.T.name t := by
    rw [e1]
    obtain ⟨s, hs, rfl⟩ := List.mem_map.mp hc1
    exact (hv s hs).1
  have h2 : toKelvin S.T.name t ≤ M.Thi := by
    rw [e2]
    obtain ⟨s, hs, rfl⟩ := List.mem_map.mp hc2
    exact (hv s hs).2
  have gM := fun y => gives_Tp hU (emw' ▸ hmean.ne') (p := p) h1 h2 (q := q) (y := y)
  have hmat := matterAt_mean hU hW hn hmean
  rw [← emw'] at hmat
  have hmat' : ∀ w k : ℝ, w * k = matterAt E S L m i * (w / kmols m i * k * msize E.a M.mw S.m) := by
    intro w k
    have := hn.ne'
    calc w * k = w / kmols m i * k * kmols m i := by field_simp
      _ = _ := by rw [← hmat]; ring
  have hh : ∀ y : σ → ℝ, (∀ s ∈ m.c, ((L.gas s).h (toKelvin S.T.name t)).map (fun r => r.1) = some (y s)) →
      ∃ b, M.h (toKelvin S.T.name t) = some (weigh y m (place m i) / kmols m i, b) := by
    intro y hy
    have : ∀ s : σ, ∃ b : ℝ, s ∈ m.c → (L.gas s).h (toKelvin S.T.name t) = some (y s, b) := by
      intro s
      by_cases hs : s ∈ m.c
      · have := hy s hs
        cases hh : (L.gas s).h (toKelvin S.T.name t) with
        | none => rw [hh] at this; cases this
        | some z =>
          rw [hh] at this
          simp only [Option.map_some, Option.some.injEq] at this
          exact ⟨z.2, fun _ => by rw [← this]⟩
      · exact ⟨0, fun h => absurd h hs⟩
    choose b hb using this
    have sidc : ∀ c ∈ compsAt L m (place m i), ∃ s ∈ m.c, c = ⟨L.sid s, amount m s (place m i), L.gas s⟩ := by
      intro c hc
      obtain ⟨s, hs, rfl⟩ := List.mem_map.mp hc
      exact ⟨s, hs, rfl⟩
    set v : Comp → ℝ × ℝ := fun c => (c.gas.h (toKelvin S.T.name t)).getD (0, 0) with hvdef
    have hvv : ∀ c ∈ compsAt L m (place m i), c.gas.h (toKelvin S.T.name t) = some ((v c).1, (v c).2) := by
      intro c hc
      obtain ⟨s, hs, rfl⟩ := sidc c hc
      simp [hvdef, hb s hs]
    have key : M.h (toKelvin S.T.name t) = some (weigh y m (place m i) / kmols m i,
        ((compsAt L m (place m i)).map (fun c => moleFrac false (compsAt L m (place m i)) c * (v c).2)).sum) := by
     rw [eh]
     unfold Gas.Mix.hM
     rw [sumPair_eq Gas.h _ _ _ (fun c => (v c).1) (fun c => (v c).2) hvv,
      comps_mean hC.once _ y (fun c => (v c).1) (fun s hs => by simp [hvdef, hb s hs])]
     rfl
    exact ⟨_, key⟩
  have hcp : ∀ y : σ → ℝ, (∀ s ∈ m.c, (L.gas s).cp (toKelvin S.T.name t) = some (y s)) →
      M.cp (toKelvin S.T.name t) = some (weigh y m (place m i) / kmols m i) := by
    intro y hy
    set v : Comp → ℝ := fun c => (c.gas.cp (toKelvin S.T.name t)).getD 0 with hvdef
    have hvv : ∀ c ∈ compsAt L m (place m i), c.gas.cp (toKelvin S.T.name t) = some (v c) := by
      intro c hc
      obtain ⟨s, hs, rfl⟩ := List.mem_map.mp hc
      simp [hvdef, hy s hs]
    rw [ecp, sumCp_eq _ _ _ v hvv, comps_mean hC.once _ y v (fun s hs => by simp [hvdef, hy s hs])]
    rfl
  have htot : ∀ z : ℝ, z * total m (m.at i) = z * kmols m i := fun z => by rw [← kmols_total]
  rcases hqq with rfl | rfl | rfl | rfl
  · obtain ⟨-, y, a1, b1⟩ := sum_shown hU (r := iH E L m varg kw)
      (f := fun G t => (G.h t).map (fun r => r.1))
      (g := fun _ x => x) (outE_ok hU) (by simp only [map_id_eq hU]; rfl) pos hx ht
    obtain ⟨b, hb⟩ := hh y a1
    refine ⟨inUnits E.a S M.mw .energy (weigh y m (place m i) / kmols m i), gM _ (by simp only [value, Gas.hI, hb, Option.bind_some, Option.map_some]), ?_⟩
    rw [b1, hmat']; rfl
  · obtain ⟨-, y, a1, b1⟩ := sum_shown hU (r := iE E L m varg kw)
      (f := fun G t => (G.e t).map (fun r => r.1))
      (g := fun _ x => x) (outE_ok hU) (by simp only [map_id_eq hU]; rfl) pos hx ht
    have a2 : ∀ s ∈ m.c, ((L.gas s).h (toKelvin S.T.name t)).map (fun r => r.1) =
        some (y s + Ru * toKelvin S.T.name t) := by
      intro s hs
      have := a1 s hs
      unfold Gas.e at this
      cases hz : (L.gas s).h (toKelvin S.T.name t) with
      | none => rw [hz] at this; cases this
      | some z =>
        rw [hz] at this
        simp only [Option.map_some, Option.some.injEq] at this ⊢
        linarith
    obtain ⟨b, hb⟩ := hh _ a2
    refine ⟨inUnits E.a S M.mw .energy (weigh (fun s => y s + Ru * toKelvin S.T.name t) m (place m i) / kmols m i - Ru * toKelvin S.T.name t), gM _ (by simp only [value, Gas.eI, hb, Option.bind_some, Option.map_some]), ?_⟩
    rw [b1, hmat']
    have e : weigh (fun s => y s + Ru * toKelvin S.T.name t) m (place m i) / kmols m i - Ru * toKelvin S.T.name t
        = weigh y m (place m i) / kmols m i := by
      have := hn.ne'
      have e2 : weigh (fun s => y s + Ru * toKelvin S.T.name t) m (place m i) =
          weigh y m (place m i) + Ru * toKelvin S.T.name t * kmols m i := by
        unfold weigh kmols
        rw [Finset.mul_sum, ← Finset.sum_add_distrib]
        exact Finset.sum_congr rfl fun s _ => by ring
      rw [e2]; field_simp; ring
    rw [e]; rfl
  · obtain ⟨-, y, a1, b1⟩ := sum_shown hU (r := iCp E L m varg kw) (f := Gas.cp)
      (g := fun _ x => x) (outS_scaled hU) (by simp only [map_id_eq hU]; rfl) pos hx ht
    refine ⟨inUnits E.a S M.mw .entropy (weigh y m (place m i) / kmols m i), gM _ (by simp only [value, Gas.cpI, hcp y a1, Option.bind_some, Option.map_some]), ?_⟩
    rw [b1, hmat']
    simp only [inUnits]; ring
  · obtain ⟨-, y, a1, b1⟩ := sum_shown hU (r := iCv E L m varg kw) (f := Gas.cp)
      (g := fun i x => x - Ru * total m (m.at i)) (outS_scaled hU) rfl pos hx ht
    refine ⟨inUnits E.a S M.mw .entropy (weigh y m (place m i) / kmols m i - Ru), gM _ (by simp only [value, Gas.cvI, hcp y a1, Option.bind_some, Option.map_some]), ?_⟩
    rw [b1, htot, hmat']
    have := hn.ne'
    have e : (weigh y m (place m i) - Ru * kmols m i) / kmols m i = weigh y m (place m i) / kmols m i - Ru := by
      field_simp
    rw [e]
    simp only [inUnits]; ring

theorem weight_matter {E : Env} {S : Sys} (hU : Uses E S) (hn : m.c.Nodup) (hW : Weighs L m)
    (hj : Within j m.shape) (hq : ∀ s ∈ m.c, 0 < amount m s j) (hne : m.c ≠ []) {s : σ} (hs : s ∈ m.c) :
    matterAt E S L m j * weight E.a S false (compsAt L m j) ⟨L.sid s, amount m s j, L.gas s⟩ =
      holds E S L m s j := by
  obtain ⟨s0, hs0⟩ := List.exists_mem_of_ne_nil _ hne
  have hk : 0 < ∑ s ∈ m.c.toFinset, amount m s j :=
    total_pos (fun t ht => (hq t ht).le) ⟨s0, hs0, hq s0 hs0⟩
  have hg : 0 < ∑ t ∈ m.c.toFinset, amount m t j * (L.gas t).mw :=
    Finset.sum_pos (fun t ht => mul_pos (hq t (by simpa using ht)) (hW t (by simpa using ht)))
      ⟨s0, by simpa using hs0⟩
  unfold matterAt holds weight
  simp only [place_within hj]
  by_cases hm : (mass E.a).contains S.m = true
  · obtain ⟨y, hy⟩ := contains_iff.mp hm
    have e : ∀ mw, msize E.a mw S.m = y / mw := by
      intro mw; unfold msize matterScale; rw [hy]; rfl
    have h0 := ms_ne hU (hW s hs).ne'
    rw [e] at h0
    have hy0 : y ≠ 0 := fun h => h0 (by rw [h, zero_div])
    simp only [e, hm, if_true]
    have e1 : ∑ s ∈ m.c.toFinset, amount m s j / (y / (L.gas s).mw) =
        (∑ t ∈ m.c.toFinset, amount m t j * (L.gas t).mw) / y := by
      rw [Finset.sum_div]
      refine Finset.sum_congr rfl fun s hs => ?_
      have := (hW s (by simpa using hs)).ne'
      field_simp
    have e2 : massFrac false (compsAt L m j) ⟨L.sid s, amount m s j, L.gas s⟩ =
        amount m s j * (L.gas s).mw / ∑ t ∈ m.c.toFinset, amount m t j * (L.gas t).mw := by
      unfold massFrac
      rw [comps_sum hn]
      rfl
    rw [e1, e2]
    have := (hW s hs).ne'
    have := hg.ne'
    field_simp
  · have e : ∀ mw, msize E.a mw S.m = msize E.a 1 S.m := by
      intro mw; unfold msize matterScale
      cases hl : (mass E.a).table.lookup S.m with
      | none => rfl
      | some y => exact absurd (contains_iff.mpr ⟨y, hl⟩) hm
    have h0 := ms_ne hU (hW s hs).ne'
    rw [e] at h0
    have e2 : moleFrac false (compsAt L m j) ⟨L.sid s, amount m s j, L.gas s⟩ =
        amount m s j / ∑ t ∈ m.c.toFinset, amount m t j := by
      unfold moleFrac
      rw [comps_moles hn]
      rfl
    simp only [e (L.gas _).mw, hm]
    rw [← Finset.sum_div, if_neg (by simp), e2]
    have := hk.ne'
    field_simp

theorem gives_single {E : Env} {S : Sys} (hU : Uses E S) {G : Gas} (hmw : 0 < G.mw) {t p : ℝ}
    (h1 : G.Tlo ≤ toKelvin S.T.name t) (h2 : toKelvin S.T.name t ≤ G.Thi) {q : Quantity} {y : ℝ}
    (h : Gives E G [.scalar t, .scalar p] [] q 0 y) :
    method q E G [.scalar t, .scalar p] [] = .ok [some y] := by
  obtain ⟨xs, h3, h4⟩ := h
  have h5 := method_Tp hU hmw.ne' t p h1 h2 q
  rw [h5] at h3
  cases h3
  rw [h5]
  simpa using h4

/-- **C85.** Entropy, Gibbs and Helmholtz energy, in the same way, at the same temperature and pressure.
Missing from the full property: arguments whose shape is not that of the mixture, which raise
`IndexError` (`C81_shape_defect`), and constituents with amount zero (`C85_absent_defect`). -/
theorem C85_entropies_partial (E : Env) (S : Sys) (hU : Uses E S) (L : Lib σ) (coll : Gas.Mix.Coll)
    (m : Mix σ) (hC : Collected L coll m) (hW : Weighs L m) (hpr : ∀ s ∈ m.c, 0 < (L.gas s).pref)
    (hco : ∀ s ∈ m.c, Coherent (L.gas s)) (hne : m.c ≠ []) (sid : String)
    (l : List (String × Gas.Mix.Entry)) (hl : toigmix L m sid = .ok l) (varg : List Arr) (kw : KwM)
    (j : List Nat) (hj : Within j m.shape) (hq : ∀ s ∈ m.c, 0 < amount m s j) (name : String)
    (D : Gas.Mix.Entry) (hD : l[number m.shape j]? = some (name, D)) (M : Gas)
    (hM : IsMixture coll D M) (q : Quantity) (hqq : q = .s ∨ q = .g ∨ q = .f) (x t p : ℝ) (h0 : 0 < p)
    (sT : HasShape (iT E L m varg kw) m.shape) (sP : HasShape (iP E L m varg kw) m.shape)
    (hx : Shows (dynamic q E L m varg kw) j x) (ht : Shows (iT E L m varg kw) j t)
    (hp : Shows (iP E L m varg kw) j p) (hv : ValidAt S L m t) :
    ∃ y, Gives E M [.scalar t, .scalar p] [] q 0 y ∧ x = matterAt E S L m j * y := by
  obtain rfl := entry_at hl hj hD
  have hS := sound_at hC hW hpr hne j hq
  obtain ⟨-, -, ⟨c1, hc1, e1⟩, -, ⟨c2, hc2, e2⟩⟩ := mixture_eq hS hM
  have h1 : M.Tlo ≤ toKelvin S.T.name t := by
    rw [e1]
    obtain ⟨s, hs, rfl⟩ := List.mem_map.mp hc1
    exact (hv s hs).1
  have h2 : toKelvin S.T.name t ≤ M.Thi := by
    rw [e2]
    obtain ⟨s, hs, rfl⟩ := List.mem_map.mp hc2
    exact (hv s hs).2
  obtain ⟨r, r1, r2⟩ := C38_partial_pressures hS M hM (by
    intro c hc
    obtain ⟨s, hs, rfl⟩ := List.mem_map.mp hc
    exact hco s hs) E S hU t p h0 h1 h2 q hqq
  refine ⟨_, r2, ?_⟩
  dsimp only at r1 ⊢
  have hx' : x = ∑ s ∈ m.c.toFinset, holds E S L m s j * r ⟨L.sid s, amount m s j, L.gas s⟩ := by
    have hy : ∀ s ∈ m.c, 0 < amount m s j →
        method q E (L.gas s) [.scalar t, .scalar (p * molFrac m s j)] [] =
          .ok [some (r ⟨L.sid s, amount m s j, L.gas s⟩)] := by
      intro s hs _
      have := r1 _ (List.mem_map_of_mem hs)
      have e : p * molFrac m s j = moleFrac false (compsAt L m j) ⟨L.sid s, amount m s j, L.gas s⟩ * p := by
        unfold molFrac moleFrac kmols
        rw [place_within hj, comps_moles hC.once]
        show _ = amount m s j / _ * p
        ring
      rw [e]
      exact gives_single hU (hW s hs) (hv s hs).1 (hv s hs).2 this
    rcases hqq with rfl | rfl | rfl
    · exact C81_entropy_partial E S hU L m hW hC.once varg kw j hj (fun s hs => (hq s hs).le) x t p
        _ sT sP hx ht hp hv hy
    · exact C81_gibbs_partial E S hU L m hW hC.once varg kw j hj (fun s hs => (hq s hs).le) x t p
        _ sT sP hx ht hp hv hy
    · exact C81_helmholtz_partial E S hU L m hW hC.once varg kw j hj (fun s hs => (hq s hs).le) x t p
        _ sT sP hx ht hp hv hy
  rw [hx', comps_sum hC.once, Finset.mul_sum]
  refine Finset.sum_congr rfl fun s hs => ?_
  rw [← weight_matter hU hC.once hW hj hq hne (by simpa using hs : s ∈ m.c)]
  ring

end

end PyroMat.Igt.Props
