import Verif.Igt.PropsStatic

/-!
# C85: static mixtures as dynamic mixtures, and round trips
-/

set_option linter.unusedSectionVars false
set_option linter.unusedSimpArgs false

namespace PyroMat.Igt.Props

open PyroMat PyroMat.Gas PyroMat.Igt PyroMat.Igt.Spec
open PyroMat.Units PyroMat.Units.Spec PyroMat.Units.Props PyroMat.Gas.Spec PyroMat.Gas.Props
open scoped BigOperators

variable {σ : Type} [DecidableEq σ]

section
variable {E : Env} {S : Sys} {um un : String} {L : Lib σ} {coll : Gas.Mix.Coll} {D : Gas.Mix.Entry}
  {subs : List σ} {a : σ → ℝ}

/-- The constituents listed. -/
noncomputable def listing (L : Lib σ) (subs : List σ) (a : σ → ℝ) : List Comp :=
  subs.map (fun s => ⟨L.sid s, a s, L.gas s⟩)

theorem listing_listed (h : Lists L coll D subs a) : Listed coll D (listing L subs a) where
  listed := by rw [h.contents]; simp [listing, Function.comp_def]
  found := by
    intro c hc
    obtain ⟨s, hs, rfl⟩ := List.mem_map.mp hc
    exact h.gas s hs
  qty := by
    intro c hc
    obtain ⟨s, hs, rfl⟩ := List.mem_map.mp hc
    exact h.nonneg s hs
  positive := by
    obtain ⟨s, hs, hp⟩ := h.positive
    exact ⟨_, List.mem_map_of_mem hs, hp⟩
  mw := by
    intro c hc
    obtain ⟨s, hs, rfl⟩ := List.mem_map.mp hc
    exact h.mw s hs

theorem listing_sum (hn : subs.Nodup) (f : Comp → ℝ) :
    ((listing L subs a).map f).sum = ∑ s ∈ subs.toFinset, f ⟨L.sid s, a s, L.gas s⟩ := by
  unfold listing
  rw [List.map_map, List.sum_toFinset _ hn]
  rfl

theorem ismass_uses (hU : Uses E S) : ismass E.a E.c.str none = .ok ((mass E.a).contains S.m) := by
  unfold ismass
  simp only [hU.m, bind, Except.bind, pure, Except.pure]
  by_cases hm : (mass E.a).contains S.m = true
  · simp [hm]
  · have := hU.valid.m.resolve_left hm
    simp [hm, this]

theorem wU_consistent (hW : Works E S um un) (hc : Consistent E um un) (s : σ) :
    wU E um un L s = (L.gas s).mw := by
  unfold wU
  rw [hc, div_self (molarSize_pos hW).ne', mul_one]

theorem msize_wU (hW : Works E S um un) (hc : Consistent E um un ∨ (mass E.a).contains S.m = false)
    (s : σ) : msize E.a (wU E um un L s) S.m = msize E.a (L.gas s).mw S.m := by
  rcases hc with hc | hc
  · rw [wU_consistent hW hc]
  · exact msize_molar hc _ _

/-- A mixture built from fractions. -/
theorem from_fractions (hW : Works E S um un)
    (hc : Consistent E um un ∨ (mass E.a).contains S.m = false) (h : Lists L coll D subs a) (x : σ → ℝ) :
    ∃ m, init E L ((subs.map (fun s => (L.sid s, x s))).map
        (fun q => ((.str q.1.toList : Key σ), ⟨[], fun _ => q.2⟩))) none = .ok m ∧
      m.c = subs ∧ m.shape = [1] ∧ Wf m ∧ ∀ s ∈ subs, amount m s [0] = x s * msize E.a (L.gas s).mw S.m := by
  obtain ⟨m, e, hcs, hsh, hwf, hv⟩ := C45_construct hW L ((subs.map (fun s => (L.sid s, x s))).map
      (fun q => ((.str q.1.toList : Key σ), (⟨[], fun _ => q.2⟩ : Arr)))) none S.m (Or.inr ⟨rfl, rfl⟩)
    hW.uses.valid.m subs (by
      rw [List.map_map, List.forall₂_map_left_iff, List.forall₂_same]
      intro s hs
      simp only [Function.comp_apply, Key.resolve, fullId, if_pos (h.dotted s hs), String.ofList_toList,
        h.find s hs])
    h.mw [1] (by simp) (by
      intro p hp
      obtain ⟨q, -, rfl⟩ := List.mem_map.mp hp
      exact Or.inl rfl) (Or.inl rfl)
  refine ⟨m, e, hcs, hsh, hwf, fun s hs => ?_⟩
  have hn : m.c.Nodup := hcs ▸ h.once
  obtain ⟨k, hk, rfl⟩ := List.getElem_of_mem hs
  have hk' : k < m.c.length := by rw [hcs]; exact hk
  have e1 : amount m subs[k] [0] = m.q.val (k :: [0]) := by
    have := amount_row hn hk' [0]
    simp only [hcs] at this
    exact this
  rw [e1, hv k subs[k] _ (List.getElem?_eq_getElem hk)
    (by rw [List.getElem?_map, List.getElem?_map, List.getElem?_eq_getElem hk]; rfl) [0], msize_wU hW hc]

theorem listing_moles (h : Lists L coll D subs a) : 0 < ((listing L subs a).map (moles D.bymass)).sum :=
  (listed_moles (listing_listed h)).2.1

theorem listing_grams (h : Lists L coll D subs a) : 0 < ((listing L subs a).map (grams D.bymass)).sum :=
  (listed_moles (listing_listed h)).2.2

theorem grams_moles {b : Bool} {c : Comp} (h : 0 < c.gas.mw) : grams b c = c.gas.mw * moles b c := by
  unfold grams moles
  cases b
  · simp [mul_comm]
  · have := h.ne'; simp; field_simp

/-- **C85.** `fromigmix` gives a single mixture of the same constituents that contains one unit of
matter and has the composition of the static mixture: what `X()` and `Y()` of the static mixture
list are its mole and mass fractions.  For a mass as the unit of matter the configured `unit_mass`
and `unit_molar` must be consistent (kg with kmol, g with mol), see `C40` and `C45`. -/
theorem C85_from (hW : Works E S um un) (hc : Consistent E um un ∨ (mass E.a).contains S.m = false)
    (L : Lib σ) (coll : Gas.Mix.Coll) (D : Gas.Mix.Entry) (subs : List σ) (a : σ → ℝ)
    (h : Lists L coll D subs a) (o : Gas.Mix.Obj) (ho : Used coll D o) :
    ∃ m, (fromigmix E L coll D o).1 = .ok m ∧ m.c = subs ∧ m.shape = [1] ∧
      (∀ s ∈ subs, 0 ≤ amount m s [0]) ∧ matterAt E S L m [0] = 1 ∧
      (Gas.Mix.mX coll D o).1 = .ok (subs.map (fun s => (L.sid s, molFrac m s [0]))) ∧
      (Gas.Mix.mY coll D o).1 = .ok (subs.map (fun s => (L.sid s, massFraction L m s [0]))) := by
  have hU := hW.uses
  have hL := listing_listed h
  obtain ⟨O, -, -, hO, -, hx, hy, -⟩ := bootstrap_listed hL
  have hb := bootstrap_used hL ho
  set cs := listing L subs a with hcs
  let cm : σ → Comp := fun s => ⟨L.sid s, a s, L.gas s⟩
  have hmX : (Gas.Mix.mX coll D o).1 = .ok (subs.map (fun s => (L.sid s, moleFrac D.bymass cs (cm s)))) := by
    unfold Gas.Mix.mX
    rw [hb, hO]
    show Except.ok O.x = _
    rw [hx, hcs]
    conv_lhs => arg 1; arg 2; unfold listing
    rw [List.map_map]
    rfl
  have hmY : (Gas.Mix.mY coll D o).1 = .ok (subs.map (fun s => (L.sid s, massFrac D.bymass cs (cm s)))) := by
    unfold Gas.Mix.mY
    rw [hb, hO]
    show Except.ok O.y = _
    rw [hy, hcs]
    conv_lhs => arg 1; arg 2; unfold listing
    rw [List.map_map]
    rfl
  have hm0 := listing_moles h
  have hg0 := listing_grams h
  have eM : ∑ s ∈ subs.toFinset, moles D.bymass (cm s) = (cs.map (moles D.bymass)).sum :=
    (listing_sum h.once _).symm
  have eG : ∑ s ∈ subs.toFinset, grams D.bymass (cm s) = (cs.map (grams D.bymass)).sum :=
    (listing_sum h.once _).symm
  have hgm : ∀ s ∈ subs, grams D.bymass (cm s) = (L.gas s).mw * moles D.bymass (cm s) :=
    fun s hs => grams_moles (c := cm s) (h.mw s hs)
  -- the amounts are proportional to the moles listed
  have key : ∃ m κ, (fromigmix E L coll D o).1 = .ok m ∧ m.c = subs ∧ m.shape = [1] ∧ 0 < κ ∧
      (∀ s ∈ subs, amount m s [0] = κ * moles D.bymass (cm s)) ∧
      ∑ s ∈ subs.toFinset, amount m s [0] / msize E.a (L.gas s).mw S.m = 1 := by
    by_cases hm : (mass E.a).contains S.m = true
    · obtain ⟨m, e, h1, h2, -, h3⟩ := from_fractions hW hc h (fun s => massFrac D.bymass cs (cm s))
      obtain ⟨y, hy⟩ := contains_iff.mp hm
      have ey : ∀ mw, msize E.a mw S.m = y / mw := by
        intro mw; unfold msize matterScale; rw [hy]; rfl
      have hy0 : 0 < y := by
        have := C04_factors_positive E.a hU.pos (mass E.a) (by simp [allConvs]) _ (lookup_mem hy)
        exact this
      refine ⟨m, y / (cs.map (grams D.bymass)).sum, ?_, h1, h2, div_pos hy0 hg0, fun s hs => ?_, ?_⟩
      · unfold fromigmix
        rw [ismass_uses hU, hm]
        simp only [if_true]
        rw [hmY]
        exact e
      · rw [h3 s hs, ey]
        unfold massFrac
        rw [hgm s hs]
        have := (h.mw s hs).ne'
        field_simp
      · rw [← div_self hg0.ne']
        conv_rhs => rw [← eG]
        rw [Finset.sum_div]
        refine Finset.sum_congr rfl fun s hs => ?_
        have hs' : s ∈ subs := by simpa using hs
        rw [h3 s hs', mul_div_assoc, div_self (ms_ne hU (h.mw s hs').ne'), mul_one, eG]
        rfl
    · obtain ⟨m, e, h1, h2, -, h3⟩ := from_fractions hW hc h (fun s => moleFrac D.bymass cs (cm s))
      have hm' : (mass E.a).contains S.m = false := by simpa using hm
      have hp : 0 < msize E.a 1 S.m := msize_pos hU one_pos
      refine ⟨m, msize E.a 1 S.m / (cs.map (moles D.bymass)).sum, ?_, h1, h2, div_pos hp hm0,
        fun s hs => ?_, ?_⟩
      · unfold fromigmix
        rw [ismass_uses hU, hm']
        simp only [Bool.false_eq_true, if_false]
        rw [hmX]
        exact e
      · rw [h3 s hs, msize_molar hm' (L.gas s).mw 1]
        unfold moleFrac
        ring
      · rw [← div_self hm0.ne']
        conv_rhs => rw [← eM]
        rw [Finset.sum_div]
        refine Finset.sum_congr rfl fun s hs => ?_
        have hs' : s ∈ subs := by simpa using hs
        rw [h3 s hs', mul_div_assoc, div_self (ms_ne hU (h.mw s hs').ne'), mul_one, eM]
        rfl
  obtain ⟨m, κ, e, hmc, hsh, hκ, hv, hone⟩ := key
  have hp : place m [0] = [0] := place_within (by rw [hsh]; exact .cons (by omega) .nil)
  have hkm : kmols m [0] = κ * (cs.map (moles D.bymass)).sum := by
    unfold kmols
    rw [hp, hmc, ← eM, Finset.mul_sum]
    exact Finset.sum_congr rfl fun s hs => hv s (by simpa using hs)
  have hwg : weigh (fun s => (L.gas s).mw) m [0] = κ * (cs.map (grams D.bymass)).sum := by
    unfold weigh
    rw [hmc, ← eG, Finset.mul_sum]
    refine Finset.sum_congr rfl fun s hs => ?_
    have hs' : s ∈ subs := by simpa using hs
    rw [hv s hs', hgm s hs']
    ring
  refine ⟨m, e, hmc, hsh, fun s hs => ?_, ?_, ?_, ?_⟩
  · rw [hv s hs]
    have := (listed_moles hL).1 _ (List.mem_map_of_mem hs : cm s ∈ cs)
    exact mul_nonneg hκ.le this
  · unfold matterAt holds
    rw [hp, hmc]
    exact hone
  · rw [hmX]
    congr 1
    refine List.map_congr_left fun s hs => ?_
    unfold molFrac moleFrac
    rw [hkm, hp, hv s hs, mul_div_mul_left _ _ hκ.ne']
  · rw [hmY]
    congr 1
    refine List.map_congr_left fun s hs => ?_
    unfold massFraction massFrac
    rw [hp, hwg, hv s hs, hgm s hs, mul_assoc, mul_div_mul_left _ _ hκ.ne', mul_comm]

/-- The static mixture for a position lists the amounts there. -/
theorem lists_at {m : Mix σ} (hC : Collected L coll m) (hm : Weighs L m) {j : List Nat}
    (hq : ∀ s ∈ m.c, 0 ≤ amount m s j) (hp : ∃ s ∈ m.c, 0 < amount m s j) :
    Lists L coll ⟨contentsAt L m j, false⟩ m.c (fun s => amount m s j) where
  once := hC.once
  contents := by
    show contentsAt L m j = _
    rw [contentsAt_eq hC]; simp [compsAt, Function.comp_def]
  gas := hC.gas
  find := hC.find
  dotted := hC.dotted
  nonneg := hq
  positive := hp
  mw := hm

/-- **C85.** From dynamic to static and back: `fromigmix` of the static mixture for a position gives one
unit of matter of the mixture at that position, with the same constituents and fractions. -/
theorem C85_round_trip (hW : Works E S um un)
    (hc : Consistent E um un ∨ (mass E.a).contains S.m = false) (L : Lib σ) (coll : Gas.Mix.Coll)
    (m : Mix σ) (hC : Collected L coll m) (hm : Weighs L m) (sid : String)
    (l : List (String × Gas.Mix.Entry)) (hl : toigmix L m sid = .ok l) (j : List Nat)
    (hj : Within j m.shape) (hq : ∀ s ∈ m.c, 0 ≤ amount m s j) (hp : ∃ s ∈ m.c, 0 < amount m s j)
    (name : String) (D : Gas.Mix.Entry) (hD : l[number m.shape j]? = some (name, D))
    (o : Gas.Mix.Obj) (ho : Used coll D o) :
    ∃ m', (fromigmix E L coll D o).1 = .ok m' ∧ m'.c = m.c ∧ m'.shape = [1] ∧
      matterAt E S L m' [0] = 1 ∧ (∀ s ∈ m.c, molFrac m' s [0] = molFrac m s j) ∧
      ∀ s ∈ m.c, massFraction L m' s [0] = massFraction L m s j := by
  obtain ⟨name', D', hD', hXY⟩ := C85_composition L coll m hC hm sid l hl j hj hq hp
  rw [hD'] at hD
  simp only [Option.some.injEq, Prod.mk.injEq] at hD
  obtain ⟨rfl, rfl⟩ := hD
  obtain rfl := entry_at hl hj hD'
  obtain ⟨m', e, h1, h2, -, h3, h4, h5⟩ := C85_from hW hc L coll _ m.c _ (lists_at hC hm hq hp) o ho
  obtain ⟨x1, x2⟩ := hXY o ho
  rw [h4] at x1
  rw [h5] at x2
  simp only [Except.ok.injEq, List.map_inj_left, Prod.mk.injEq, true_and] at x1 x2
  exact ⟨m', e, h1, h2, h3, x1, x2⟩

/-- **C85.** From static to dynamic and back: `fromigmix` and then `toigmix` gives one static mixture,
with the name asked for and the same `X()` and `Y()`. -/
theorem C85_static_round_trip (hW : Works E S um un)
    (hc : Consistent E um un ∨ (mass E.a).contains S.m = false) (L : Lib σ) (coll : Gas.Mix.Coll)
    (D : Gas.Mix.Entry) (subs : List σ) (a : σ → ℝ) (h : Lists L coll D subs a) (o : Gas.Mix.Obj)
    (ho : Used coll D o) (sid : String) :
    ∃ m D', (fromigmix E L coll D o).1 = .ok m ∧ toigmix L m sid = .ok [(sid, D')] ∧
      ∀ o', Used coll D' o' → (Gas.Mix.mX coll D' o').1 = (Gas.Mix.mX coll D o).1 ∧
        (Gas.Mix.mY coll D' o').1 = (Gas.Mix.mY coll D o).1 := by
  obtain ⟨m, e, h1, h2, h0, h3, h4, h5⟩ := C85_from hW hc L coll D subs a h o ho
  have hj : Within [0] m.shape := by rw [h2]; exact .cons (by omega) .nil
  have hC : Collected L coll m := by
    subst h1
    exact ⟨h.once, h.gas, h.find, h.dotted⟩
  have hm : Weighs L m := by
    intro s hs
    exact h.mw s (h1 ▸ hs)
  have hamt : (∀ s ∈ m.c, 0 ≤ amount m s [0]) ∧ ∃ s ∈ m.c, 0 < amount m s [0] := by
    rw [h1]
    refine ⟨h0, ?_⟩
    by_contra hno
    push Not at hno
    have hz : matterAt E S L m [0] = 0 := by
      unfold matterAt holds
      rw [place_within hj, h1]
      refine Finset.sum_eq_zero fun s hs => ?_
      have hs' : s ∈ subs := by simpa using hs
      rw [le_antisymm (hno s hs') (h0 s hs'), zero_div]
    rw [h3] at hz
    exact one_ne_zero hz
  obtain ⟨l, hl, hlen, -, hone, -⟩ := C85_instances L m (by rw [h2]; simp) sid
  obtain ⟨name, D', hD', hXY⟩ := C85_composition L coll m hC hm sid l hl [0] hj hamt.1 hamt.2
  have hnames := hone (by rw [h2]; rfl)
  have hl1 : l = [(sid, D')] := by
    have : l.length = 1 := by rw [hlen, h2]; rfl
    obtain ⟨z, rfl⟩ := List.length_eq_one_iff.mp this
    have hz : number m.shape [0] = 0 := by rw [h2]; rfl
    rw [hz] at hD'
    simp only [List.getElem?_cons_zero, Option.some.injEq] at hD'
    subst hD'
    simp only [List.map_cons, List.map_nil, List.cons.injEq, and_true] at hnames
    rw [← hnames]
  subst hl1
  refine ⟨m, D', e, hl, fun o' ho' => ?_⟩
  obtain ⟨x1, x2⟩ := hXY o' ho'
  rw [x1, x2, h4, h5, h1]
  exact ⟨rfl, rfl⟩

end

end PyroMat.Igt.Props
