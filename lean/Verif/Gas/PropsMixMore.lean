import Verif.Gas.PropsMixture
import Verif.Gas.Examples

/-!
# C38: elemental composition of mixtures, disagreements and examples
-/

set_option linter.unusedSimpArgs false

namespace PyroMat.Gas.Props

open PyroMat PyroMat.Units PyroMat.Units.Spec PyroMat.Units.Props PyroMat.Gas PyroMat.Gas.Spec
open PyroMat.Gas.Mix PyroMat.Config.Defaults

/-- The number a table lists for a name; nothing listed counts as zero. -/
noncomputable def amount (l : List (String × ℝ)) (a : String) : ℝ := (l.lookup a).getD 0

theorem lookup_append_one (l : List (String × ℝ)) (a b : String) (n : ℝ) :
    (l ++ [(a, n)]).lookup b = (l.lookup b).or (if b = a then some n else none) := by
  induction l with
  | nil =>
    by_cases h : b = a
    · subst h; simp [List.lookup]
    · simp [List.lookup_cons, h, beq_false_of_ne h]
  | cons q l ih =>
    obtain ⟨k, v⟩ := q
    simp only [List.cons_append, List.lookup_cons]
    by_cases h : b = k
    · subst h; simp
    · simp [beq_false_of_ne h, ih]

theorem lookup_map_add (l : List (String × ℝ)) (a b : String) (n : ℝ) :
    (l.map (fun q => if q.1 = a then (a, q.2 + n) else q)).lookup b
      = (l.lookup b).map (fun v => if b = a then v + n else v) := by
  induction l with
  | nil => simp
  | cons q l ih =>
    obtain ⟨k, v⟩ := q
    simp only [List.map_cons]
    by_cases hq : k = a
    · subst hq
      simp only [if_true, List.lookup_cons]
      by_cases hb : b = k
      · subst hb; simp
      · simp [beq_false_of_ne hb, ih, hb]
    · simp only [hq, if_false, List.lookup_cons]
      by_cases hb : b = k
      · subst hb; simp [hq]
      · simp [beq_false_of_ne hb, ih]

theorem amount_addAtom (l : List (String × ℝ)) (a b : String) (n : ℝ) :
    amount (addAtom l a n) b = amount l b + if b = a then n else 0 := by
  unfold addAtom amount
  cases h : l.lookup a with
  | none =>
    simp only [lookup_append_one]
    by_cases hb : b = a
    · subst hb; simp [h]
    · simp [hb]
  | some v =>
    simp only [lookup_map_add]
    by_cases hb : b = a
    · subst hb; simp [h]
    · cases l.lookup b <;> simp [hb]

theorem keys_addAtom (l : List (String × ℝ)) (a : String) (n : ℝ) (h : (l.map (·.1)).Nodup) :
    ((addAtom l a n).map (·.1)).Nodup := by
  unfold addAtom
  cases hl : l.lookup a with
  | none =>
    simp only [List.map_append, List.map_cons, List.map_nil]
    rw [List.nodup_append]
    refine ⟨h, by simp, ?_⟩
    intro x hx y hy
    simp only [List.mem_singleton] at hy
    subst hy
    rintro rfl
    obtain ⟨q, hq, he⟩ := List.mem_map.mp hx
    rw [List.lookup_eq_none_iff] at hl
    exact absurd (hl q hq) (by simp [he])
  | some v =>
    simp only
    rw [List.map_map]
    convert h using 2
    funext q
    by_cases hq : q.1 = a <;> simp [hq]

theorem amount_cons (q : String × ℝ) (l : List (String × ℝ)) (a : String) (h : q.1 ∉ l.map (·.1)) :
    amount (q :: l) a = amount l a + if a = q.1 then q.2 else 0 := by
  obtain ⟨k, v⟩ := q
  unfold amount
  simp only [List.lookup_cons]
  by_cases ha : a = k
  · subst ha
    have : l.lookup a = none := by
      rw [List.lookup_eq_none_iff]
      intro p hp
      simp only [bne_iff_ne, ne_eq, beq_eq_false_iff_ne] at *
      rintro he
      simp only [List.mem_map, not_exists, not_and] at h
      exact h p hp (by simpa using he.symm)
    simp [this]
  · simp [beq_false_of_ne ha, ha]

theorem foldl_addAtom (as : List (String × ℝ)) (x : ℝ) (hn : (as.map (·.1)).Nodup)
    (acc : List (String × ℝ)) (hacc : (acc.map (·.1)).Nodup) :
    ((as.foldl (fun acc q => addAtom acc q.1 (q.2 * x)) acc).map (·.1)).Nodup ∧
    ∀ a, amount (as.foldl (fun acc q => addAtom acc q.1 (q.2 * x)) acc) a
      = amount acc a + x * amount as a := by
  induction as generalizing acc with
  | nil => exact ⟨hacc, fun a => by simp [amount]⟩
  | cons q as ih =>
    simp only [List.map_cons, List.nodup_cons] at hn
    obtain ⟨h1, h2⟩ := ih hn.2 (addAtom acc q.1 (q.2 * x)) (keys_addAtom _ _ _ hacc)
    refine ⟨h1, fun a => ?_⟩
    rw [List.foldl_cons, h2, amount_addAtom, amount_cons q as a hn.1]
    split <;> ring

theorem atomsLoop_eq {coll : Coll} (l : List Comp) (x : Comp → ℝ) (atoms : Comp → List (String × ℝ))
    (ha : ∀ c ∈ l, coll c.name = some (.gas c.gas (some (atoms c))))
    (hn : ∀ c ∈ l, ((atoms c).map (·.1)).Nodup) (acc : List (String × ℝ))
    (hacc : (acc.map (·.1)).Nodup) :
    ∃ A, atomsLoop coll (l.map (fun c => (c.name, x c))) acc = .ok A ∧ (A.map (·.1)).Nodup ∧
      ∀ a, amount A a = amount acc a + (l.map (fun c => x c * amount (atoms c) a)).sum := by
  induction l generalizing acc with
  | nil => exact ⟨acc, rfl, hacc, fun a => by simp⟩
  | cons c l ih =>
    simp only [List.map_cons, atomsLoop, ha c (by simp)]
    obtain ⟨k1, k2⟩ := foldl_addAtom (atoms c) (x c) (hn c (by simp)) acc hacc
    obtain ⟨A, h1, h2, h3⟩ := ih (fun d hd => ha d (by simp [hd])) (fun d hd => hn d (by simp [hd])) _ k1
    refine ⟨A, h1, h2, fun a => ?_⟩
    rw [h3, k2]
    simp [add_assoc]

section
variable {coll : Coll} {D : Entry} {cs : List Comp}

/-- C38, elements.  When all constituents list their atoms, `atoms()` of the mixture lists each
element once, with the mean of the constituents' numbers weighted by mole fraction. -/
theorem C38_atoms (hS : Sound coll D cs) (o : Obj) (ho : Used coll D o) (atoms : Comp → List (String × ℝ))
    (ha : ∀ c ∈ cs, coll c.name = some (.gas c.gas (some (atoms c))))
    (hn : ∀ c ∈ cs, ((atoms c).map (·.1)).Nodup) :
    ∃ A, (mAtoms coll D o).1 = .ok A ∧ (A.map (·.1)).Nodup ∧
      ∀ a, amount A a = (cs.map (fun c => moleFrac D.bymass cs c * amount (atoms c) a)).sum := by
  obtain ⟨O, L, H, hO, hbs, hx, -⟩ := bootstrap_new hS
  obtain ⟨A, h1, h2, h3⟩ := atomsLoop_eq cs (moleFrac D.bymass cs) atoms ha hn [] (by simp)
  refine ⟨A, ?_, h2, fun a => by rw [h3]; simp [amount]⟩
  unfold mAtoms
  rw [bootstrap_used (listed_of_sound hS) ho, hO]
  simp only [hx]
  exact h1

/-- C65, first use.  A mixture that lists a species that is not in the collection, or not an
ideal gas of the two supported classes, raises the data error on first use, whatever is called.
Missing from the full property: on later uses it does not (`C65_failed_setup_defect`). -/
theorem C65_first_use_partial (coll : Coll) (D : Entry) (α : Type) (u : Bool) (f : Gas → Except Err α)
    (h : ∃ q ∈ D.contents, ∀ G as, coll q.1 ≠ some (.gas G as)) :
    (call coll D {} u f).1 = some (.error .data) := by
  have key : ∀ (l : List (String × ℝ)) (t : Tally), (∃ q ∈ l, ∀ G as, coll q.1 ≠ some (.gas G as)) →
      (loop coll D.bymass l t).2 = some .data := by
    intro l
    induction l with
    | nil => simp
    | cons q l ih =>
      intro t hq
      unfold loop
      split
      · rename_i G as hc
        refine ih _ ?_
        obtain ⟨r, hr, hn⟩ := hq
        rcases List.mem_cons.mp hr with rfl | hr
        · exact absurd hc (hn G as)
        · exact ⟨r, hr, hn⟩
      · rfl
  unfold call bootstrap
  simp only [Bool.false_eq_true, if_false]
  rw [key _ _ h]

theorem listed_sum (f : Comp → ℝ) (h : ∀ c ∈ cs, c.qty = 0 → f c = 0) (h0 : ∀ c ∈ cs, 0 ≤ c.qty) :
    (cs.map f).sum = ((cs.filter (fun c => decide (0 < c.qty))).map f).sum := by
  induction cs with
  | nil => rfl
  | cons c cs ih =>
    have ih' := ih (fun d hd => h d (by simp [hd])) (fun d hd => h0 d (by simp [hd]))
    by_cases hc : 0 < c.qty
    · simp [List.filter_cons, hc, ih']
    · have : c.qty = 0 := le_antisymm (not_lt.mp hc) (h0 c (by simp))
      simp [List.filter_cons, hc, ih', h c (by simp) this]

/-- A listed mixture with zero amounts as a gas. -/
theorem listed_mixture (hL : Listed coll D cs) : ∃ M, IsMixture coll D M ∧
    (∀ c ∈ cs, c.gas.Tlo ≤ M.Tlo) ∧ (∀ c ∈ cs, M.Thi ≤ c.gas.Thi) ∧
    M.mw = (cs.map (fun c => moleFrac D.bymass cs c * c.gas.mw)).sum ∧
    M.cp = sumCp (cs.map (fun c => (moleFrac D.bymass cs c, c.gas))) ∧
    M.h = hM (cs.map (fun c => (moleFrac D.bymass cs c, c.gas))) := by
  obtain ⟨O, L, H, hO, hbs, hx, hy, hlo, hhi, hm, hmw, hp, l1, l2, l3, l4⟩ := bootstrap_listed hL
  refine ⟨{ Tlo := L, Thi := H, mw := O.mw, pref := O.pref, cp := sumCp (cs.map (fun c => (moleFrac D.bymass cs c, c.gas))), h := hM (cs.map (fun c => (moleFrac D.bymass cs c, c.gas))), s := sM (cs.map (fun c => (moleFrac D.bymass cs c, c.gas))) (O.smix.getD none), g := gM (cs.map (fun c => (moleFrac D.bymass cs c, c.gas))) (O.smix.getD none) },
    ?_, l1, l3, hmw, rfl, rfl⟩
  intro o ho α u f
  unfold call
  rw [bootstrap_used hL ho, hO]
  simp only [hm, Option.isNone_some, Bool.and_false, Bool.false_eq_true, if_false]
  unfold toGas
  rw [hx, species_eq hL.found, hlo, hhi]
  simp [hm]

/-- C64, the part that holds.  Constituents listed with amount zero change neither the enthalpy,
internal energy and heat capacities nor the fractions of the others: at any state where the mixture
`D` works, it gives what the mixture `D'` gives that lists only the constituents present.
Missing from the full property: the entropy (see `C64_zero_amount_defect`); and the limits of `D`
may be narrower. -/
theorem C64_energies_partial (hL : Listed coll D cs) (hc : ∀ c ∈ cs, Coherent c.gas) (D' : Entry)
    (hb : D'.bymass = D.bymass)
    (hD' : D'.contents = (cs.filter (fun c => decide (0 < c.qty))).map (fun c => (c.name, c.qty))) :
    ∃ M M', IsMixture coll D M ∧ IsMixture coll D' M' ∧ ∀ (E : Env) (S : Sys), Uses E S → ∀ t p : ℝ,
      M.Tlo ≤ toKelvin S.T.name t → toKelvin S.T.name t ≤ M.Thi →
      ∀ q : Quantity, (q = .h ∨ q = .e ∨ q = .cp ∨ q = .cv) →
        ∃ r, Gives E M [.scalar t, .scalar p] [] q 0 r ∧ Gives E M' [.scalar t, .scalar p] [] q 0 r := by
  set cs' := cs.filter (fun c => decide (0 < c.qty)) with hcs'
  have hsub : ∀ c ∈ cs', c ∈ cs := fun c hc => (List.mem_filter.mp hc).1
  have hL' : Listed coll D' cs' := {
    listed := hD'
    found := fun c hc => hL.found c (hsub c hc)
    qty := fun c hc => hL.qty c (hsub c hc)
    positive := by
      obtain ⟨c, hc, hp⟩ := hL.positive
      exact ⟨c, List.mem_filter.mpr ⟨hc, by simpa using hp⟩, hp⟩
    mw := fun c hc => hL.mw c (hsub c hc) }
  obtain ⟨M, hM, lo, hi, mw, mcp, mh⟩ := listed_mixture hL
  obtain ⟨-, p1, -⟩ := listed_moles hL
  obtain ⟨-, p1', -⟩ := listed_moles hL'
  have hmol0 : ∀ c ∈ cs, c.qty = 0 → moles D.bymass c = 0 := by
    intro c _ h0; unfold moles; rw [h0]; simp
  have htot : (cs.map (moles D.bymass)).sum = (cs'.map (moles D.bymass)).sum :=
    listed_sum _ hmol0 hL.qty
  have hfrac : ∀ c, moleFrac D'.bymass cs' c = moleFrac D.bymass cs c := by
    intro c; unfold moleFrac; rw [htot, hb]
  have hsum : ∀ v : Comp → ℝ, (cs.map (fun c => moleFrac D.bymass cs c * v c)).sum
      = (cs'.map (fun c => moleFrac D'.bymass cs' c * v c)).sum := by
    intro v
    simp only [hfrac]
    refine listed_sum _ (fun c hc h0 => ?_) hL.qty
    unfold moleFrac; rw [hmol0 c hc h0]; simp
  obtain ⟨O', L', H', hO', hbs', hx', hy', hlo', hhi', hm', hmw', hp', l1', l2', l3', l4'⟩ := bootstrap_listed hL'
  obtain ⟨M', hM', e'⟩ : ∃ M', IsMixture coll D' M' ∧ M'.Tlo = L' ∧ M'.Thi = H' ∧
      M'.mw = (cs'.map (fun c => moleFrac D'.bymass cs' c * c.gas.mw)).sum ∧
      M'.cp = sumCp (cs'.map (fun c => (moleFrac D'.bymass cs' c, c.gas))) ∧
      M'.h = Mix.hM (cs'.map (fun c => (moleFrac D'.bymass cs' c, c.gas))) := by
    refine ⟨{ Tlo := L', Thi := H', mw := O'.mw, pref := O'.pref, cp := sumCp (cs'.map (fun c => (moleFrac D'.bymass cs' c, c.gas))), h := Mix.hM (cs'.map (fun c => (moleFrac D'.bymass cs' c, c.gas))), s := sM (cs'.map (fun c => (moleFrac D'.bymass cs' c, c.gas))) (O'.smix.getD none), g := gM (cs'.map (fun c => (moleFrac D'.bymass cs' c, c.gas))) (O'.smix.getD none) },
      ?_, rfl, rfl, hmw', rfl, rfl⟩
    intro o ho α u f
    unfold call
    rw [bootstrap_used hL' ho, hO']
    simp only [hm', Option.isNone_some, Bool.and_false, Bool.false_eq_true, if_false]
    unfold toGas
    rw [hx', species_eq hL'.found, hlo', hhi']
    simp [hm']
  obtain ⟨eL, eH, emw', ecp', eh'⟩ := e'
  have emw : M.mw = M'.mw := by rw [mw, emw', hsum]
  have hmwpos : 0 < M.mw := by
    rw [mw]
    obtain ⟨c, hc, hp⟩ := hL.positive
    refine sum_pos_some _ (fun d hd => ?_) ⟨c, hc, ?_⟩
    · have h1 := (listed_moles hL).1 d hd
      have h2 := (hL.mw d hd).le
      unfold moleFrac; positivity
    · have h1 : 0 < moles D.bymass c := by
        have := hL.mw c hc
        unfold moles; split <;> positivity
      have := hL.mw c hc
      unfold moleFrac; positivity
  refine ⟨M, M', hM, hM', ?_⟩
  intro E S hU t p h1 h2 q hq
  set T := toKelvin S.T.name t with hT
  have : ∀ c : Comp, ∃ r : ℝ × ℝ, c ∈ cs → c.gas.h T = some (r.1, r.2) ∧ c.gas.cp T = some r.2 := by
    intro c
    by_cases hcs : c ∈ cs
    · obtain ⟨h, s, cp, sT, gT, k1, k2, -⟩ := hc c hcs T ((lo c hcs).trans h1) (h2.trans (hi c hcs))
      exact ⟨(h, cp), fun _ => ⟨k1, k2⟩⟩
    · exact ⟨(0, 0), fun h => absurd h hcs⟩
  choose r hr using this
  have vh : M.h T = M'.h T := by
    rw [mh, eh']
    unfold Mix.hM
    rw [sumPair_eq Gas.h cs _ T (fun c => (r c).1) (fun c => (r c).2) (fun c h => (hr c h).1),
      sumPair_eq Gas.h cs' _ T (fun c => (r c).1) (fun c => (r c).2) (fun c h => (hr c (hsub c h)).1),
      hsum, hsum]
  have vcp : M.cp T = M'.cp T := by
    rw [mcp, ecp', sumCp_eq cs _ T (fun c => (r c).2) (fun c h => (hr c h).2),
      sumCp_eq cs' _ T (fun c => (r c).2) (fun c h => (hr c (hsub c h)).2), hsum]
  have sh : ∃ a b, M.h T = some (a, b) := by
    rw [mh]; unfold Mix.hM
    exact ⟨_, _, sumPair_eq Gas.h cs _ T (fun c => (r c).1) (fun c => (r c).2) (fun c h => (hr c h).1)⟩
  have scp : ∃ a, M.cp T = some a := by
    rw [mcp]
    exact ⟨_, sumCp_eq cs _ T (fun c => (r c).2) (fun c h => (hr c h).2)⟩
  have h1' : M'.Tlo ≤ T := by
    rw [eL]
    obtain ⟨c, hc, he⟩ := l2'
    rw [he]
    exact (lo c (hsub c hc)).trans h1
  have h2' : T ≤ M'.Thi := by
    rw [eH]
    obtain ⟨c, hc, he⟩ := l4'
    rw [he]
    exact h2.trans (hi c (hsub c hc))
  have g := fun y => gives_Tp hU hmwpos.ne' (p := p) h1 h2 (q := q) (y := y)
  have g' := fun y => gives_Tp hU (emw ▸ hmwpos.ne') (p := p) h1' h2' (q := q) (y := y)
  obtain ⟨a, b, sh⟩ := sh
  obtain ⟨a', scp⟩ := scp
  rw [sh] at vh
  rw [scp] at vcp
  rcases hq with rfl | rfl | rfl | rfl
  · exact ⟨inUnits E.a S M.mw .energy a, g _ (by simp only [value, Gas.hI, ← hT, sh, Option.bind_some, Option.map_some]),
      g' _ (by simp only [value, Gas.hI, ← hT, ← vh, Option.bind_some, Option.map_some, emw])⟩
  · exact ⟨inUnits E.a S M.mw .energy (a - Ru * T), g _ (by simp only [value, Gas.eI, ← hT, sh, Option.bind_some, Option.map_some]),
      g' _ (by simp only [value, Gas.eI, ← hT, ← vh, Option.bind_some, Option.map_some, emw])⟩
  · exact ⟨inUnits E.a S M.mw .entropy a', g _ (by simp only [value, Gas.cpI, ← hT, scp, Option.bind_some, Option.map_some]),
      g' _ (by simp only [value, Gas.cpI, ← hT, ← vcp, Option.bind_some, Option.map_some, emw])⟩
  · exact ⟨inUnits E.a S M.mw .entropy (a' - Ru), g _ (by simp only [value, Gas.cvI, ← hT, scp, Option.bind_some, Option.map_some]),
      g' _ (by simp only [value, Gas.cvI, ← hT, ← vcp, Option.bind_some, Option.map_some, emw])⟩

end

/-! ## Examples and disagreements -/

/-- A collection with two ideal gases of constant heat capacity. -/
noncomputable def pairColl : Coll := fun n =>
  if n = "ig.A" then some (.gas (ig constData) (some [("A", 1)]))
  else if n = "ig.B" then some (.gas (ig2 { constData with mw := 2 }) (some [("B", 2)]))
  else none

theorem pairColl_A : pairColl "ig.A" = some (.gas (ig constData) (some [("A", 1)])) := rfl

/-- Two constituents listed by mass. -/
noncomputable def pairComps : List Comp :=
  [⟨"ig.A", 0.7, ig constData⟩, ⟨"ig.B", 0.1, ig2 { constData with mw := 2 }⟩]

/-- The hypotheses of the C38 theorems are met by a mixture of two constituents given by mass. -/
theorem pair_sound : Sound pairColl ⟨[("ig.A", 0.7), ("ig.B", 0.1)], true⟩ pairComps where
  listed := rfl
  distinct := by simp [pairComps]
  nonempty := by simp [pairComps]
  found := by
    intro c hc
    simp only [pairComps, List.mem_cons, List.not_mem_nil, or_false] at hc
    rcases hc with rfl | rfl
    · exact ⟨_, rfl⟩
    · exact ⟨_, rfl⟩
  qty := by
    intro c hc
    simp only [pairComps, List.mem_cons, List.not_mem_nil, or_false] at hc
    rcases hc with rfl | rfl <;> norm_num
  mw := by
    intro c hc
    simp only [pairComps, List.mem_cons, List.not_mem_nil, or_false] at hc
    rcases hc with rfl | rfl <;> norm_num [ig, ig2, constData]
  pref := by
    intro c hc
    simp only [pairComps, List.mem_cons, List.not_mem_nil, or_false] at hc
    rcases hc with rfl | rfl <;> norm_num [ig, ig2, constData]

/-- Its constituents are coherent, and it works at 300 K. -/
example : (∀ c ∈ pairComps, Coherent c.gas) ∧ ∃ M, IsMixture pairColl ⟨[("ig.A", 0.7), ("ig.B", 0.1)], true⟩ M ∧
    M.Tlo ≤ toKelvin kmolSys.T.name (300:ℝ) ∧ toKelvin kmolSys.T.name (300:ℝ) ≤ M.Thi := by
  constructor
  · intro c hc
    simp only [pairComps, List.mem_cons, List.not_mem_nil, or_false] at hc
    rcases hc with rfl | rfl
    · exact coherent_ig _ constData_wf
    · exact coherent_ig2 _ (by constructor <;> norm_num [constData])
  · obtain ⟨M, hM⟩ := C38_usable pair_sound
    obtain ⟨-, -, ⟨c1, m1, e1⟩, -, ⟨c2, m2, e2⟩⟩ := mixture_eq pair_sound hM
    refine ⟨M, hM, ?_, ?_⟩
    · rw [e1]
      show c1.gas.Tlo ≤ (300:ℝ)
      simp only [pairComps, List.mem_cons, List.not_mem_nil, or_false] at m1
      rcases m1 with rfl | rfl <;> norm_num [ig, ig2, constData]
    · rw [e2]
      show (300:ℝ) ≤ c2.gas.Thi
      simp only [pairComps, List.mem_cons, List.not_mem_nil, or_false] at m2
      rcases m2 with rfl | rfl <;> norm_num [ig, ig2, constData]

/-- The hypotheses of C64 are met by a mixture with a constituent of amount zero. -/
example : Listed pairColl ⟨[("ig.A", 1), ("ig.B", 0)], false⟩
    [⟨"ig.A", 1, ig constData⟩, ⟨"ig.B", 0, ig2 { constData with mw := 2 }⟩] where
  listed := rfl
  found := by
    intro c hc
    simp only [List.mem_cons, List.not_mem_nil, or_false] at hc
    rcases hc with rfl | rfl <;> exact ⟨_, rfl⟩
  qty := by
    intro c hc
    simp only [List.mem_cons, List.not_mem_nil, or_false] at hc
    rcases hc with rfl | rfl <;> norm_num
  positive := ⟨_, List.mem_cons_self, by norm_num⟩
  mw := by
    intro c hc
    simp only [List.mem_cons, List.not_mem_nil, or_false] at hc
    rcases hc with rfl | rfl <;> norm_num [ig, ig2, constData]

/-- Heat capacity of a mixture by the call `cp(300, 1e5)`, units K, Pa, kJ, kmol. -/
noncomputable def cpCall (D : Entry) (o : Obj) : Option (Except Err (List Nan)) × Obj :=
  call pairColl D o false (fun G => mCp kmolEnv G [.scalar 300, .scalar 1e5] [])

/-- C65 fails: the first call on a mixture with a missing species raises the
data error, but the object is then marked as set up, and the second call returns an unnormalised
sum (60 for a gas of heat capacity 30). -/
theorem C65_failed_setup_defect : (cpCall ⟨[("ig.A", 2), ("ig.X", 1)], false⟩ {}).1 = some (.error .data) ∧
    (cpCall ⟨[("ig.A", 2), ("ig.X", 1)], false⟩ (cpCall ⟨[("ig.A", 2), ("ig.X", 1)], false⟩ {}).2).1
      = some (.ok [some 60]) := by
  set D : Entry := ⟨[("ig.A", 2), ("ig.X", 1)], false⟩ with hD
  set t0 : Tally := ⟨0, 0, { ({} : Obj) with bs := true, x := [], y := [], mw := 0, pref := 0, lo := none, hi := none }⟩ with ht0
  have hl : loop pairColl D.bymass D.contents t0 = (step false "ig.A" 2 (ig constData) t0, some .data) := rfl
  have hb : bootstrap pairColl D {} = (.error .data, (step false "ig.A" 2 (ig constData) t0).o) := by
    unfold bootstrap
    simp only [Bool.false_eq_true, if_false]
    rw [hl]
  set O := (step false "ig.A" 2 (ig constData) t0).o with hO
  have e1 : cpCall D {} = (some (.error .data), O) := by
    unfold cpCall call
    rw [hb]
  rw [e1]
  refine ⟨rfl, ?_⟩
  have hbs : O.bs = true := rfl
  have hx : species pairColl O.x = some [(2, ig constData)] := rfl
  have hlo : O.lo = some 200 := rfl
  have hhi : O.hi = some 600 := rfl
  have hmw : O.mw = 56 := by
    show (0:ℝ) + 28 * 2 = 56
    norm_num
  unfold cpCall call
  rw [bootstrap_done hbs]
  simp only [Bool.false_and, Bool.false_eq_true, if_false]
  unfold toGas
  rw [hx, hlo, hhi]
  simp only [Option.map_some, Option.some.injEq]
  refine (method_Tp kmolEnv_uses ?_ 300 1e5 ?_ ?_ .cp).trans ?_
  · simp only [hmw]; norm_num
  · show (200:ℝ) ≤ 300; norm_num
  · show (300:ℝ) ≤ 600; norm_num
  · have hT : (toKelvin kmolSys.T.name 300 : ℝ) = 300 := rfl
    have hcp : (ig constData).cp 300 = some 30 := by
      refine (const_piece 300 (by norm_num) (by norm_num) _ Sho.cp).trans ?_
      norm_num [Sho.cp]
    have hs : sumCp [(2, ig constData)] 300 = some 60 := by
      simp only [sumCp, List.foldl_cons, List.foldl_nil, hcp]
      norm_num [nan2]
    simp only [value, Gas.cpI, hT, Option.bind_some, hs, Option.map_some]
    have e1 : size (energy : Conv ℝ) kmolSys.e = 1000 := rfl
    have e2 : size (temperature : Conv ℝ) kmolSys.T.name = 1.8 := rfl
    have e3 : msize kmolEnv.a O.mw kmolSys.m = 1 := by
      have : matterScale (SetupArgs.default : SetupArgs ℝ) O.mw "kmol" = some 1 := rfl
      show ((matterScale (SetupArgs.default : SetupArgs ℝ) O.mw "kmol").getD 1) = 1
      rw [this]; rfl
    simp only [inUnits]
    rw [e1, e2, e3]
    norm_num

/-- C64 fails for the entropy: with a second constituent listed with amount zero the entropy of the
mixture is NaN. -/
theorem C64_zero_amount_defect : (call pairColl ⟨[("ig.A", 1), ("ig.B", 0)], false⟩ {} true
    (fun G => mS kmolEnv G [.scalar 300, .scalar 1e5] [])).1 = some (.ok [none]) := by
  set D : Entry := ⟨[("ig.A", 1), ("ig.B", 0)], false⟩ with hD
  set t0 : Tally := ⟨0, 0, { ({} : Obj) with bs := true, x := [], y := [], mw := 0, pref := 0, lo := none, hi := none }⟩ with ht0
  set t := step false "ig.B" 0 (ig2 { constData with mw := 2 }) (step false "ig.A" 1 (ig constData) t0) with ht
  have hl : loop pairColl D.bymass D.contents t0 = (t, none) := rfl
  have h1 : t.tx = 1 := by show (0:ℝ) + 1 + 0 = 1; norm_num
  have h2 : t.ty = 28 := by show (0:ℝ) + 1 * 28 + 0 * 2 = 28; norm_num
  have h3 : t.o.x = [("ig.A", 1), ("ig.B", 0)] := rfl
  have hb : bootstrap pairColl D {} = finish t := by
    unfold bootstrap
    simp only [Bool.false_eq_true, if_false]
    rw [hl]
  have hn : ¬ (t.tx = 0 ∨ t.ty = 0) := by rw [h1, h2]; norm_num
  have hx : t.o.x.map (fun q => (q.1, q.2 / t.tx)) = [("ig.A", 1), ("ig.B", 0)] := by
    rw [h3, h1]; simp
  have hsm : smixOf [("ig.A", 1), ("ig.B", 0)] = none := by
    simp [smixOf, xlogx, nan2]
  have hlo : t.o.lo = some 200 := by show some (max (200:ℝ) 200) = some 200; simp
  have hhi : t.o.hi = some 600 := by show some (min (600:ℝ) 600) = some 600; simp
  have hmw : t.o.mw = 28 := by show (0:ℝ) + 28 * 1 + 2 * 0 = 28; norm_num
  have hsp : species pairColl [("ig.A", 1), ("ig.B", 0)] = some [(1, ig constData), (0, ig2 { constData with mw := 2 })] := rfl
  unfold call
  rw [hb]
  unfold finish
  rw [if_neg hn]
  simp only [hx, hsm, Option.isNone_some, Bool.and_false, Bool.false_eq_true, if_false]
  unfold toGas
  simp only [hsp, hlo, hhi, Option.map_some, Option.some.injEq]
  refine (method_Tp kmolEnv_uses ?_ 300 1e5 ?_ ?_ .s).trans ?_
  · simp only [hmw, h1]; norm_num
  · show (200:ℝ) ≤ 300; norm_num
  · show (300:ℝ) ≤ 600; norm_num
  · simp only [value, Gas.sI, sM, Option.getD_some, Option.map_none, Option.bind_some]
    cases sumPair Gas.s [(1, ig constData), (0, ig2 { constData with mw := 2 })] (toKelvin kmolSys.T.name 300) <;> rfl

end PyroMat.Gas.Props
