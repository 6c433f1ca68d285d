import Mathlib.Tactic.Linarith
import Mathlib.Tactic.Positivity
import Mathlib.Algebra.Order.BigOperators.Group.Finset
import Mathlib.Algebra.BigOperators.Field
import Verif.Igt.PropsArith
import Verif.Gas.PropsMixture

/-!
# Mass, moles, atoms (C40), fractions (C41) and temperature limits (C43)
-/

namespace PyroMat.Igt.Props

open PyroMat PyroMat.Gas PyroMat.Igt PyroMat.Igt.Spec
open PyroMat.Units PyroMat.Units.Spec PyroMat.Units.Props PyroMat.Gas.Spec PyroMat.Gas.Props
open scoped BigOperators

set_option linter.unusedSectionVars false

variable {σ : Type} [DecidableEq σ]

/-! ## Weighted sums -/

theorem amount_absent (m : Mix σ) {s : σ} (h : s ∉ m.c) (i : List Nat) : amount m s i = 0 := by
  unfold amount
  refine Finset.sum_eq_zero fun r _ => ?_
  rw [if_neg]
  intro hr
  exact h (List.mem_of_getElem? hr)

/-- The weighted sum may be taken over any larger set of substances. -/
theorem weigh_superset (w : σ → ℝ) (m : Mix σ) (i : List Nat) (F : Finset σ)
    (h : m.c.toFinset ⊆ F) : weigh w m i = ∑ s ∈ F, w s * amount m s i := by
  unfold weigh
  refine Finset.sum_subset h fun s _ hs => ?_
  rw [amount_absent m (by simpa using hs), mul_zero]

/-- Row by row. -/
theorem weigh_rows (w : σ → ℝ) (m : Mix σ) (i : List Nat) :
    weigh w m i =
      ∑ r ∈ Finset.range m.c.length, (m.c[r]?.map w).getD 0 * m.q.val (r :: i) := by
  unfold weigh amount
  simp only [Finset.mul_sum]
  rw [Finset.sum_comm]
  refine Finset.sum_congr rfl fun r hr => ?_
  have hr' := Finset.mem_range.mp hr
  rw [List.getElem?_eq_getElem hr']
  simp only [Option.some.injEq, Option.map_some, Option.getD_some, mul_ite, mul_zero]
  rw [Finset.sum_ite_eq]
  rw [if_pos (by simp)]

theorem weigh_const (k : ℝ) (m : Mix σ) (i : List Nat) :
    weigh (fun _ => k) m i = k * total m i := by
  rw [weigh_rows, total, Finset.mul_sum]
  refine Finset.sum_congr rfl fun r hr => ?_
  rw [List.getElem?_eq_getElem (Finset.mem_range.mp hr)]
  rfl

/-- Weighted sums of a sum of mixtures. -/
theorem weigh_add (w : σ → ℝ) (a b : Mix σ) (ha : Wf a) (hb : Wf b) (h : Compat a.shape b.shape)
    (r : Mix σ) (hr : add a b = .ok r) (i : List Nat) (hi : Within i r.shape) :
    weigh w r i = weigh w a (src a.shape i) + weigh w b (src b.shape i) := by
  obtain ⟨r', e, _, _, hm, hv⟩ := C39_add_partial a b ha hb h
  have : r' = r := by rw [hr] at e; cases e; rfl
  subst this
  rw [weigh_superset w a _ r'.c.toFinset (fun s hs => by simp at hs ⊢; exact (hm s).mpr (Or.inl hs)),
    weigh_superset w b _ r'.c.toFinset (fun s hs => by simp at hs ⊢; exact (hm s).mpr (Or.inr hs)),
    ← Finset.sum_add_distrib]
  unfold weigh
  refine Finset.sum_congr rfl fun s _ => ?_
  rw [hv s i hi]; ring

/-! ## Unit factors -/

section units
variable {E : Env} {S : Sys} {um un : String}

theorem massSize_pos (hW : Works E S um un) : 0 < size (Units.mass E.a) um :=
  C04_factors_positive E.a hW.uses.pos _ (by simp [allConvs]) _
    (lookup_mem (size_lookup hW.uses hW.massUnit))

theorem molarSize_pos (hW : Works E S um un) : 0 < size (Units.molar E.a) un :=
  C04_factors_positive E.a hW.uses.pos _ (by simp [allConvs]) _
    (lookup_mem (size_lookup hW.uses hW.molarUnit))

/-- The molecular weight a substance reports. -/
theorem userMw_eq (hW : Works E S um un) (L : Lib σ) (s : σ) :
    userMw E L s = .ok ((L.gas s).mw * (size (Units.molar E.a) un / size (Units.mass E.a) um)) := by
  have h := mMw_eq hW.uses hW.mass hW.massUnit hW.molar hW.molarUnit (L.gas s)
  unfold userMw
  cases L.cls s <;> first | exact h.1 | exact h.2

/-- The reported molecular weight as a number. -/
noncomputable def wU (E : Env) (um un : String) (L : Lib σ) (s : σ) : ℝ :=
  (L.gas s).mw * (size (Units.molar E.a) un / size (Units.mass E.a) um)

theorem wU_pos (hW : Works E S um un) {L : Lib σ} {s : σ} (h : 0 < (L.gas s).mw) :
    0 < wU E um un L s :=
  mul_pos h (div_pos (molarSize_pos hW) (massSize_pos hW))

/-- The factor of a quantity conversion between two matter units. -/
theorem matterFactor_eq (hW : Works E S um un) (L : Lib σ) (s : σ) (h : 0 < (L.gas s).mw)
    (f t : Option String) (fu tu : String) (hf : f = some fu ∨ f = none ∧ fu = S.m)
    (ht : t = some tu ∨ t = none ∧ tu = S.m) (hfu : IsMatterUnit E.a fu) (htu : IsMatterUnit E.a tu) :
    matterFactor E L s f t =
      .ok (msize E.a (wU E um un L s) fu / msize E.a (wU E um un L s) tu) := by
  have hw := (wU_pos hW h).ne'
  obtain ⟨x, hx⟩ := matterScale_isSome E.a (wU E um un L s) fu hfu
  obtain ⟨y, hy⟩ := matterScale_isSome E.a (wU E um un L s) tu htu
  have ex : msize E.a (wU E um un L s) fu = x := by unfold msize; rw [hx]; rfl
  have ey : msize E.a (wU E um un L s) tu = y := by unfold msize; rw [hy]; rfl
  obtain ⟨r, h1, h2⟩ := matter_ret E.a hW.uses.pos _ hw fu tu x y hx hy E.c.str (.scalar 1) none false
  have e : matter E.a E.c.str (.scalar 1) (wU E um un L s) f t none false = .ok r := by
    rw [← h1]
    rcases hf with rfl | ⟨rfl, rfl⟩
    · rcases ht with rfl | ⟨rfl, rfl⟩
      · rfl
      · exact (matter_none hW.uses.m _ none false fu).2
    · rcases ht with rfl | ⟨rfl, rfl⟩
      · exact (matter_none hW.uses.m _ none false tu).1
      · unfold matter
        rw [hW.uses.m]
        simp only [bind, Except.bind, pure, Except.pure]
  unfold matterFactor
  rw [userMw_eq hW L s, exbind_ok]
  have e' := e
  unfold wU at e'
  rw [e', ex, ey]
  simp [scalarOf, exOk, h2, Units.Val.map, powS]

theorem kmol_unit (E : Env) : IsMatterUnit E.a "kmol" := Or.inr rfl

theorem msize_kmol (E : Env) (mw : ℝ) : msize E.a mw "kmol" = 1 := rfl

theorem msize_mass (hW : Works E S um un) (mw : ℝ) :
    msize E.a mw um = size (Units.mass E.a) um / mw := by
  unfold msize matterScale
  rw [size_lookup hW.uses hW.massUnit]; rfl

theorem msize_ne (hW : Works E S um un) {mw : ℝ} (h : mw ≠ 0) {u : String} (hu : IsMatterUnit E.a u) :
    msize E.a mw u ≠ 0 := by
  obtain ⟨x, hx⟩ := matterScale_isSome E.a mw u hu
  have : msize E.a mw u = x := by unfold msize; rw [hx]; rfl
  rw [this]
  exact matterScale_ne E.a hW.uses.pos mw h u x hx

theorem mapM_ok {α β : Type} (f : α → Except Err β) (g : α → β) (l : List α)
    (h : ∀ x ∈ l, f x = .ok (g x)) : l.mapM f = .ok (l.map g) := by
  induction l with
  | nil => rfl
  | cons x xs ih =>
    rw [List.mapM_cons, h x (by simp), exbind_ok, ih (fun y hy => h y (by simp [hy]))]
    rfl

/-- `mass()` in general: every kilomole counts the reported molecular weight. -/
theorem mass_eq (hW : Works E S um un) (L : Lib σ) (m : Mix σ) (hm : Weighs L m) :
    ∃ A, mMass E L m = .ok A ∧ A.shape = m.shape ∧
      ∀ i, A.val i = weigh (fun s => wU E um un L s / size (Units.mass E.a) um) m i := by
  have hf : ∀ s ∈ m.c, matterFactor E L s (some "kmol") (some um) =
      .ok (wU E um un L s / size (Units.mass E.a) um) := by
    intro s hs
    rw [matterFactor_eq hW L s (hm s hs) _ _ "kmol" um (Or.inl rfl) (Or.inl rfl) (kmol_unit E)
      (Or.inl hW.massUnit), msize_kmol, msize_mass hW]
    congr 1
    have := (wU_pos hW (hm s hs)).ne'
    have := (massSize_pos hW).ne'
    field_simp
  unfold mMass
  rw [hW.mass, exbind_ok, mapM_ok _ _ _ hf, exbind_ok]
  refine ⟨_, rfl, rfl, fun i => ?_⟩
  rw [weigh_rows]
  show (∑ r ∈ Finset.range m.c.length, m.q.val (r :: i) *
    (m.c.map (fun s => wU E um un L s / size (Units.mass E.a) um)).getD r 0) = _
  refine Finset.sum_congr rfl fun r hr => ?_
  rw [mul_comm, List.getD_eq_getElem?_getD, List.getElem?_map]

theorem scalarOf_call2 (hU : Uses E S) {c : Conv ℝ} (hc : NonZero c) {u w : String}
    (hcu : c.contains u = true) {y : ℝ}
    (hy : c.table.lookup w = some y) (x : ℝ) (e : Option ℤ) (ip : Bool) :
    scalarOf (c.call E.c.str (.scalar x) (some w) (some u) e ip) = .ok (x * powS (y / size c u) e) := by
  obtain ⟨r, h1, h2⟩ := call_ret hc hy (size_lookup hU hcu) E.c.str (.scalar x) e ip
  rw [h1]
  simp [scalarOf, exOk, h2, Units.Val.map]

theorem molar_factor (hW : Works E S um un) :
    scalarOf ((Units.molar E.a).call E.c.str (.scalar 1) (some "kmol") (some un) none false) =
      .ok (1 / size (Units.molar E.a) un) := by
  have n2 : NonZero (Units.molar E.a) := nonZero_of_mem hW.uses.pos (by simp [allConvs])
  rw [scalarOf_call2 hW.uses n2 hW.molarUnit (y := 1) rfl]
  simp [powS]

/-- **C40.** `molar()` is the total amount of substance in the configured molar unit. -/
theorem C40_molar (hW : Works E S um un) (m : Mix σ) :
    ∃ A, mMolar E m = .ok A ∧ A.shape = m.shape ∧
      ∀ i, A.val i = weigh (fun _ => 1) m i / size (Units.molar E.a) un := by
  unfold mMolar
  rw [hW.molar, exbind_ok, molar_factor hW, exbind_ok]
  refine ⟨_, rfl, rfl, fun i => ?_⟩
  rw [weigh_const]
  show total m i * (1 / _) = _
  ring

/-- **C40, partial.** With consistent mass and molar units (kg and kmol, g and mol, ...) `mass()`
is the sum of amount times molecular weight, in the configured mass unit, and equals `molar()`
times `mw()`.  Missing: other pairs of units, see `C40_mass_defect`. -/
theorem C40_mass_partial (hW : Works E S um un) (hC : Consistent E um un) (L : Lib σ) (m : Mix σ)
    (hm : Weighs L m) :
    ∃ A, mMass E L m = .ok A ∧ A.shape = m.shape ∧
      ∀ i, A.val i = weigh (fun s => (L.gas s).mw) m i / size (Units.mass E.a) um := by
  obtain ⟨A, e, hs, hv⟩ := mass_eq hW L m hm
  refine ⟨A, e, hs, fun i => ?_⟩
  rw [hv i]
  unfold weigh
  rw [Finset.sum_div]
  refine Finset.sum_congr rfl fun s _ => ?_
  unfold wU
  rw [hC, div_self (molarSize_pos hW).ne']
  ring

theorem mwKeys_ok {L : Lib σ} {m : Mix σ} (h : ∀ s ∈ m.c, L.cls s ≠ .igmix) : mwKeys L m = .ok () := by
  unfold mwKeys
  rw [if_neg]
  simpa using h

theorem mwMix_eq (hW : Works E S um un) (L : Lib σ) (m : Mix σ)
    (hk : ∀ s ∈ m.c, L.cls s ≠ .igmix) :
    ∃ A, mMwMix E L m = .ok A ∧ A.shape = m.shape ∧
      ∀ i, A.val i = weigh (fun s => (L.gas s).mw) m i / weigh (fun _ => 1) m i *
        (size (Units.molar E.a) un / size (Units.mass E.a) um) := by
  have n1 : NonZero (Units.mass E.a) := nonZero_of_mem hW.uses.pos (by simp [allConvs])
  have n2 : NonZero (Units.molar E.a) := nonZero_of_mem hW.uses.pos (by simp [allConvs])
  unfold mMwMix
  rw [mwKeys_ok hk, exbind_ok, scalarOf_call hW.uses n1 (k := "unit_mass") rfl hW.mass hW.massUnit (y := 1) rfl, exbind_ok,
    scalarOf_call hW.uses n2 (k := "unit_molar") rfl hW.molar hW.molarUnit (y := 1) rfl, exbind_ok]
  refine ⟨_, rfl, rfl, fun i => ?_⟩
  simp only [powS_neg_one, show ∀ x : ℝ, powS x none = x from fun _ => rfl]
  rw [weigh_const, one_mul, weigh_rows]
  unfold mwI
  have := (molarSize_pos hW).ne'
  have := (massSize_pos hW).ne'
  congr 1
  · rw [one_mul]
  · rw [one_div, one_div, inv_inv, mul_comm, ← div_eq_mul_inv]

/-- **C40, partial.** With consistent units `mass()` equals `molar()` times `mw()`.  Missing: other
pairs of units, and mixtures with a constituent that is itself a mixture, see `C40_mw_defect`. -/
theorem C40_mass_moles_partial (hW : Works E S um un) (hC : Consistent E um un) (L : Lib σ)
    (m : Mix σ) (hm : Weighs L m) (hk : ∀ s ∈ m.c, L.cls s ≠ .igmix) :
    ∃ A B W, mMass E L m = .ok A ∧ mMolar E m = .ok B ∧ mMwMix E L m = .ok W ∧
      ∀ i, weigh (fun _ => 1) m i ≠ 0 → A.val i = B.val i * W.val i := by
  obtain ⟨A, e1, _, v1⟩ := C40_mass_partial hW hC L m hm
  obtain ⟨B, e2, _, v2⟩ := C40_molar hW m
  obtain ⟨W, e3, _, v3⟩ := mwMix_eq hW L m hk
  refine ⟨A, B, W, e1, e2, e3, fun i hi => ?_⟩
  rw [v1, v2, v3]
  have := (molarSize_pos hW).ne'
  have := (massSize_pos hW).ne'
  field_simp

/-- **C40 disagreement.** `mw()` is documented for every dynamic mixture, but when one of the
constituents is itself a stored mixture, such as air, the call raises `KeyError`, in every
configuration. -/
theorem C40_mw_defect (E : Env) (L : Lib σ) (m : Mix σ) (s : σ) (hs : s ∈ m.c)
    (h : L.cls s = .igmix) : mMwMix E L m = .error .key := by
  unfold mMwMix
  have : mwKeys L m = .error .key := by
    unfold mwKeys
    rw [if_pos]
    simpa using ⟨s, hs, h⟩
  rw [this]
  rfl

/-- **C40.** Total mass of a sum, in every configuration. -/
theorem C40_mass_additive (hW : Works E S um un) (L : Lib σ) (a b r : Mix σ) (ha : Wf a) (hb : Wf b)
    (h : Compat a.shape b.shape) (hr : add a b = .ok r) (ma : Weighs L a) (mb : Weighs L b) :
    ∃ A B R, mMass E L a = .ok A ∧ mMass E L b = .ok B ∧ mMass E L r = .ok R ∧
      ∀ i, Within i r.shape → R.val i = A.val (src a.shape i) + B.val (src b.shape i) := by
  obtain ⟨r', e, _, _, hm, _⟩ := C39_add_partial a b ha hb h
  have hrr : r' = r := by rw [hr] at e; cases e; rfl
  subst hrr
  have mr : Weighs L r' := fun s hs => ((hm s).mp hs).elim (ma s) (mb s)
  obtain ⟨A, e1, _, v1⟩ := mass_eq hW L a ma
  obtain ⟨B, e2, _, v2⟩ := mass_eq hW L b mb
  obtain ⟨R, e3, _, v3⟩ := mass_eq hW L r' mr
  refine ⟨A, B, R, e1, e2, e3, fun i hi => ?_⟩
  rw [v1, v2, v3]
  exact weigh_add _ a b ha hb h r' hr i hi

/-- **C40.** Total moles of a sum. -/
theorem C40_molar_additive (hW : Works E S um un) (a b r : Mix σ) (ha : Wf a) (hb : Wf b)
    (h : Compat a.shape b.shape) (hr : add a b = .ok r) :
    ∃ A B R, mMolar E a = .ok A ∧ mMolar E b = .ok B ∧ mMolar E r = .ok R ∧
      ∀ i, Within i r.shape → R.val i = A.val (src a.shape i) + B.val (src b.shape i) := by
  obtain ⟨A, e1, _, v1⟩ := C40_molar hW a
  obtain ⟨B, e2, _, v2⟩ := C40_molar hW b
  obtain ⟨R, e3, _, v3⟩ := C40_molar hW r
  refine ⟨A, B, R, e1, e2, e3, fun i hi => ?_⟩
  rw [v1, v2, v3, weigh_add _ a b ha hb h r hr i hi]
  ring

/-! ### Atoms -/

/-- The entry of an atom in the dictionary, zero if it is not listed. -/
noncomputable def count (d : List (String × (List Nat → ℝ))) (a : String) (i : List Nat) : ℝ :=
  match d.lookup a with
  | some f => f i
  | none => 0

theorem count_addAtomAt (d : List (String × (List Nat → ℝ))) (a b : String) (f : List Nat → ℝ)
    (i : List Nat) : count (addAtomAt d a f) b i = count d b i + if a = b then f i else 0 := by
  induction d with
  | nil =>
    unfold count addAtomAt
    by_cases h : a = b
    · subst h; simp
    · have : (b == a) = false := by simpa using fun h' => h h'.symm
      simp [List.lookup_cons, this, h]
  | cons p d ih =>
    obtain ⟨c, g⟩ := p
    unfold addAtomAt
    by_cases hca : c = a
    · subst hca
      rw [if_pos rfl]
      unfold count
      by_cases h : c = b
      · subst h; simp
      · have : (b == c) = false := by simpa using fun h' => h h'.symm
        simp [List.lookup_cons, this, h]
    · rw [if_neg hca]
      unfold count at ih ⊢
      by_cases h : c = b
      · subst h
        have : ¬ a = c := fun h' => hca h'.symm
        simp [this]
      · have : (b == c) = false := by simpa using fun h' => h h'.symm
        simp only [List.lookup_cons, this]
        exact ih

theorem count_addAtoms (q : List Nat → ℝ) (as : List (String × ℝ))
    (d : List (String × (List Nat → ℝ))) (b : String) (i : List Nat) :
    count (addAtoms q as d) b i =
      count d b i + q i * ((as.filter (fun p => p.1 = b)).map Prod.snd).sum := by
  induction as generalizing d with
  | nil => simp [addAtoms]
  | cons p as ih =>
    obtain ⟨a, n⟩ := p
    unfold addAtoms
    rw [ih, count_addAtomAt]
    by_cases h : a = b
    · subst h; simp; ring
    · simp [h]

theorem count_atomsRows (L : Lib σ) (q : Arr) (k : ℝ) (c : List σ) (r0 : Nat)
    (d : List (String × (List Nat → ℝ))) (b : String) (i : List Nat) :
    count (atomsRows L q k c r0 d) b i = count d b i +
      k * ∑ r ∈ Finset.range c.length, (c[r]?.map (atomsIn L b)).getD 0 * q.val ((r0 + r) :: i) := by
  induction c generalizing r0 d with
  | nil => simp [atomsRows]
  | cons s c ih =>
    unfold atomsRows
    rw [ih, count_addAtoms, List.length_cons, Finset.sum_range_succ']
    simp only [List.getElem?_cons_succ, List.getElem?_cons_zero, Nat.add_zero, Option.map_some,
      Option.getD_some]
    have : ∀ r, r0 + 1 + r = r0 + (r + 1) := fun r => by omega
    simp only [this]
    unfold atomsIn
    ring

/-- **C40.** `atoms()` counts, for every kind of atom, amount times atoms per molecule over all
constituents, in the configured molar unit; kinds that do not occur count zero. -/
theorem C40_atoms (hW : Works E S um un) (L : Lib σ) (m : Mix σ) :
    ∃ d, mAtoms E L m = .ok d ∧
      ∀ a i, count d a i = weigh (atomsIn L a) m i / size (Units.molar E.a) un := by
  unfold mAtoms
  rw [hW.molar, exbind_ok, molar_factor hW, exbind_ok]
  refine ⟨_, rfl, fun a i => ?_⟩
  rw [count_atomsRows, weigh_rows]
  simp only [Nat.zero_add]
  show (0 : ℝ) + _ = _
  ring

/-- **C40.** The atoms of a sum. -/
theorem C40_atoms_additive (hW : Works E S um un) (L : Lib σ) (a b r : Mix σ) (ha : Wf a) (hb : Wf b)
    (h : Compat a.shape b.shape) (hr : add a b = .ok r) :
    ∃ A B R, mAtoms E L a = .ok A ∧ mAtoms E L b = .ok B ∧ mAtoms E L r = .ok R ∧
      ∀ x i, Within i r.shape → count R x i = count A x (src a.shape i) + count B x (src b.shape i) := by
  obtain ⟨A, e1, v1⟩ := C40_atoms hW L a
  obtain ⟨B, e2, v2⟩ := C40_atoms hW L b
  obtain ⟨R, e3, v3⟩ := C40_atoms hW L r
  refine ⟨A, B, R, e1, e2, e3, fun x i hi => ?_⟩
  rw [v1, v2, v3, weigh_add _ a b ha hb h r hr i hi]
  ring

/-! ## C41 -/

/-- **C41.** Mole fractions sum to one, lie between zero and one when no amount is negative, and
are the amounts divided by the total. -/
theorem C41_mole (m : Mix σ) (i : List Nat) (ht : weigh (fun _ => 1) m i ≠ 0) :
    (∑ r ∈ Finset.range m.c.length, (mX m).val (r :: i)) = 1 ∧
    (∀ r, (mX m).val (r :: i) * weigh (fun _ => 1) m i = m.q.val (r :: i)) ∧
    ((∀ r, r < m.c.length → 0 ≤ m.q.val (r :: i)) →
      ∀ r, r < m.c.length → 0 ≤ (mX m).val (r :: i) ∧ (mX m).val (r :: i) ≤ 1) := by
  rw [weigh_const, one_mul] at ht ⊢
  have h1 : (∑ r ∈ Finset.range m.c.length, (mX m).val (r :: i)) = 1 := by
    show (∑ r ∈ Finset.range m.c.length, m.q.val (r :: i) / total m i) = 1
    rw [← Finset.sum_div]
    exact div_self ht
  refine ⟨h1, fun r => ?_, fun hq r hr => ?_⟩
  · show m.q.val (r :: i) / total m i * total m i = _
    field_simp
  · have ht0 : 0 ≤ total m i := Finset.sum_nonneg fun r hr => hq r (Finset.mem_range.mp hr)
    have hx : ∀ r, r < m.c.length → 0 ≤ (mX m).val (r :: i) := fun r hr =>
      div_nonneg (hq r hr) ht0
    refine ⟨hx r hr, ?_⟩
    rw [← h1]
    exact Finset.single_le_sum (fun k hk => hx k (Finset.mem_range.mp hk)) (Finset.mem_range.mpr hr)

theorem userMws_eq (hW : Works E S um un) (L : Lib σ) (m : Mix σ) :
    userMws E L m = .ok (m.c.map (wU E um un L)) :=
  mapM_ok _ _ _ fun s _ => userMw_eq hW L s

/-- Molecular weight of the substance in row `r`. -/
noncomputable def mwRow (L : Lib σ) (m : Mix σ) (r : Nat) : ℝ :=
  (m.c[r]?.map (fun s => (L.gas s).mw)).getD 0

theorem wU_row (E : Env) (um un : String) (L : Lib σ) (m : Mix σ) (r : Nat) :
    (m.c.map (wU E um un L)).getD r 0 =
      mwRow L m r * (size (Units.molar E.a) un / size (Units.mass E.a) um) := by
  rw [List.getD_eq_getElem?_getD, List.getElem?_map]
  unfold mwRow
  cases m.c[r]? with
  | none => simp
  | some s => rfl

/-- **C41.** In every configuration the mass fractions are amount times molecular weight over the
total mass; they sum to one, and lie between zero and one when no amount is negative. -/
theorem C41_mass (hW : Works E S um un) (L : Lib σ) (m : Mix σ) (hm : Weighs L m) :
    ∃ Y, mY E L m = .ok Y ∧ ∀ i, weigh (fun s => (L.gas s).mw) m i ≠ 0 →
      (∀ r, Y.val (r :: i) =
        mwRow L m r * m.q.val (r :: i) / weigh (fun s => (L.gas s).mw) m i) ∧
      (∑ r ∈ Finset.range m.c.length, Y.val (r :: i)) = 1 ∧
      ((∀ r, r < m.c.length → 0 ≤ m.q.val (r :: i)) →
        ∀ r, r < m.c.length → 0 ≤ Y.val (r :: i) ∧ Y.val (r :: i) ≤ 1) := by
  unfold mY
  rw [userMws_eq hW, exbind_ok]
  refine ⟨_, rfl, fun i hi => ?_⟩
  have hk : size (Units.molar E.a) un / size (Units.mass E.a) um ≠ 0 :=
    (div_pos (molarSize_pos hW) (massSize_pos hW)).ne'
  have hsum : (∑ r ∈ Finset.range m.c.length, m.q.val (r :: i) * (m.c.map (wU E um un L)).getD r 0) =
      weigh (fun s => (L.gas s).mw) m i *
        (size (Units.molar E.a) un / size (Units.mass E.a) um) := by
    rw [weigh_rows, Finset.sum_mul]
    refine Finset.sum_congr rfl fun r _ => ?_
    rw [wU_row]
    unfold mwRow
    ring
  have hy : ∀ r, m.q.val (r :: i) * (m.c.map (wU E um un L)).getD r 0 /
      (∑ r ∈ Finset.range m.c.length, m.q.val (r :: i) * (m.c.map (wU E um un L)).getD r 0) =
      mwRow L m r * m.q.val (r :: i) / weigh (fun s => (L.gas s).mw) m i := by
    intro r
    rw [hsum, wU_row, ← mul_assoc, mul_div_mul_right _ _ hk, mul_comm (m.q.val (r :: i))]
  have h1 : (∑ r ∈ Finset.range m.c.length,
      mwRow L m r * m.q.val (r :: i) / weigh (fun s => (L.gas s).mw) m i) = 1 := by
    rw [← Finset.sum_div]
    have : (∑ r ∈ Finset.range m.c.length, mwRow L m r * m.q.val (r :: i)) =
        weigh (fun s => (L.gas s).mw) m i := by rw [weigh_rows]; rfl
    rw [this]
    exact div_self hi
  refine ⟨hy, ?_, fun hq r hr => ?_⟩
  · rw [← h1]
    exact Finset.sum_congr rfl fun r _ => hy r
  · have hmw : ∀ r, 0 ≤ mwRow L m r := by
      intro r
      unfold mwRow
      cases h : m.c[r]? with
      | none => simp
      | some s => exact (hm s (List.mem_of_getElem? h)).le
    have hpos : 0 ≤ weigh (fun s => (L.gas s).mw) m i := by
      rw [weigh_rows]
      exact Finset.sum_nonneg fun r hr => mul_nonneg (hmw r) (hq r (Finset.mem_range.mp hr))
    have hx : ∀ r, r < m.c.length →
        0 ≤ mwRow L m r * m.q.val (r :: i) / weigh (fun s => (L.gas s).mw) m i := fun r hr =>
      div_nonneg (mul_nonneg (hmw r) (hq r hr)) hpos
    show 0 ≤ m.q.val (r :: i) * (m.c.map (wU E um un L)).getD r 0 / _ ∧
      m.q.val (r :: i) * (m.c.map (wU E um un L)).getD r 0 / _ ≤ 1
    rw [hy r]
    refine ⟨hx r hr, ?_⟩
    rw [← h1]
    exact Finset.single_le_sum (f := fun r =>
      mwRow L m r * m.q.val (r :: i) / weigh (fun s => (L.gas s).mw) m i)
      (fun k hk => hx k (Finset.mem_range.mp hk)) (Finset.mem_range.mpr hr)

/-- **C41.** Mole and mass fractions determine each other through the molecular weights. -/
theorem C41_each_other (hW : Works E S um un) (L : Lib σ) (m : Mix σ) (hm : Weighs L m) :
    ∃ Y, mY E L m = .ok Y ∧ ∀ i, weigh (fun _ => 1) m i ≠ 0 →
      weigh (fun s => (L.gas s).mw) m i ≠ 0 → ∀ r, r < m.c.length →
      Y.val (r :: i) = mwRow L m r * (mX m).val (r :: i) /
        ∑ k ∈ Finset.range m.c.length, mwRow L m k * (mX m).val (k :: i) ∧
      (mX m).val (r :: i) = Y.val (r :: i) / mwRow L m r /
        ∑ k ∈ Finset.range m.c.length, Y.val (k :: i) / mwRow L m k := by
  obtain ⟨Y, e, hv⟩ := C41_mass hW L m hm
  refine ⟨Y, e, fun i ht hw r hr => ?_⟩
  have hy := (hv i hw).1
  rw [weigh_const, one_mul] at ht
  have hx : ∀ k, (mX m).val (k :: i) = m.q.val (k :: i) / total m i := fun k => rfl
  have hmw : ∀ k, k < m.c.length → mwRow L m k ≠ 0 := by
    intro k hk
    unfold mwRow
    rw [List.getElem?_eq_getElem hk]
    exact (hm _ (List.getElem_mem hk)).ne'
  have s1 : (∑ k ∈ Finset.range m.c.length, mwRow L m k * (mX m).val (k :: i)) =
      weigh (fun s => (L.gas s).mw) m i / total m i := by
    rw [weigh_rows, Finset.sum_div]
    refine Finset.sum_congr rfl fun k _ => ?_
    rw [hx]; unfold mwRow; ring
  have s2 : (∑ k ∈ Finset.range m.c.length, Y.val (k :: i) / mwRow L m k) =
      total m i / weigh (fun s => (L.gas s).mw) m i := by
    unfold total
    rw [Finset.sum_div]
    refine Finset.sum_congr rfl fun k hk => ?_
    have := hmw k (Finset.mem_range.mp hk)
    rw [hy]; field_simp
  have := hmw r hr
  rw [s1, s2, hy, hx]
  constructor <;> field_simp

/-- **C41.** Scaling a mixture by a non-zero number leaves its mole fractions and mass fractions
unchanged. -/
theorem C41_scale (hW : Works E S um un) (L : Lib σ) (m : Mix σ) (hwf : Wf m) (x : ℝ) (hx : x ≠ 0)
    (f : List Nat → ℝ) (hf : f [] = x) :
    ∃ r Y Y', imul m ⟨[], f⟩ = .ok r ∧ mY E L m = .ok Y ∧ mY E L r = .ok Y' ∧
      ∀ i, Within i m.shape → ∀ k, k < m.c.length →
        (mX r).val (k :: i) = (mX m).val (k :: i) ∧ Y'.val (k :: i) = Y.val (k :: i) := by
  have hlen : 2 ≤ m.q.shape.length := by
    rw [hwf.rows, List.length_cons]
    have : m.shape.length ≠ 0 := fun h => hwf.rank (List.length_eq_zero_iff.mp h)
    omega
  obtain ⟨q, e, hs, hv⟩ := mul_fits (Arr.atleast1 ⟨[], f⟩) m.q (m.q.shape.length - 1) (by omega) (by
    have : (m.q.shape.drop (m.q.shape.length - 1)).length = 1 := by rw [List.length_drop]; omega
    match hd : m.q.shape.drop (m.q.shape.length - 1), this with
    | [n], _ => simp [Arr.atleast1, fits])
  have hq : ∀ i, Within i m.shape → ∀ k, k < m.c.length → q.val (k :: i) = x * m.q.val (k :: i) := by
    intro i hi k hk
    rw [hv, src_within (i := k :: i) (by rw [hwf.rows]; exact .cons hk hi)]
    show f [] * _ = _
    rw [hf]
  have e1 : imul m ⟨[], f⟩ = .ok ⟨m.c, q⟩ := by unfold imul; rw [e, exbind_ok]
  refine ⟨⟨m.c, q⟩, _, _, e1, by unfold mY; rw [userMws_eq hW, exbind_ok],
    by unfold mY; rw [userMws_eq hW, exbind_ok], fun i hi k hk => ⟨?_, ?_⟩⟩
  · show q.val (k :: i) / (∑ r ∈ Finset.range m.c.length, q.val (r :: i)) =
      m.q.val (k :: i) / (∑ r ∈ Finset.range m.c.length, m.q.val (r :: i))
    rw [hq i hi k hk, Finset.sum_congr rfl fun r hr => hq i hi r (Finset.mem_range.mp hr),
      ← Finset.mul_sum, mul_div_mul_left _ _ hx]
  · show q.val (k :: i) * _ / (∑ r ∈ Finset.range m.c.length, q.val (r :: i) * _) =
      m.q.val (k :: i) * _ / (∑ r ∈ Finset.range m.c.length, m.q.val (r :: i) * _)
    rw [hq i hi k hk, Finset.sum_congr rfl fun r hr => by
      rw [hq i hi r (Finset.mem_range.mp hr), mul_assoc]]
    rw [← Finset.mul_sum, mul_assoc, mul_div_mul_left _ _ hx]

/-! ## C43 -/

theorem mTlim_eq (hU : Uses E S) (G : Gas) :
    mTlim E G = .ok (fromKelvin S.T.name G.Tlo, fromKelvin S.T.name G.Thi) := by
  unfold mTlim
  rw [scalarOf_tscale hU, exbind_ok, scalarOf_tscale hU, exbind_ok]

theorem tlimLoop_eq (hU : Uses E S) (L : Lib σ) (c : List σ) (lo hi : ℝ) :
    ∃ l h, tlimLoop E L c (some lo) (some hi) = .ok (some l, some h) ∧ l ≤ lo ∧ hi ≤ h ∧
      (∀ s ∈ c, l ≤ fromKelvin S.T.name (L.gas s).Tlo ∧ fromKelvin S.T.name (L.gas s).Thi ≤ h) ∧
      (l = lo ∨ ∃ s ∈ c, l = fromKelvin S.T.name (L.gas s).Tlo) ∧
      (h = hi ∨ ∃ s ∈ c, h = fromKelvin S.T.name (L.gas s).Thi) := by
  induction c generalizing lo hi with
  | nil => exact ⟨lo, hi, rfl, le_refl _, le_refl _, by simp, Or.inl rfl, Or.inl rfl⟩
  | cons s c ih =>
    unfold tlimLoop
    rw [mTlim_eq hU, exbind_ok]
    dsimp only
    have hlo : (if fromKelvin S.T.name (L.gas s).Tlo < lo then
        some (fromKelvin S.T.name (L.gas s).Tlo) else some lo) =
        some (min (fromKelvin S.T.name (L.gas s).Tlo) lo) := by
      split
      · rename_i h; rw [min_eq_left h.le]
      · rename_i h; rw [min_eq_right (not_lt.mp h)]
    have hhi : (if fromKelvin S.T.name (L.gas s).Thi > hi then
        some (fromKelvin S.T.name (L.gas s).Thi) else some hi) =
        some (max (fromKelvin S.T.name (L.gas s).Thi) hi) := by
      split
      · rename_i h; rw [max_eq_left h.le]
      · rename_i h; rw [max_eq_right (not_lt.mp h)]
    obtain ⟨l, h, e, h1, h2, h3, h4, h5⟩ := ih (min (fromKelvin S.T.name (L.gas s).Tlo) lo)
      (max (fromKelvin S.T.name (L.gas s).Thi) hi)
    refine ⟨l, h, ?_, h1.trans (min_le_right _ _), (le_max_right _ _).trans h2, ?_, ?_, ?_⟩
    · rw [← e]
      congr 1
    · intro t ht
      rcases List.mem_cons.mp ht with rfl | ht
      · exact ⟨h1.trans (min_le_left _ _), (le_max_left _ _).trans h2⟩
      · exact h3 t ht
    · rcases h4 with h4 | ⟨t, ht, h4⟩
      · rcases min_choice (fromKelvin S.T.name (L.gas s).Tlo) lo with hm | hm
        · exact Or.inr ⟨s, by simp, by rw [h4, hm]⟩
        · exact Or.inl (by rw [h4, hm])
      · exact Or.inr ⟨t, by simp [ht], h4⟩
    · rcases h5 with h5 | ⟨t, ht, h5⟩
      · rcases max_choice (fromKelvin S.T.name (L.gas s).Thi) hi with hm | hm
        · exact Or.inr ⟨s, by simp, by rw [h5, hm]⟩
        · exact Or.inl (by rw [h5, hm])
      · exact Or.inr ⟨t, by simp [ht], h5⟩

/-- What `Tlim()` reports: the lowest of the lower limits and the highest of the upper limits of
the constituents, in the configured scale. -/
theorem tlim_hull (hU : Uses E S) (L : Lib σ) (m : Mix σ) (hne : m.c ≠ []) :
    ∃ l h, mTlimMix E L m = .ok (some l, some h) ∧
      (∀ s ∈ m.c, l ≤ fromKelvin S.T.name (L.gas s).Tlo ∧ fromKelvin S.T.name (L.gas s).Thi ≤ h) ∧
      (∃ s ∈ m.c, l = fromKelvin S.T.name (L.gas s).Tlo) ∧
      (∃ s ∈ m.c, h = fromKelvin S.T.name (L.gas s).Thi) := by
  unfold mTlimMix
  cases hc : m.c with
  | nil => exact absurd hc hne
  | cons s c =>
    unfold tlimLoop
    rw [mTlim_eq hU, exbind_ok]
    dsimp only
    obtain ⟨l, h, e, h1, h2, h3, h4, h5⟩ := tlimLoop_eq hU L c (fromKelvin S.T.name (L.gas s).Tlo)
      (fromKelvin S.T.name (L.gas s).Thi)
    refine ⟨l, h, e, ?_, ?_, ?_⟩
    · intro t ht
      rcases List.mem_cons.mp ht with rfl | ht
      · exact ⟨h1, h2⟩
      · exact h3 t ht
    · rcases h4 with h4 | ⟨t, ht, h4⟩
      · exact ⟨s, by simp, h4⟩
      · exact ⟨t, by simp [ht], h4⟩
    · rcases h5 with h5 | ⟨t, ht, h5⟩
      · exact ⟨s, by simp, h5⟩
      · exact ⟨t, by simp [ht], h5⟩

/-- **C43, partial.** The reported range contains every temperature at which all constituents are
valid, and it is the documented range (the temperatures at which all constituents are valid) when
all constituents have the same limits.  Missing: constituents with different limits, see
`C43_hull_defect`. -/
theorem C43_limits_partial (hU : Uses E S) (L : Lib σ) (m : Mix σ) (hne : m.c ≠ []) :
    ∃ l h, mTlimMix E L m = .ok (some l, some h) ∧
      (∀ t, (∀ s ∈ m.c, fromKelvin S.T.name (L.gas s).Tlo ≤ t ∧ t ≤ fromKelvin S.T.name (L.gas s).Thi) →
        l ≤ t ∧ t ≤ h) ∧
      ((∀ s ∈ m.c, ∀ s' ∈ m.c, (L.gas s).Tlo = (L.gas s').Tlo ∧ (L.gas s).Thi = (L.gas s').Thi) →
        ∀ t, (l ≤ t ∧ t ≤ h) ↔
          ∀ s ∈ m.c, fromKelvin S.T.name (L.gas s).Tlo ≤ t ∧ t ≤ fromKelvin S.T.name (L.gas s).Thi) := by
  obtain ⟨l, h, e, h1, ⟨a, ha, h2⟩, ⟨b, hb, h3⟩⟩ := tlim_hull hU L m hne
  refine ⟨l, h, e, ?_, ?_⟩
  · intro t ht
    rw [h2, h3]
    exact ⟨(ht a ha).1, (ht b hb).2⟩
  · intro hs t
    constructor
    · intro ⟨t1, t2⟩ s hs'
      rw [(hs s hs' a ha).1, (hs s hs' b hb).2, ← h2, ← h3]
      exact ⟨t1, t2⟩
    · intro ht
      rw [h2, h3]
      exact ⟨(ht a ha).1, (ht b hb).2⟩

end units

/-! ## Concrete cases -/

/-- Working units kelvin, Pa, m3, kJ and the given matter, mass and molar units. -/
noncomputable def mixEnv (um un uq : String) : Env where
  a := SetupArgs.default
  c := { defT := 298.15, defp := 1.01325, str := fun k => match k with
    | "unit_temperature" => .ok "K" | "unit_pressure" => .ok "Pa" | "unit_volume" => .ok "m3"
    | "unit_energy" => .ok "kJ" | "unit_matter" => .ok uq | "def_T_unit" => .ok "K"
    | "def_p_unit" => .ok "bar" | "unit_mass" => .ok um | "unit_molar" => .ok un
    | _ => .error .param }
  cell := fun _ ws => ws.getLastD 0

theorem mixEnv_works {um un uq : String} (h1 : (Units.mass (SetupArgs.default : SetupArgs ℝ)).contains um = true)
    (h2 : (Units.molar (SetupArgs.default : SetupArgs ℝ)).contains un = true)
    (h3 : IsMatterUnit (SetupArgs.default : SetupArgs ℝ) uq) :
    Works (mixEnv um un uq) ⟨.K, "Pa", "m3", "kJ", uq⟩ um un where
  uses := {
    pos := by constructor <;> norm_num [mixEnv, SetupArgs.default]
    valid := ⟨rfl, rfl, rfl, h3⟩
    T := rfl
    p := rfl
    v := rfl
    e := rfl
    m := rfl
    defT := ⟨.K, rfl⟩
    defp := ⟨"bar", rfl, rfl⟩ }
  mass := rfl
  massUnit := h1
  molar := rfl
  molarUnit := h2

/-- Nitrogen-like gas 7 (200-600 K) and hydrogen-like gas 8 (300-1000 K). -/
noncomputable def lib2 : Lib Nat where
  sid := fun s => if s = 7 then "ig.N2" else "ig.H2"
  cls := fun _ => .ig
  inIg := fun _ => true
  gas := fun s => if s = 7 then ig constData else ig { constData with Tlim := [300, 1000], mw := 2 }
  atoms := fun s => if s = 7 then [("N", 2)] else [("H", 2)]
  find := fun s => if s = "ig.N2" then some 7 else if s = "ig.H2" then some 8 else none

theorem lib2_weighs (m : Mix Nat) : Weighs lib2 m := by
  intro s _
  by_cases h : s = 7 <;> simp [lib2, h, ig, constData]

theorem weigh_mA (w : Nat → ℝ) : weigh w mA [0] = w 7 * 3 + w 8 * 5 := by
  rw [weigh_rows]
  simp [mA, Finset.sum_range_succ]

/-- 3 kmol of 28 kg/kmol and 5 kmol of 2 kg/kmol: 94 kg, in kg and kmol. -/
example : ∃ A, mMass (mixEnv "kg" "kmol" "kg") lib2 mA = .ok A ∧ A.val [0] = 94 := by
  obtain ⟨A, e, _, hv⟩ := C40_mass_partial
    (mixEnv_works (um := "kg") (un := "kmol") (uq := "kg") rfl rfl (Or.inl rfl))
    (show (1 : ℝ) = 1 from rfl) lib2 mA (lib2_weighs _)
  refine ⟨A, e, ?_⟩
  rw [hv, weigh_mA]
  have : size (Units.mass (mixEnv "kg" "kmol" "kg").a) "kg" = 1 := rfl
  rw [this]
  simp [lib2, ig, constData]
  norm_num

/-- **C40 disagreement.** `mass()` converts with the molecular weight in the configured units as
if it were in kg per kmol: with `unit_mass` g and `unit_molar` kmol a mixture of 94 kg is reported
as 94 000 000 g (`igtools.py:1304-1308`). -/
theorem C40_mass_defect :
    weigh (fun s => (lib2.gas s).mw) mA [0] = 94 ∧
    ∃ A, mMass (mixEnv "g" "kmol" "kg") lib2 mA = .ok A ∧ A.val [0] = 94 * 1000 * 1000 := by
  have h94 : weigh (fun s => (lib2.gas s).mw) mA [0] = 94 := by
    rw [weigh_mA]
    simp [lib2, ig, constData]
    norm_num
  refine ⟨h94, ?_⟩
  obtain ⟨A, e, _, hv⟩ := mass_eq
    (mixEnv_works (um := "g") (un := "kmol") (uq := "kg") rfl rfl (Or.inl rfl))
    lib2 mA (lib2_weighs _)
  refine ⟨A, e, ?_⟩
  rw [hv, weigh_mA]
  unfold wU
  have h1 : size (Units.mass (mixEnv "g" "kmol" "kg").a) "g" = 1e-3 := rfl
  have h2 : size (Units.molar (mixEnv "g" "kmol" "kg").a) "kmol" = 1 := rfl
  rw [h1, h2]
  simp [lib2, ig, constData]
  norm_num

example : weigh (fun _ => 1) mA [0] ≠ 0 ∧ weigh (fun s => (lib2.gas s).mw) mA [0] ≠ 0 := by
  rw [weigh_mA, weigh_mA]
  simp [lib2, ig, constData]
  norm_num

/-- **C43 disagreement.** `Tlim()` is documented as the widest range over which all constituents
are valid, but reports the union of the ranges: for gases valid on 200-600 K and on 300-1000 K it
reports 200-1000 K, although neither gas is valid on the whole of it (`igtools.py:1518-1526`). -/
theorem C43_hull_defect :
    mTlimMix (mixEnv "kg" "kmol" "kg") lib2 mA = .ok (some 200, some 1000) ∧
    (lib2.gas 7).Thi < 1000 ∧ 200 < (lib2.gas 8).Tlo := by
  have hU := (mixEnv_works (um := "kg") (un := "kmol") (uq := "kg") rfl rfl (Or.inl rfl)).uses
  refine ⟨?_, ?_, ?_⟩
  · have t7 : mTlim (mixEnv "kg" "kmol" "kg") (lib2.gas 7) = .ok (200, 600) := by
      rw [mTlim_eq hU]
      simp [lib2, ig, constData, Scale.name, fromKelvin]
    have t8 : mTlim (mixEnv "kg" "kmol" "kg") (lib2.gas 8) = .ok (300, 1000) := by
      rw [mTlim_eq hU]
      simp [lib2, ig, constData, Scale.name, fromKelvin]
    unfold mTlimMix
    show tlimLoop _ _ [7, 8] none none = _
    simp only [tlimLoop, t7, t8, exbind_ok]
    norm_num
  · norm_num [lib2, ig, constData]
  · norm_num [lib2, ig, constData]

end PyroMat.Igt.Props
