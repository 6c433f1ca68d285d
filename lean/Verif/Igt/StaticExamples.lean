import Verif.Igt.PropsStaticDefects
import Verif.Igt.GivenExamples

/-!
# The hypotheses of C85 are met

The mixture of `ThermoExamples`, a mixture that lists a constituent with amount zero, and a static
mixture of 28 g and 2 g.
-/

set_option linter.unusedSimpArgs false

namespace PyroMat.Igt.Props

open PyroMat PyroMat.Gas PyroMat.Igt PyroMat.Igt.Spec PyroMat.Config.Defaults
open PyroMat.Units PyroMat.Units.Spec PyroMat.Units.Props PyroMat.Gas.Spec PyroMat.Gas.Props
open scoped BigOperators

/-- Whatever the collection lists as ordinary gases, in amounts that are not all zero, makes a usable
static mixture. -/
theorem mixture_listed {coll : Gas.Mix.Coll} {D : Gas.Mix.Entry} {cs : List Comp}
    (hL : Listed coll D cs) : ∃ M, IsMixture coll D M := by
  obtain ⟨O, lo, hi, hO, hbs, hx, hy, hlo, hhi, hsm, -⟩ := bootstrap_listed hL
  obtain ⟨M, hM⟩ : ∃ M, Gas.Mix.toGas coll O = some M := by
    unfold Gas.Mix.toGas
    rw [hx, species_eq hL.found, hlo, hhi, hsm]
    exact ⟨_, rfl⟩
  refine ⟨M, fun o ho α u f => ?_⟩
  unfold Gas.Mix.call
  rw [bootstrap_used hL ho, hO]
  simp only [hsm, Option.isNone_some, Bool.and_false, Bool.false_eq_true, if_false, hM, Option.map_some]

/-- A collection with the two gases. -/
noncomputable def coll2 : Gas.Mix.Coll := fun n =>
  if n = "ig.N2" then some (.gas (lib2.gas 7) none) else if n = "ig.H2" then some (.gas (lib2.gas 8) none)
  else none

theorem collected2 {m : Mix Nat} (h : m.c = [7, 8]) : Collected lib2 coll2 m where
  once := by rw [h]; decide
  gas := by
    intro s hs
    rw [h] at hs
    simp only [List.mem_cons, List.not_mem_nil, or_false] at hs
    rcases hs with rfl | rfl
    · exact ⟨none, by simp [coll2, lib2]⟩
    · exact ⟨none, by simp [coll2, lib2]⟩
  find := by
    intro s hs
    rw [h] at hs
    simp only [List.mem_cons, List.not_mem_nil, or_false] at hs
    rcases hs with rfl | rfl <;> simp [lib2]
  dotted := by
    intro s hs
    by_cases h : s = 7 <;> simp [lib2, h]

theorem mA_pos : ∀ s ∈ mA.c, 0 < amount mA s [0] := by
  intro s hs
  simp only [mA, List.mem_cons, List.not_mem_nil, or_false] at hs
  rcases hs with rfl | rfl <;> simp [Spec.amount, mA, Finset.sum_range_succ]

theorem mA_answers : HasShape (iT envK lib2 mA [num 400, num 100000] []) mA.shape ∧
    HasShape (iP envK lib2 mA [num 400, num 100000] []) mA.shape ∧
    Shows (iT envK lib2 mA [num 400, num 100000] []) [0] 400 ∧
    Shows (iP envK lib2 mA [num 400, num 100000] []) [0] 100000 ∧
    (∃ x, Shows (iS envK lib2 mA [num 400, num 100000] []) [0] x) := by
  obtain ⟨a1, a2, a3, a4, a5, -⟩ := C81_answers_entropy_partial envK sysK envK_uses lib2 mA
    (lib2_weighs _) (by simp [mA]) (by simp [mA]) (by simp [mA, Mix.shape]) (by simp [lib2]) _ _ _ _ call_one
    (by simp [mA, Mix.shape]) (Or.inl rfl) (Or.inl rfl) in400 [0] mA_within
    (lib2_valid (by simp [entry, num]; norm_num) (by simp [entry, num]; norm_num))
    (fun s _ => (own_sg s _ (by simp [entry, num]; norm_num) (by simp [entry, num]; norm_num)).1)
    (fun s _ => (own_sg s _ (by simp [entry, num]; norm_num) (by simp [entry, num]; norm_num)).2)
  exact ⟨a1, a2, a3, a4, a5⟩

/-- `toigmix("mix")` of 3 kmol and 5 kmol: one static mixture, named `mix`, with mole fractions 3/8 and
5/8; the entropy of the dynamic mixture is 8 kmol times its entropy. -/
example : ∃ D M, toigmix lib2 mA "mix" = .ok [("mix", D)] ∧ IsMixture coll2 D M ∧
    (Gas.Mix.mX coll2 D {}).1 = .ok [("ig.N2", 3 / 8), ("ig.H2", 5 / 8)] ∧
    ∃ x y, Shows (iS envK lib2 mA [num 400, num 100000] []) [0] x ∧
      Gives envK M [.scalar 400, .scalar 100000] [] .s 0 y ∧ x = 8 * y := by
  have hC : Collected lib2 coll2 mA := collected2 rfl
  obtain ⟨l, hl, h1, -, h2, -⟩ := C85_instances lib2 mA (by simp [mA, Mix.shape]) "mix"
  have hone : mA.shape.prod = 1 := by simp [mA, Mix.shape]
  have h2 := h2 hone
  obtain ⟨D, rfl⟩ : ∃ D, l = [("mix", D)] := by
    rw [hone] at h1
    obtain ⟨⟨n, D⟩, rfl⟩ := List.length_eq_one_iff.mp h1
    simp only [List.map_cons, List.map_nil, List.cons.injEq, and_true] at h2
    subst h2
    exact ⟨D, rfl⟩
  have hq : ∀ s ∈ mA.c, 0 ≤ amount mA s [0] := fun s hs => (mA_pos s hs).le
  have hp : ∃ s ∈ mA.c, 0 < amount mA s [0] := ⟨7, by simp [mA], mA_pos 7 (by simp [mA])⟩
  obtain ⟨name, D', hD, hX⟩ := C85_composition lib2 coll2 mA hC (lib2_weighs _) "mix" _ hl [0] mA_within hq hp
  have hD' := hD
  have e0 : number mA.shape [0] = 0 := by simp [mA, Mix.shape, number]
  rw [e0] at hD'
  simp only [List.getElem?_cons_zero, Option.some.injEq, Prod.mk.injEq] at hD'
  obtain ⟨rfl, rfl⟩ := hD'
  obtain ⟨M, hM⟩ : ∃ M, IsMixture coll2 D M := by
    obtain rfl := entry_at hl mA_within hD
    exact mixture_listed (listed_at hC (lib2_weighs _) _ hq hp)
  refine ⟨D, M, hl, hM, ?_, ?_⟩
  · rw [(hX {} .new).1]
    have am7 : amount mA 7 [0] = 3 := by simp [Spec.amount, mA, Finset.sum_range_succ]
    have am8 : amount mA 8 [0] = 5 := by simp [Spec.amount, mA, Finset.sum_range_succ]
    have hk : kmols mA [0] = 8 := (mA_amounts rfl).2.2
    have f7 : molFrac mA 7 [0] = 3 / 8 := by unfold molFrac; rw [place_within mA_within, hk, am7]
    have f8 : molFrac mA 8 [0] = 5 / 8 := by unfold molFrac; rw [place_within mA_within, hk, am8]
    show Except.ok [(lib2.sid 7, molFrac mA 7 [0]), (lib2.sid 8, molFrac mA 8 [0])] = _
    rw [f7, f8]
    rfl
  · obtain ⟨a1, a2, a3, a4, x, a5⟩ := mA_answers
    obtain ⟨y, hy, e⟩ := C85_entropies_partial envK sysK envK_uses lib2 coll2 mA hC (lib2_weighs _)
      (fun s _ => lib2_pref s) (fun s _ => lib2_coherent s) (by simp [mA]) "mix" _ hl _ _ [0] mA_within mA_pos
      "mix" D hD M hM .s (Or.inl rfl) x 400 100000 (by norm_num) a1 a2 a5 a3 a4
      (lib2_valid (by norm_num) (by norm_num))
    refine ⟨x, y, a5, hy, ?_⟩
    rw [e]
    congr 1
    have hc : mA.c.toFinset = {7, 8} := by simp [mA]
    unfold matterAt
    rw [hc, Finset.sum_pair (by norm_num), (holds_mA [0] rfl).1, (holds_mA [0] rfl).2]
    norm_num

/-- 3 kmol of one gas, and the other listed with amount zero. -/
noncomputable def mZ : Mix Nat := ⟨[7, 8], ⟨[2, 1], fun i => if i.head? = some 0 then 3 else 0⟩⟩

theorem mZ_within : Within [0] mZ.shape := .cons (by norm_num) .nil

theorem mZ_amounts : amount mZ 7 [0] = 3 ∧ amount mZ 8 [0] = 0 := by
  simp [Spec.amount, mZ, Finset.sum_range_succ]

theorem lib2_validZ {t : ℝ} (h1 : 300 ≤ t) (h2 : t ≤ 600) : ValidAt sysK lib2 mZ t := lib2_valid h1 h2

/-- The dynamic mixture reports its entropy and the static mixture made from it reports NaN. -/
example : ∃ x D M, Shows (iS envK lib2 mZ [num 400, num 100000] []) [0] x ∧
    toigmix lib2 mZ "mix" = .ok [("mix", D)] ∧ IsMixture coll2 D M ∧
    mS envK M [.scalar 400, .scalar 100000] [] = .ok [none] := by
  obtain ⟨-, -, -, -, ⟨x, hx⟩, -⟩ := C81_answers_entropy_partial envK sysK envK_uses lib2 mZ
    (lib2_weighs _) (by simp [mZ]) (by simp [mZ]) (by simp [mZ, Mix.shape]) (by simp [lib2]) _ _ _ _ call_one
    (by simp [mZ, Mix.shape]) (Or.inl rfl) (Or.inl rfl) in400 [0] mZ_within
    (lib2_validZ (by simp [entry, num]; norm_num) (by simp [entry, num]; norm_num))
    (fun s _ => (own_sg s _ (by simp [entry, num]; norm_num) (by simp [entry, num]; norm_num)).1)
    (fun s _ => (own_sg s _ (by simp [entry, num]; norm_num) (by simp [entry, num]; norm_num)).2)
  have hC : Collected lib2 coll2 mZ := collected2 rfl
  have hq : ∀ s ∈ mZ.c, 0 ≤ amount mZ s [0] := by
    intro s hs
    simp only [mZ, List.mem_cons, List.not_mem_nil, or_false] at hs
    rcases hs with rfl | rfl
    · rw [mZ_amounts.1]; norm_num
    · rw [mZ_amounts.2]
  have hp : ∃ s ∈ mZ.c, 0 < amount mZ s [0] := ⟨7, by simp [mZ], by rw [mZ_amounts.1]; norm_num⟩
  have hl : toigmix lib2 mZ "mix" = .ok [("mix", ⟨contentsAt lib2 mZ [0], false⟩)] := rfl
  have hD : [("mix", (⟨contentsAt lib2 mZ [0], false⟩ : Gas.Mix.Entry))][number mZ.shape [0]]? =
      some ("mix", ⟨contentsAt lib2 mZ [0], false⟩) := rfl
  obtain ⟨M, hM⟩ := mixture_listed (listed_at hC (lib2_weighs _) _ hq hp)
  exact ⟨x, _, M, hx, hl, hM, C85_absent_defect envK sysK envK_uses lib2 coll2 mZ hC (lib2_weighs _) "mix" _ hl
    [0] mZ_within hq hp ⟨8, by simp [mZ], mZ_amounts.2⟩ "mix" _ hD M hM 400 100000
    (lib2_validZ (by norm_num) (by norm_num)) .s (Or.inl rfl)⟩

/-- `mA[:, 0]` cannot be converted, and nothing can be asked of the instance made from a mixture with
a constituent that the collection does not hold. -/
example : (∃ m', getItem envK lib2 mA (.tup .all [0]) = .ok (.mix m') ∧ m'.c = mA.c ∧
      toigmix lib2 m' "mix" = .error .type) ∧
    ∃ l name D, toigmix lib2 mA "mix" = .ok l ∧ l[0]? = some (name, D) ∧
      ∀ (α : Type) (u : Bool) (f : Gas → Except Err α),
        (Gas.Mix.call (fun n => if n = "ig.N2" then some .other else coll2 n) D {} u f).1 =
          some (.error .data) :=
  ⟨C85_submixture_defect envK lib2 mA [0] mA_within "mix",
    C85_nested_defect lib2 _ mA (by simp [mA, Mix.shape]) 7 (by simp [mA]) (by simp [lib2]) "mix" [0]
      mA_within⟩

/-- A static mixture of 28 g and 2 g. -/
noncomputable def bym : Gas.Mix.Entry := ⟨[("ig.N2", 28), ("ig.H2", 2)], true⟩

theorem bym_lists : Lists lib2 coll2 bym [7, 8] (fun s => if s = 7 then 28 else 2) where
  once := by decide
  contents := by simp [bym, lib2]
  gas := (collected2 (m := mA) rfl).gas
  find := (collected2 (m := mA) rfl).find
  dotted := (collected2 (m := mA) rfl).dotted
  nonneg := by intro s _; split <;> norm_num
  positive := ⟨7, by simp, by norm_num⟩
  mw := lib2_weighs mA

/-- `fromigmix` of it, and back, in kmol. -/
example : ∃ m D', (fromigmix envK lib2 coll2 bym {}).1 = .ok m ∧
    toigmix lib2 m "back" = .ok [("back", D')] ∧
    (Gas.Mix.mX coll2 D' {}).1 = (Gas.Mix.mX coll2 bym {}).1 := by
  obtain ⟨m, D', h1, h2, h3⟩ := C85_static_round_trip
    (mixEnv_works (um := "kg") (un := "kmol") (uq := "kmol") rfl rfl (Or.inr rfl)) (Or.inl (by
      show size (Units.mass envK.a) "kg" = size (Units.molar envK.a) "kmol"
      rfl)) lib2 coll2 bym
    [7, 8] _ bym_lists {} .new "back"
  exact ⟨m, D', h1, h2, (h3 {} .new).1⟩

end PyroMat.Igt.Props
