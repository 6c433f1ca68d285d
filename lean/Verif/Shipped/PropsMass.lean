import Verif.Igt.PropsMeasure
import Verif.Shipped.Mass
import Verif.Shipped.MpGood
import Verif.Shipped.Regular

/-!
# Atoms and mass of the shipped substances (C99)
-/

set_option linter.unusedSimpArgs false

namespace PyroMat.Shipped.Spec

open PyroMat PyroMat.Gas PyroMat.Igt PyroMat.Shipped

/-- The sum of the atomic weights of a formula. -/
noncomputable def formulaWeight (atoms : List (String × Int)) : ℝ :=
  (atoms.map fun a => a.2 * atomicWeight a.1).sum

/-- Substance `s` of the collection was loaded from a shipped file. -/
def FromFile {σ : Type} (L : Lib σ) (s : σ) : Prop :=
  ∃ f ∈ shipped, L.gas s = f.gas ∧ L.atoms s = f.atoms.map fun a => (a.1, (a.2 : ℝ))

end PyroMat.Shipped.Spec

namespace PyroMat.Shipped.Props

open PyroMat PyroMat.Units PyroMat.Units.Spec PyroMat.Gas PyroMat.Gas.Spec PyroMat.Igt PyroMat.Igt.Spec
  PyroMat.Igt.Props PyroMat.Shipped PyroMat.Shipped.Spec PyroMat.Shipped.Data
open scoped BigOperators

theorem lookup_symbol {a : String} {w : Nat} (h : weights.lookup a = some w) : a ∈ symbols := by
  unfold symbols
  rw [List.mem_toFinset]
  generalize weights = l at h
  induction l with
  | nil => cases h
  | cons b l ih =>
    rw [List.lookup_cons] at h
    by_cases hb : a == b.1
    · simp [beq_iff_eq.mp hb]
    · simp only [hb] at h
      exact List.mem_cons_of_mem _ (ih h)

theorem sumN_spec (l : List (String × Int)) {s : Int} (h : sumN l = some s) :
    formulaWeight l = s / 10 ^ 8 ∧ ∀ a ∈ l, a.1 ∈ symbols := by
  induction l generalizing s with
  | nil =>
    cases h
    simp [formulaWeight]
  | cons a as ih =>
    unfold sumN at h
    cases hw : weights.lookup a.1 with
    | none => simp [hw] at h
    | some w =>
      cases hs : sumN as with
      | none => simp [hw, hs] at h
      | some t =>
        rw [hw, hs] at h
        simp only [Option.some.injEq] at h
        obtain ⟨h1, h2⟩ := ih hs
        constructor
        · unfold formulaWeight at h1 ⊢
          rw [List.map_cons, List.sum_cons, h1, ← h]
          unfold atomicWeight
          rw [hw, Option.getD_some]
          push_cast
          simp
          ring
        · intro b hb
          rcases List.mem_cons.mp hb with rfl | hb
          · exact lookup_symbol hw
          · exact h2 b hb

theorem weighs_spec {m : Dec} {l : List (String × Int)} (h : weighs m l = true) :
    |m.val - formulaWeight l| ≤ 3e-4 * m.val ∧ ∀ a ∈ l, a.1 ∈ symbols := by
  unfold weighs at h
  cases hs : sumN l with
  | none => rw [hs] at h; cases h
  | some s =>
    rw [hs] at h
    simp only [Bool.and_eq_true, decide_eq_true_eq] at h
    obtain ⟨h1, h2⟩ := h
    obtain ⟨e, hm⟩ := sumN_spec l hs
    refine ⟨?_, hm⟩
    rw [e]
    unfold Dec.val
    have hp : (0 : ℝ) < 10 ^ m.e := by positivity
    have h1' : (10000 : ℝ) * |(m.m : ℝ) * 10 ^ 8 - s * 10 ^ m.e| ≤ 3 * |(m.m : ℝ) * 10 ^ 8| := by
      have := h1
      zify at this
      have := (Int.cast_le (R := ℝ)).mpr this
      push_cast at this
      norm_num at this ⊢
      exact this
    have h2' : (0 : ℝ) < m.m := by exact_mod_cast h2
    rw [abs_of_pos (a := (m.m : ℝ) * 10 ^ 8) (by positivity)] at h1'
    have key : (m.m : ℝ) / 10 ^ m.e - s / 10 ^ 8 = (m.m * 10 ^ 8 - s * 10 ^ m.e) / (10 ^ m.e * 10 ^ 8) := by
      field_simp
    rw [key, abs_div, abs_of_pos (a := (10 : ℝ) ^ m.e * 10 ^ 8) (by positivity), div_le_iff₀ (by positivity)]
    have : 3e-4 * ((m.m : ℝ) / 10 ^ m.e) * (10 ^ m.e * 10 ^ 8) = 3e-4 * (m.m * 10 ^ 8) := by
      field_simp
    rw [this]
    norm_num at h1' ⊢
    linarith

/-- **C99**, ideal gases.  The molecular weight of every shipped gas is the sum of the standard atomic
weights of its atoms (electrons included) to 3 parts in 10 000. -/
theorem C99_gas (f : File) (hf : f ∈ shipped) :
    |f.gas.mw - formulaWeight f.atoms| ≤ 3e-4 * f.gas.mw ∧ ∀ a ∈ f.atoms, a.1 ∈ symbols := by
  rw [gas_mw]
  exact weighs_spec (List.all_eq_true.mp gases_weigh f hf)

/-- **C99**, multi-phase substances. -/
theorem C99_multiphase (f : MpFile) (hf : f ∈ shippedMp) :
    |f.sub.mw - formulaWeight f.atoms| ≤ 3e-4 * f.sub.mw ∧ ∀ a ∈ f.atoms, a.1 ∈ symbols :=
  weighs_spec (List.all_eq_true.mp mps_weigh f hf)

/-- Weighing the atoms kind by kind. -/
theorem by_kind (l : List (String × Int)) (h : ∀ a ∈ l, a.1 ∈ symbols) :
    ∑ k ∈ symbols, atomicWeight k *
      (((l.map fun a => (a.1, (a.2 : ℝ))).filter (fun p => p.1 = k)).map Prod.snd).sum = formulaWeight l := by
  induction l with
  | nil => simp [formulaWeight]
  | cons a as ih =>
    have ih := ih fun b hb => h b (List.mem_cons_of_mem _ hb)
    have ha := h a List.mem_cons_self
    unfold formulaWeight at ih ⊢
    rw [List.map_cons, List.map_cons, List.sum_cons, ← ih]
    have : ∀ k ∈ symbols, atomicWeight k *
        ((((a.1, (a.2 : ℝ)) :: as.map fun a => (a.1, (a.2 : ℝ))).filter (fun p => p.1 = k)).map Prod.snd).sum =
        (if a.1 = k then a.2 * atomicWeight k else 0) + atomicWeight k *
        (((as.map fun a => (a.1, (a.2 : ℝ))).filter (fun p => p.1 = k)).map Prod.snd).sum := by
      intro k _
      rw [List.filter_cons]
      by_cases hk : a.1 = k
      · simp [hk]; ring
      · simp [hk]
    rw [Finset.sum_congr rfl this, Finset.sum_add_distrib]
    congr 1
    rw [Finset.sum_ite_eq]
    simp [ha]

section

variable {σ : Type} [DecidableEq σ] {E : Env} {S : Sys} {um un : String}

/-- **C99**, mixtures.  For a mixture of any shipped gases in nonnegative amounts, with consistent mass and
molar units, `mass()` is the atomic weights times `atoms()`, to 3 parts in 10 000. -/
theorem C99_mass_atoms (hW : Works E S um un) (hC : Consistent E um un) (L : Lib σ) (m : Mix σ)
    (hL : ∀ s ∈ m.c, FromFile L s) :
    ∃ A d, mMass E L m = .ok A ∧ A.shape = m.shape ∧ mAtoms E L m = .ok d ∧
      ∀ i, (∀ s ∈ m.c, 0 ≤ amount m s i) →
        |A.val i - ∑ a ∈ symbols, atomicWeight a * count d a i| ≤ 3e-4 * A.val i := by
  have hm : Weighs L m := by
    intro s hs
    obtain ⟨f, hf, e, -⟩ := hL s hs
    obtain ⟨b, hb⟩ := shipped_checked f hf
    rw [e]
    exact gas_mw_pos hb
  obtain ⟨A, e1, hsh, v1⟩ := C40_mass_partial hW hC L m hm
  obtain ⟨d, e2, v2⟩ := C40_atoms hW L m
  refine ⟨A, d, e1, hsh, e2, fun i h0 => ?_⟩
  have hu := massSize_pos hW
  rw [v1 i]
  simp only [v2]
  rw [← show size (Units.mass E.a) um = size (Units.molar E.a) un from hC]
  have e3 : ∑ a ∈ symbols, atomicWeight a * (weigh (atomsIn L a) m i / size (Units.mass E.a) um) =
      (∑ s ∈ m.c.toFinset, (∑ a ∈ symbols, atomicWeight a * atomsIn L a s) * amount m s i) / size (Units.mass E.a) um := by
    unfold weigh
    simp only [Finset.sum_div, Finset.mul_sum, Finset.sum_mul]
    rw [Finset.sum_comm]
    refine Finset.sum_congr rfl fun s _ => Finset.sum_congr rfl fun a _ => ?_
    ring
  rw [e3, ← sub_div, abs_div, abs_of_pos hu, ← mul_div_assoc]
  refine div_le_div_of_nonneg_right ?_ hu.le
  unfold weigh
  rw [← Finset.sum_sub_distrib, Finset.mul_sum]
  refine (Finset.abs_sum_le_sum_abs _ _).trans (Finset.sum_le_sum fun s hs => ?_)
  have hs' := List.mem_toFinset.mp hs
  obtain ⟨f, hf, g1, g2⟩ := hL s hs'
  obtain ⟨w1, w2⟩ := C99_gas f hf
  have e4 : ∑ a ∈ symbols, atomicWeight a * atomsIn L a s = formulaWeight f.atoms := by
    rw [← by_kind _ w2]
    refine Finset.sum_congr rfl fun a _ => ?_
    unfold atomsIn
    rw [g2]
  dsimp only
  rw [e4, g1, ← sub_mul, abs_mul, abs_of_nonneg (h0 s hs'), ← mul_assoc]
  exact mul_le_mul_of_nonneg_right w1 (h0 s hs')

/-- **C99**, balance.  Two mixtures of shipped gases with the same atoms, as before and after any reaction,
have the same mass to 3 parts in 10 000 of the two. -/
theorem C99_balance (hW : Works E S um un) (hC : Consistent E um un) (L : Lib σ) (a b : Mix σ)
    (ha : ∀ s ∈ a.c, FromFile L s) (hb : ∀ s ∈ b.c, FromFile L s) :
    ∃ A B d e, mMass E L a = .ok A ∧ mMass E L b = .ok B ∧ mAtoms E L a = .ok d ∧ mAtoms E L b = .ok e ∧
      ∀ i j, (∀ s ∈ a.c, 0 ≤ amount a s i) → (∀ s ∈ b.c, 0 ≤ amount b s j) →
        (∀ k, count d k i = count e k j) → |A.val i - B.val j| ≤ 3e-4 * (A.val i + B.val j) := by
  obtain ⟨A, d, e1, -, e2, h1⟩ := C99_mass_atoms hW hC L a ha
  obtain ⟨B, e, e3, -, e4, h2⟩ := C99_mass_atoms hW hC L b hb
  refine ⟨A, B, d, e, e1, e3, e2, e4, fun i j p q h => ?_⟩
  have x := abs_le.mp (h1 i p)
  have y := abs_le.mp (h2 j q)
  simp only [h] at x
  rw [abs_le]
  constructor <;> linarith [x.1, x.2, y.1, y.2]

end

end PyroMat.Shipped.Props
