import Verif.Shipped.PropsMass

/-!
# A reaction to which C99 applies
-/

set_option linter.unusedSimpArgs false

namespace PyroMat.Shipped.Props

open PyroMat PyroMat.Units PyroMat.Units.Spec PyroMat.Gas PyroMat.Gas.Spec PyroMat.Igt PyroMat.Igt.Spec
  PyroMat.Igt.Props PyroMat.Shipped PyroMat.Shipped.Spec PyroMat.Shipped.Data
open scoped BigOperators

theorem find_file (i : String) (l : List (String × Int))
    (h : (shipped.any fun f => f.id == i && f.atoms == l) = true) : ∃ f ∈ shipped, f.id = i ∧ f.atoms = l := by
  obtain ⟨f, hf, he⟩ := List.any_eq_true.mp h
  simp only [Bool.and_eq_true, beq_iff_eq] at he
  exact ⟨f, hf, he⟩

/-- A collection of three gases. -/
noncomputable def lib3 (f : Fin 3 → File) : Lib (Fin 3) where
  sid := fun s => (f s).id
  cls := fun _ => .ig
  inIg := fun _ => true
  gas := fun s => (f s).gas
  atoms := fun s => (f s).atoms.map fun a => (a.1, (a.2 : ℝ))
  find := fun _ => none

/-- 2 kmol of the first and 1 kmol of the second. -/
def before : Mix (Fin 3) := ⟨[0, 1], ⟨[2, 1], fun i => if i.headD 0 = 0 then 2 else 1⟩⟩

/-- 2 kmol of the third. -/
def after : Mix (Fin 3) := ⟨[2], ⟨[1, 1], fun _ => 2⟩⟩

theorem weigh_before (w : Fin 3 → ℝ) : weigh w before [0] = w 0 * 2 + w 1 := by
  rw [weigh_rows]
  simp [before, Finset.sum_range_succ]

theorem weigh_after (w : Fin 3 → ℝ) : weigh w after [0] = w 2 * 2 := by
  rw [weigh_rows]
  simp [after, Finset.sum_range_succ]

/-- Two kmol of hydrogen and one of oxygen have the mass of two kmol of steam, to 3 parts in 10 000. -/
example : ∃ (f : Fin 3 → File) (A B : Arr), (f 0).id = "ig.H2" ∧ (f 1).id = "ig.O2" ∧ (f 2).id = "ig.H2O" ∧
    mMass (mixEnv "kg" "kmol" "kg") (lib3 f) before = .ok A ∧
    mMass (mixEnv "kg" "kmol" "kg") (lib3 f) after = .ok B ∧
    |A.val [0] - B.val [0]| ≤ 3e-4 * (A.val [0] + B.val [0]) := by
  obtain ⟨h, h1, h2, h3⟩ := find_file "ig.H2" [("H", 2)] (by decide +kernel)
  obtain ⟨o, o1, o2, o3⟩ := find_file "ig.O2" [("O", 2)] (by decide +kernel)
  obtain ⟨w, w1, w2, w3⟩ := find_file "ig.H2O" [("H", 2), ("O", 1)] (by decide +kernel)
  have hW := mixEnv_works (um := "kg") (un := "kmol") (uq := "kg") rfl rfl (Or.inl rfl)
  have hL : ∀ s, FromFile (lib3 ![h, o, w]) s := by
    intro s
    refine ⟨![h, o, w] s, ?_, rfl, rfl⟩
    fin_cases s <;> assumption
  obtain ⟨A, B, d, e, e1, e2, e3, e4, hb⟩ := C99_balance hW (show (1 : ℝ) = 1 from rfl) (lib3 ![h, o, w]) before after
    (fun s _ => hL s) (fun s _ => hL s)
  refine ⟨![h, o, w], A, B, h2, o2, w2, e1, e2, hb [0] [0] ?_ ?_ ?_⟩
  · intro s _
    unfold amount
    refine Finset.sum_nonneg fun r _ => ?_
    split
    · simp only [before]; split <;> norm_num
    · exact le_rfl
  · intro s _
    unfold amount
    refine Finset.sum_nonneg fun r _ => ?_
    split
    · simp only [after]; norm_num
    · exact le_rfl
  · intro k
    obtain ⟨d', e5, v⟩ := C40_atoms hW (lib3 ![h, o, w]) before
    obtain ⟨d'', e6, v'⟩ := C40_atoms hW (lib3 ![h, o, w]) after
    rw [e3] at e5; cases e5
    rw [e4] at e6; cases e6
    rw [v, v', weigh_before, weigh_after]
    congr 1
    have a0 : ∀ s, atomsIn (lib3 ![h, o, w]) k s =
        (((![h, o, w] s).atoms.map fun a => (a.1, (a.2 : ℝ))).filter (fun p => p.1 = k) |>.map Prod.snd).sum := fun s => rfl
    rw [a0, a0, a0]
    simp only [Matrix.cons_val_zero, Matrix.cons_val_one, Matrix.cons_val, h3, o3, w3]
    by_cases k1 : "H" = k
    · subst k1; simp [List.filter_cons]
    · by_cases k2 : "O" = k
      · subst k2; simp [List.filter_cons]
      · simp [List.filter_cons, k1, k2]

end PyroMat.Shipped.Props
