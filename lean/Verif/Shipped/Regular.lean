import Verif.Gas.PropsMixture
import Verif.Gas.PropsMore
import Verif.Shipped.All
import Verif.Shipped.Pieces

/-!
# Shipped gases as instances of the general theorems
-/

set_option linter.unusedSimpArgs false

namespace PyroMat.Shipped

open PyroMat PyroMat.Units PyroMat.Units.Spec PyroMat.Units.Props PyroMat.Gas PyroMat.Gas.Spec
  PyroMat.Gas.Props

variable {f : File} {b : Nat × Nat}

theorem gas_mw (f : File) : f.gas.mw = f.data.mw := by
  unfold File.gas; cases f.cls <;> rfl

theorem gas_mw_pos (h : check f b = true) : 0 < f.gas.mw := by
  rw [gas_mw]; exact (wellFormed h).mw

theorem gas_Tlo (f : File) : f.gas.Tlo = f.data.Tlim.headD 0 := by
  unfold File.gas; cases f.cls <;> rfl

theorem gas_Thi (f : File) : f.gas.Thi = f.data.Tlim.getLastD 0 := by
  unfold File.gas; cases f.cls <;> rfl

theorem gas_coherent (h : check f b = true) : Coherent f.gas := by
  unfold File.gas
  cases f.cls
  · exact coherent_ig _ (wellFormed h)
  · exact coherent_ig2 _ (wellFormed h)

theorem limits_le (h : check f b = true) : f.gas.Tlo ≤ f.gas.Thi := by
  have hwf := wellFormed h
  rw [gas_Tlo, gas_Thi]
  have hlen : f.data.Tlim.length ≠ 0 := by rw [hwf.rows]; omega
  cases hl : f.data.Tlim with
  | nil => simp [hl] at hlen
  | cons x xs =>
    cases hx : xs.reverse with
    | nil => simp only [List.reverse_eq_nil_iff] at hx; subst hx; simp
    | cons y ys =>
      have : xs = ys.reverse ++ [y] := by rw [← List.reverse_reverse xs, hx]; simp
      have ha := hwf.ascending
      rw [hl, this] at ha
      rw [this, List.headD_cons, ← List.cons_append]
      simp only [List.getLastD_concat]
      exact ((List.pairwise_cons.mp ha).1 y (by simp)).le

/-- What the checks say about the bounds. -/
theorem check_nums (h : check f b = true) : 233 ≤ b.1 ∧ b.2 ≤ 7 * b.1 ∧ b.2 + 800 ≤ 9 * b.1 ∧
    jumps f.cls f.Tlim f.C ≤ (if f.id = "ig.Rb" then 300 else 30) := by
  simp only [check, Bool.and_eq_true] at h
  obtain ⟨⟨⟨⟨⟨⟨⟨k1, k2⟩, k3⟩, -⟩, -⟩, -⟩, k7⟩, -⟩ := h
  have k1 := Nat.le_of_ble_eq_true k1
  have k3 := Nat.le_of_ble_eq_true k3
  exact ⟨k1, Nat.le_of_ble_eq_true k2, by omega, Nat.le_of_ble_eq_true k7⟩

theorem b_le (h : check f b = true) : (b.1 : ℝ) ≤ b.2 := by
  obtain ⟨cp, -, h1, h2⟩ := cp_bounds h f.gas.Tlo le_rfl (limits_le h)
  have := h1.trans h2
  have hR : 0 < Ru := Shipped.Ru_pos
  have := le_of_mul_le_mul_right this hR
  linarith

theorem lipschitz (h : check f b = true) (x x' : ℝ) (h1 : f.gas.Tlo ≤ x) (h2 : x ≤ f.gas.Thi)
    (h3 : f.gas.Tlo ≤ x') (h4 : x' ≤ f.gas.Thi) :
    ∃ y y' c c', f.gas.h x = some (y, c) ∧ f.gas.h x' = some (y', c') ∧
      (b.1 : ℝ) / 100 * Ru * |x - x'| - (jumps f.cls f.Tlim f.C : ℕ) ≤ |y - y'| ∧
      |y - y'| ≤ (b.2 : ℝ) / 100 * Ru * |x - x'| + (jumps f.cls f.Tlim f.C : ℕ) ∧
      |y - Ru * x - (y' - Ru * x')|
        ≤ ((b.2 : ℝ) - 100) / 100 * Ru * |x - x'| + (jumps f.cls f.Tlim f.C : ℕ) := by
  have hb := b_le h
  have h233 : (233 : ℝ) ≤ b.1 := by exact_mod_cast (check_nums h).1
  have hR : 0 < Ru := Shipped.Ru_pos
  have J0 : (0 : ℝ) ≤ (jumps f.cls f.Tlim f.C : ℕ) := Nat.cast_nonneg _
  have key : ∀ x y : ℝ, f.gas.Tlo ≤ x → x ≤ y → y ≤ f.gas.Thi →
      ∃ hx hy cx cy, f.gas.h x = some (hx, cx) ∧ f.gas.h y = some (hy, cy) ∧
        (b.1 : ℝ) / 100 * Ru * |y - x| - (jumps f.cls f.Tlim f.C : ℕ) ≤ |hy - hx| ∧
        |hy - hx| ≤ (b.2 : ℝ) / 100 * Ru * |y - x| + (jumps f.cls f.Tlim f.C : ℕ) ∧
        |hy - Ru * y - (hx - Ru * x)|
          ≤ ((b.2 : ℝ) - 100) / 100 * Ru * |y - x| + (jumps f.cls f.Tlim f.C : ℕ) := by
    intro x y g1 g2 g3
    obtain ⟨hx, hy, cx, cy, e1, e2, l, u⟩ := h_growth h x y g1 g2 g3
    have hyx : 0 ≤ y - x := by linarith
    have q : 0 ≤ Ru * (y - x) := by positivity
    refine ⟨hx, hy, cx, cy, e1, e2, ?_, ?_, ?_⟩
    · rw [abs_of_nonneg hyx]; exact l.trans (le_abs_self _)
    · rw [abs_of_nonneg hyx, abs_le]
      refine ⟨?_, u⟩
      nlinarith
    · rw [abs_of_nonneg hyx, abs_le]
      constructor <;> nlinarith
  rcases le_total x x' with hxx | hxx
  · obtain ⟨y, y', c, c', e1, e2, l, u, v⟩ := key x x' h1 hxx h4
    refine ⟨y, y', c, c', e1, e2, ?_, ?_, ?_⟩
    · rw [abs_sub_comm x x', abs_sub_comm y y']; exact l
    · rw [abs_sub_comm x x', abs_sub_comm y y']; exact u
    · rw [abs_sub_comm x x', abs_sub_comm]; exact v
  · obtain ⟨y', y, c', c, e1, e2, l, u, v⟩ := key x' x h3 hxx h2
    exact ⟨y, y', c, c', e2, e1, l, u, v⟩

theorem regular_h (h : check f b = true) :
    Regular f.gas.h f.gas.Tlo f.gas.Thi ((b.1 : ℝ) / 100 * Ru) ((b.2 : ℝ) / 100 * Ru)
      (jumps f.cls f.Tlim f.C : ℕ) where
  m_pos := by
    have : (233 : ℝ) ≤ b.1 := by exact_mod_cast (check_nums h).1
    have hR : 0 < Ru := Shipped.Ru_pos
    have : (0 : ℝ) < b.1 := by linarith
    positivity
  M_nonneg := by
    have hR : 0 < Ru := Shipped.Ru_pos
    positivity
  J_nonneg := Nat.cast_nonneg _
  slope := by
    intro x h1 h2
    obtain ⟨i, t0, t1, r, e1, e2, e3, k1, k2, -, -, k4⟩ := piece_of h x h1 h2
    have := (walk_piece _ _ _ _ _ (check_walk h) i t0 t1 r e1 e2 e3).2.2 x k1 k2
    exact ⟨_, _, k4, this.1.trans (le_abs_self _)⟩
  lipschitz := by
    intro x x' y y' h1 h2 h3 h4 e1 e2
    obtain ⟨z, z', c, c', g1, g2, -, hl, -⟩ := lipschitz h x x' h1 h2 h3 h4
    rw [g1] at e1
    rw [g2] at e2
    simp only [Option.map_some, Option.some.injEq] at e1 e2
    rw [← e1, ← e2]
    exact hl

theorem regular_e (h : check f b = true) :
    Regular f.gas.e f.gas.Tlo f.gas.Thi (((b.1 : ℝ) - 100) / 100 * Ru) (((b.2 : ℝ) - 100) / 100 * Ru)
      (jumps f.cls f.Tlim f.C : ℕ) where
  m_pos := by
    have : (233 : ℝ) ≤ b.1 := by exact_mod_cast (check_nums h).1
    have hR : 0 < Ru := Shipped.Ru_pos
    have : (0 : ℝ) < (b.1 : ℝ) - 100 := by linarith
    positivity
  M_nonneg := by
    have hb := b_le h
    have : (233 : ℝ) ≤ b.1 := by exact_mod_cast (check_nums h).1
    have hR : 0 < Ru := Shipped.Ru_pos
    have : (0 : ℝ) < (b.2 : ℝ) - 100 := by linarith
    positivity
  J_nonneg := Nat.cast_nonneg _
  slope := by
    intro x h1 h2
    obtain ⟨i, t0, t1, r, e1, e2, e3, k1, k2, -, -, k4⟩ := piece_of h x h1 h2
    have := (walk_piece _ _ _ _ _ (check_walk h) i t0 t1 r e1 e2 e3).2.2 x k1 k2
    refine ⟨_, _, by simp only [Gas.e, k4, Option.map_some]; rfl, ?_⟩
    refine le_trans ?_ (le_abs_self _)
    linarith [this.1]
  lipschitz := by
    intro x x' y y' h1 h2 h3 h4 e1 e2
    obtain ⟨z, z', c, c', g1, g2, -, -, hl⟩ := lipschitz h x x' h1 h2 h3 h4
    simp only [Gas.e, g1, g2, Option.map_some, Option.some.injEq] at e1 e2
    rw [← e1, ← e2]
    exact hl

theorem entropy_pos {E : Env} {S : Sys} (hU : Uses E S) {mw : ℝ} (hmw : 0 < mw) :
    0 < inUnits E.a S mw .entropy 1 := by
  have h0 : inUnits E.a S mw .entropy 0 = 0 := by simp [inUnits]
  have := entropy_mono hU hmw (show (0 : ℝ) ≤ 1 by norm_num)
  rw [h0] at this
  exact lt_of_le_of_ne this (entropy_scale_ne hU hmw.ne').symm

end PyroMat.Shipped
