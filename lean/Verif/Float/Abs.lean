import Verif.Float.Near

/-!
# Absolute errors
-/

namespace PyroMat.Float

variable {ε : ℝ} {A : Arith}

theorem err_round {x y z α : ℝ} (h0 : 0 ≤ ε) (h : |y - x| ≤ α) (hr : Within ε y z) : |z - x| ≤ (1 + ε) * α + ε * |x| := by
  unfold Within at hr
  have h1 := abs_add_le (z - y) (y - x)
  have h2 : |y| ≤ |x| + α := by
    have := abs_add_le (y - x) x
    simp only [sub_add_cancel] at this
    linarith
  simp only [sub_add_sub_cancel] at h1
  nlinarith

theorem err_add {a b a' b' α β : ℝ} (h0 : 0 ≤ ε) (hA : Accurate ε A) (ha : |a' - a| ≤ α) (hb : |b' - b| ≤ β) :
    |A.add a' b' - (a + b)| ≤ (1 + ε) * (α + β) + ε * |a + b| := by
  refine err_round h0 ?_ (hA.add a' b')
  rw [show a' + b' - (a + b) = (a' - a) + (b' - b) by ring]
  exact (abs_add_le _ _).trans (add_le_add ha hb)

theorem err_sub {a b a' b' α β : ℝ} (h0 : 0 ≤ ε) (hA : Accurate ε A) (ha : |a' - a| ≤ α) (hb : |b' - b| ≤ β) :
    |A.sub a' b' - (a - b)| ≤ (1 + ε) * (α + β) + ε * |a - b| := by
  refine err_round h0 ?_ (hA.sub a' b')
  rw [show a' - b' - (a - b) = (a' - a) + -(b' - b) by ring]
  refine (abs_add_le _ _).trans (add_le_add ha ?_)
  rwa [abs_neg]

theorem err_mul {a b a' b' α β : ℝ} (h0 : 0 ≤ ε) (hA : Accurate ε A) (ha : |a' - a| ≤ α) (hb : |b' - b| ≤ β) :
    |A.mul a' b' - a * b| ≤ (1 + ε) * (α * |b| + |a| * β + α * β) + ε * |a * b| := by
  refine err_round h0 ?_ (hA.mul a' b')
  rw [show a' * b' - a * b = (a' - a) * b + (a * (b' - b) + (a' - a) * (b' - b)) by ring, add_assoc]
  refine (abs_add_le _ _).trans (add_le_add ?_ ((abs_add_le _ _).trans (add_le_add ?_ ?_)))
  · rw [abs_mul]; exact mul_le_mul_of_nonneg_right ha (abs_nonneg _)
  · rw [abs_mul]; exact mul_le_mul_of_nonneg_left hb (abs_nonneg _)
  · rw [abs_mul]; exact mul_le_mul ha hb (abs_nonneg _) ((abs_nonneg _).trans ha)

end PyroMat.Float
