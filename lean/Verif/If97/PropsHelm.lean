import Mathlib.Topology.Order.IntermediateValue
import Verif.If97.PropsGibbs

/-!
# Steam: region 3 (C67), lemmas
-/

set_option linter.unusedSimpArgs false

namespace PyroMat.If97.Props

open PyroMat PyroMat.Mp PyroMat.Mp.Spec PyroMat.Gas PyroMat.If97 PyroMat.If97.Spec Filter Topology

/-- The free energy of region 3 with its derivatives. -/
noncomputable def phiJet (W : Water) (F : Nat → ℝ → ℝ → J6) (n t : ℝ) : J6 :=
  ⟨(F 2 n t).p + W.r3ln * Real.log n, (F 2 n t).px + W.r3ln / n, (F 2 n t).py,
    (F 2 n t).pxx - W.r3ln / n / n, (F 2 n t).pxy, (F 2 n t).pyy⟩

theorem phiJet_jet {W : Water} {F : Nat → ℝ → ℝ → J6} {n t : ℝ} (hn : n ≠ 0) (h : Jet2 (F 2) n t) :
    Jet2 (phiJet W F) n t := by
  have hL : Jet1 (fun s => (⟨W.r3ln * Real.log s, W.r3ln / s, -(W.r3ln / s / s)⟩ : P3)) n := by
    refine ⟨?_, ?_⟩
    · refine ((Real.hasDerivAt_log hn).const_mul W.r3ln).congr_deriv ?_
      simp [div_eq_mul_inv]
    · have := (hasDerivAt_inv hn).const_mul W.r3ln
      refine (this.congr_of_eventuallyEq (Eventually.of_forall fun s => ?_)).congr_deriv ?_
      · simp [div_eq_mul_inv]
      · field_simp
  refine (h.add (Jet2.liftX hL t)).congr' fun u v => ?_
  simp only [phiJet, J6.add, P3.liftX, J6.mk.injEq]
  refine ⟨?_, ?_, ?_, ?_, ?_, ?_⟩ <;> first | trivial | ring1

/-- The properties by the Helmholtz energy. -/
theorem helm_value (q : Q) {R Tc dc T n : ℝ} (hR : R ≠ 0) (hT : T ≠ 0) (hdc : dc ≠ 0) (hn : n ≠ 0)
    (g : ℝ → ℝ → J6) :
    q.helm R dc T ⟨n, Tc / T, g n (Tc / T)⟩ = fromHelm q T (dc * n) (fullJet R Tc dc g T (dc * n)) := by
  have e : dc * n / dc = n := by field_simp
  simp only [Q.helm, fromHelm, fullJet, e]
  generalize g n (Tc / T) = j
  cases q
  · field_simp; ring
  · ring
  · rfl
  · ring
  · by_cases hj : 2 * j.px + n * j.pxx = 0
    · have h1 : 2 * n * j.px + n * n * j.pxx = 0 := by linear_combination n * hj
      have h2 : 2 * (dc * n) * (R * T * j.px / dc) + (dc * n) ^ 2 * (R * T * j.pxx / dc ^ 2) = 0 := by
        have : 2 * (dc * n) * (R * T * j.px / dc) + (dc * n) ^ 2 * (R * T * j.pxx / dc ^ 2) =
            R * T * n * (2 * j.px + n * j.pxx) := by field_simp
        rw [this, hj, mul_zero]
      rw [h1, h2]
      simp
      field_simp
    · have h1 : 2 * n * j.px + n * n * j.pxx ≠ 0 := by
        rw [show 2 * n * j.px + n * n * j.pxx = n * (2 * j.px + n * j.pxx) by ring]
        exact mul_ne_zero hn hj
      field_simp
  · field_simp

/-- The pressure by the Helmholtz energy. -/
theorem helm_pressure {R Tc dc T n : ℝ} (hdc : dc ≠ 0) (g : ℝ → ℝ → J6) :
    pressureOf (dc * n) (fullJet R Tc dc g T (dc * n)) =
      dc * R * T * (n * n * (g n (Tc / T)).px) / 100 := by
  have e : dc * n / dc = n := by field_simp
  simp only [pressureOf, fullJet, e]
  field_simp

/-- What the bisection returns: the midpoint of a bracket of the pressure. -/
theorem bisect_bracket {W : Water} {t pp : ℝ} {P : ℝ → ℝ} {V : ℝ → J6}
    (hP : ∀ n, 0 < n → pfromd W t n = .ok (P n, V n)) (k : Nat) {na nb : ℝ} (l : ℝ × J6)
    (ha : 0 < na) (hab : na ≤ nb) (h1 : P na ≤ pp) (h2 : pp ≤ P nb) {r : ℝ × J6}
    (h : bisect W t pp (k + 1) na nb l = .ok r) :
    ∃ a b, na ≤ a ∧ a ≤ b ∧ b ≤ nb ∧ P a ≤ pp ∧ pp ≤ P b ∧ b - a = (nb - na) / 2 ^ k ∧
      r = (0.5 * (a + b), V (0.5 * (a + b))) := by
  induction k generalizing na nb l with
  | zero =>
    have hc : (0 : ℝ) < 0.5 * (na + nb) := by linarith
    simp only [bisect, hP _ hc] at h
    dsimp only [Bind.bind, Except.bind] at h
    refine ⟨na, nb, le_refl _, hab, le_refl _, h1, h2, by simp, ?_⟩
    split_ifs at h <;> (cases h; rfl)
  | succ k ih =>
    have hc : (0 : ℝ) < 0.5 * (na + nb) := by linarith
    rw [bisect, hP _ hc] at h
    dsimp only [Bind.bind, Except.bind] at h
    split_ifs at h with hgt
    · obtain ⟨a, b, e1, e2, e3, e4, e5, e6, e7⟩ := ih _ ha (by linarith) h1 (le_of_lt hgt) h
      refine ⟨a, b, e1, e2, by linarith, e4, e5, ?_, e7⟩
      rw [e6, pow_succ]; field_simp; ring
    · obtain ⟨a, b, e1, e2, e3, e4, e5, e6, e7⟩ := ih _ hc (by linarith) (not_lt.mp hgt) h2 h
      refine ⟨a, b, by linarith, e2, e3, e4, e5, ?_, e7⟩
      rw [e6, pow_succ]; field_simp; ring

/-- Conditions on the data of region 3. -/
structure Good3 (W : Water) : Prop where
  r3 : WellFormed W.r3
  R : 0 < W.R
  dc : 0 < W.dc

/-- **C67.** The state of region 3. -/
theorem region3 {W : Water} (hW : Good3 W) {T p pa pb : ℝ} (hT : 0 < T) (hTc : 0 < W.Tc)
    (ha : PressureAt W T (W.dc * 0.1) pa) (hb : PressureAt W T (W.dc * 2.4) pb) (h1 : pa ≤ p)
    (h2 : p ≤ pb) :
    ∃ d ds, (∀ q : Q, ∃ f j, f3 W T p = .ok f ∧ Is2 (helmholtz W) T d j ∧
        q.helm W.R W.dc T f = fromHelm q T d j) ∧
      PressureAt W T ds p ∧ |d - ds| ≤ W.dc * 2.3 / 2 ^ 14 ∧
      W.dc * 0.1 ≤ ds ∧ ds ≤ W.dc * 2.4 ∧ W.dc * 0.1 ≤ d ∧ d ≤ W.dc * 2.4 := by
  obtain ⟨F, k1, k2, k3, -⟩ := peval_does W.r3 hW.r3
  have hreg : ∀ n t : ℝ, 0 < n → 0 < t → Regular W.r3 n t := fun n t hn ht =>
    ⟨Or.inl hn.ne', Or.inl ht.ne'⟩
  have hdc := hW.dc.ne'
  have hR := hW.R.ne'
  have ht : 0 < W.Tc / T := div_pos hTc hT
  have hV : IsOpen {a : ℝ × ℝ | 0 < a.1 ∧ 0 < a.2} :=
    (isOpen_lt continuous_const continuous_fst).inter (isOpen_lt continuous_const continuous_snd)
  have hIs : ∀ n, 0 < n → Is2 (helmholtz W) T (W.dc * n)
      (fullJet W.R W.Tc W.dc (phiJet W F) T (W.dc * n)) := by
    intro n hn
    refine is_full hdc hV (fun x y hxy => phiJet_jet hxy.1.ne' (k2 x y (hreg x y hxy.1 hxy.2))) ?_ hT.ne' ?_
    · intro T d _ h
      show W.R * T * ((F 2 _ _).p + _) = _
      rw [k3 2 _ _ (hreg _ _ h.1 h.2), helmholtz]
      ring
    · refine ⟨?_, ht⟩
      show 0 < W.dc * n / W.dc
      rw [mul_div_cancel_left₀ _ hdc]; exact hn
  let P : ℝ → ℝ := fun n => n * n * (phiJet W F n (W.Tc / T)).px
  have hP : ∀ n, 0 < n → pfromd W (W.Tc / T) n = .ok (P n, phiJet W F n (W.Tc / T)) := by
    intro n _
    unfold pfromd
    rw [k1]; rfl
  let c : ℝ := W.dc * W.R * T / 100
  have hc : 0 < c := by
    have := mul_pos (mul_pos hW.dc hW.R) hT
    show 0 < W.dc * W.R * T / 100
    linarith
  have hPr : ∀ n x, 0 < n → PressureAt W T (W.dc * n) x → x = c * P n := by
    rintro n x hn ⟨j, hj, rfl⟩
    have e := (hIs n hn)
    have : j.py = (fullJet W.R W.Tc W.dc (phiJet W F) T (W.dc * n)).py := hj.dy.unique e.dy
    unfold pressureOf
    rw [this]
    have := helm_pressure (R := W.R) (Tc := W.Tc) (T := T) (n := n) hdc (phiJet W F)
    rw [pressureOf] at this
    rw [this]
    show _ = W.dc * W.R * T / 100 * (n * n * (phiJet W F n (W.Tc / T)).px)
    ring
  have hPr' : ∀ n, 0 < n → PressureAt W T (W.dc * n) (c * P n) := by
    intro n hn
    refine ⟨_, hIs n hn, ?_⟩
    rw [helm_pressure hdc]
    show W.dc * W.R * T / 100 * (n * n * (phiJet W F n (W.Tc / T)).px) = _
    ring
  let pp : ℝ := p * 1e2 / (W.dc * W.R * T)
  have hpp : p = c * pp := by
    show p = W.dc * W.R * T / 100 * (p * 1e2 / (W.dc * W.R * T))
    have h3 := hT.ne'
    field_simp
    norm_num
  rw [hPr _ _ (by norm_num) ha, hpp] at h1
  rw [hPr _ _ (by norm_num) hb, hpp] at h2
  have h1' : P 0.1 ≤ pp := le_of_mul_le_mul_left h1 hc
  have h2' : pp ≤ P 2.4 := le_of_mul_le_mul_left h2 hc
  obtain ⟨r, hr⟩ := bisect_ok (W := W) hW.r3 (W.Tc / T) pp 14 0.1 2.4 (0, ⟨0, 0, 0, 0, 0, 0⟩)
  obtain ⟨a, b, e1, e2, e3, e4, e5, e6, e7⟩ := bisect_bracket hP 13 _ (by norm_num) (by norm_num) h1' h2' hr
  have hcont : ContinuousOn P (Set.Icc a b) := by
    intro n hn
    have hn0 : 0 < n := lt_of_lt_of_le (by norm_num) (le_trans e1 hn.1)
    have hj := phiJet_jet (W := W) (F := F) hn0.ne' (k2 n (W.Tc / T) (hreg n _ hn0 ht))
    exact ((continuousAt_id.mul continuousAt_id).mul hj.dxx.continuousAt).continuousWithinAt
  obtain ⟨ns, hns, hroot⟩ := intermediate_value_Icc e2 hcont ⟨e4, e5⟩
  have ha0 : 0 < a := lt_of_lt_of_le (by norm_num) e1
  have hns0 : 0 < ns := lt_of_lt_of_le ha0 hns.1
  have hn0 : 0 < 0.5 * (a + b) := by linarith
  refine ⟨W.dc * (0.5 * (a + b)), W.dc * ns, fun q => ⟨⟨0.5 * (a + b), W.Tc / T,
    phiJet W F (0.5 * (a + b)) (W.Tc / T)⟩, _, ?_, hIs _ hn0, helm_value q hR hT.ne' hdc hn0.ne' _⟩, ?_, ?_, ?_, ?_, ?_, ?_⟩
  · unfold f3
    rw [show (0.10 : ℝ) = 0.1 by norm_num, hr, e7]; rfl
  · rw [hpp, ← hroot]; exact hPr' ns hns0
  · rw [← mul_sub, abs_mul, abs_of_pos hW.dc, mul_div_assoc]
    refine mul_le_mul_of_nonneg_left ?_ hW.dc.le
    rw [abs_le]
    have := hns.1
    have := hns.2
    norm_num at e6 ⊢
    constructor <;> linarith
  · exact mul_le_mul_of_nonneg_left (le_trans e1 hns.1) hW.dc.le
  · exact mul_le_mul_of_nonneg_left (le_trans hns.2 e3) hW.dc.le
  · exact mul_le_mul_of_nonneg_left (by linarith) hW.dc.le
  · exact mul_le_mul_of_nonneg_left (by linarith) hW.dc.le

end PyroMat.If97.Props
