import Mathlib.Tactic.IntervalCases
import Verif.Mp.PropsDilute

/-!
# The heat capacity at vanishing density as a sum
-/

set_option linter.unusedSimpArgs false

namespace PyroMat.Mp.Props

open PyroMat PyroMat.Mp PyroMat.Mp.Spec Filter Topology

/-- A power times a constant, with its derivatives. -/
noncomputable def cpow (c b s : ℝ) : P3 := ⟨c * s ^ b, c * (b * s ^ b / s), c * (b * s ^ b / s * (b - 1) / s)⟩

theorem cpow_jet (c b : ℝ) {x : ℝ} (hx : x ≠ 0) : Jet1 (cpow c b) x := by
  refine ((Jet1.const c x).mul (Jet1.rpow b hx)).congr (Eventually.of_forall fun s => ?_)
  simp only [cpow]
  congr 1 <;> ring

/-- What a term of a polynomial gives to `−x²` times the second derivative. -/
noncomputable def capTerm (g : Group1) (x : ℝ) (t : Nat × ℝ) : ℝ :=
  -(t.2 * ((g.pre * t.1 + g.post) * (g.pre * t.1 + g.post - 1)) * x ^ (g.pre * t.1 + g.post))

theorem evalG1_cap (g : Group1) (hs : Sorted1 g) {x : ℝ} (hx : 0 < x) :
    -(x * x * (evalG1 2 g x).pxx) = (g.terms.map (capTerm g x)).sum := by
  have key : ∀ (l : List (Nat × ℝ)) {s : ℝ}, 0 < s → Jet1 (fun s =>
      (l.map fun t => cpow t.2 (g.pre * t.1 + g.post) s).foldr P3.add ⟨0, 0, 0⟩) s := by
    intro l s hs
    induction l with
    | nil => exact Jet1.const 0 s
    | cons t l ih => exact (cpow_jet _ _ hs.ne').add ih
  have val : ∀ (l : List (Nat × ℝ)) {s : ℝ}, 0 < s →
      ((l.map fun t => cpow t.2 (g.pre * t.1 + g.post) s).foldr P3.add ⟨0, 0, 0⟩).p
        = s ^ g.post * (l.map (fun t => t.2 * (s ^ g.pre) ^ t.1)).sum := by
    intro l s hs
    induction l with
    | nil => simp
    | cons t l ih =>
      simp only [List.map_cons, List.foldr_cons, List.sum_cons, P3.add]
      rw [ih]
      simp only [cpow]
      rw [Real.rpow_add hs, Real.rpow_mul hs.le, Real.rpow_natCast]
      ring
  have cap : ∀ l : List (Nat × ℝ),
      -(x * x * ((l.map fun t => cpow t.2 (g.pre * t.1 + g.post) x).foldr P3.add ⟨0, 0, 0⟩).pxx)
        = (l.map (capTerm g x)).sum := by
    intro l
    induction l with
    | nil => simp
    | cons t l ih =>
      simp only [List.map_cons, List.foldr_cons, List.sum_cons, P3.add]
      rw [← ih]
      simp only [cpow, capTerm]
      have := hx.ne'
      field_simp
      ring
  have e1 : Is1 (fun s => (evalG1 2 g s).p) x (evalG1 2 g x) :=
    Jet1.is ((eventually_gt_nhds hx).mono fun s hs => evalG1_jet g hs) (Eventually.of_forall fun _ => rfl)
  have e2 : Is1 (fun s => (evalG1 2 g s).p) x ((g.terms.map fun t => cpow t.2 (g.pre * t.1 + g.post) x).foldr P3.add ⟨0, 0, 0⟩) :=
    Jet1.is (F := fun s => (g.terms.map fun t => cpow t.2 (g.pre * t.1 + g.post) s).foldr P3.add ⟨0, 0, 0⟩)
      ((eventually_gt_nhds hx).mono fun s hs => key g.terms hs)
      ((eventually_gt_nhds hx).mono fun s hs' => by rw [evalG1_value 2 g s hs, val g.terms hs'])
  rw [← cap, e1.d2.unique e2.d2]

/-- The same for a list of groups. -/
theorem evalGs1_cap (gs : List Group1) (hs : ∀ g ∈ gs, Sorted1 g) {x : ℝ} (hx : 0 < x) :
    -(x * x * (evalGs1 gs x).pxx) = (gs.map fun g => (g.terms.map (capTerm g x)).sum).sum := by
  induction gs with
  | nil => simp [evalGs1]
  | cons g gs ih =>
    rw [List.map_cons, List.sum_cons, ← ih fun q hq => hs q (by simp [hq]), ← evalG1_cap g (hs g (by simp)) hx]
    simp only [evalGs1]
    ring

/-- An Einstein term gives a heat capacity that is not negative. -/
theorem expT_cap (r : ℝ × ℝ) (h1 : 0 < r.1) (h2 : 0 ≤ r.2) {x : ℝ} (hx : 0 < x) : 0 ≤ -(x * x * (expT r x).pxx) := by
  simp only [expT, aoExp]
  have he : Real.exp (-r.1 * x) < 1 := by
    rw [Real.exp_lt_one_iff]
    nlinarith
  have hp : 0 < r.1 * Real.exp (-r.1 * x) / (1 - Real.exp (-r.1 * x)) :=
    div_pos (mul_pos h1 (Real.exp_pos _)) (by linarith)
  have : 0 ≤ x * x * (r.2 * (r.1 * Real.exp (-r.1 * x) / (1 - Real.exp (-r.1 * x)) *
      (r.1 + r.1 * Real.exp (-r.1 * x) / (1 - Real.exp (-r.1 * x))))) := by positivity
  linarith

theorem expTs_cap (l : List (ℝ × ℝ)) (h1 : ∀ r ∈ l, 0 < r.1) (h2 : ∀ r ∈ l, 0 ≤ r.2) {x : ℝ} (hx : 0 < x) :
    0 ≤ -(x * x * ((l.map fun r => expT r x).foldr P3.add ⟨0, 0, 0⟩).pxx) := by
  induction l with
  | nil => simp
  | cons r l ih =>
    have a := expT_cap r (h1 r (by simp)) (h2 r (by simp)) hx
    have b := ih (fun q hq => h1 q (by simp [hq])) fun q hq => h2 q (by simp [hq])
    simp only [List.map_cons, List.foldr_cons, P3.add]
    linarith

/-- The heat capacity at constant volume of the ideal-gas part, in units of the gas constant, is at least what
the logarithms and the polynomials give. -/
theorem phiF_cap (g : AOgroup) (hs : ∀ q ∈ g.coef0.getD [], Sorted1 q) (h1 : ∀ r ∈ g.coef1, 0 < r.1)
    (h2 : ∀ r ∈ g.coef1, 0 ≤ r.2) {x : ℝ} (hx : 0 < x) :
    g.logt.getD 0 - g.tlogt.getD 0 * x + ((g.coef0.getD []).map fun q => (q.terms.map (capTerm q x)).sum).sum
      ≤ -(x * x * (phiF g x).pxx) := by
  have a := expTs_cap g.coef1 h1 h2 hx
  rw [← evalGs1_cap _ hs hx]
  simp only [phiF, P3.add, logT, tlogT]
  have e : x * x * (-(g.logt.getD 0 / x) / x) = -g.logt.getD 0 := by
    have := hx.ne'
    field_simp
  have e' : x * x * (g.tlogt.getD 0 / x) = g.tlogt.getD 0 * x := by
    have := hx.ne'
    field_simp
  have : -(x * x * (-(g.logt.getD 0 / x) / x + g.tlogt.getD 0 / x + (evalGs1 (g.coef0.getD []) x).pxx +
      ((g.coef1.map fun r => expT r x).foldr P3.add ⟨0, 0, 0⟩).pxx))
    = -(x * x * (-(g.logt.getD 0 / x) / x)) - x * x * (g.tlogt.getD 0 / x) + -(x * x * (evalGs1 (g.coef0.getD []) x).pxx)
      + -(x * x * ((g.coef1.map fun r => expT r x).foldr P3.add ⟨0, 0, 0⟩).pxx) := by ring
  rw [this, e, e']
  linarith

/-- What a Gaussian term without a power of the density gives. -/
theorem gauss0_cap (r : Row1) (k : Nat) (hk : r.t = k) (hk2 : k ≤ 2) (ha : 0 ≤ r.a) (hb : 0 ≤ r.b) {x : ℝ} (hx : 0 < x)
    (hx2 : x ≤ 3) (hg : |x - r.gam| ≤ 3) :
    -(Real.exp (-(r.a * r.ep ^ 2)) * (|r.c| * (3000 * (1 + r.b) ^ 2))) ≤ -(x * x * (gauss0 r x).pxx) := by
  have hE : 0 < Real.exp (-(r.a * r.ep ^ 2)) := Real.exp_pos _
  by_cases h : r.d = 0
  · have e : x * x * (gauss0 r x).pxx = Real.exp (-r.a * (0 - r.ep) ^ 2 - r.b * (x - r.gam) ^ 2) * (r.c *
        (k * (k - 1) * x ^ k - 4 * k * r.b * x ^ (k + 1) * (x - r.gam)
          + x ^ (k + 2) * (4 * r.b ^ 2 * (x - r.gam) ^ 2 - 2 * r.b))) := by
      rw [gauss0, if_pos h]
      simp only [J6.xPart, gaussF0, J6.mul, quadE, quadF, P3.of, powP, P3.liftX, hk, Real.rpow_natCast]
      have := hx.ne'
      field_simp
      ring
    have hexp : Real.exp (-r.a * (0 - r.ep) ^ 2 - r.b * (x - r.gam) ^ 2) ≤ Real.exp (-(r.a * r.ep ^ 2)) := by
      apply Real.exp_le_exp.mpr
      nlinarith [mul_nonneg hb (sq_nonneg (x - r.gam))]
    have hk0 : (0 : ℝ) ≤ k := Nat.cast_nonneg k
    have hk2' : (k : ℝ) ≤ 2 := by exact_mod_cast hk2
    have p0 : |x ^ k| ≤ 9 := by
      rw [abs_of_pos (by positivity)]
      interval_cases k <;> nlinarith
    have q2 : |(x - r.gam) ^ 2| ≤ 9 := by
      rw [abs_pow]
      nlinarith [abs_nonneg (x - r.gam)]
    have hx' : |x| ≤ 3 := by rw [abs_of_pos hx]; exact hx2
    have hkk : |(k : ℝ) * (k - 1)| ≤ 2 := by interval_cases k <;> norm_num
    have b1 : |(k : ℝ) * (k - 1) * x ^ k| ≤ 2 * 9 := by
      rw [abs_mul]
      gcongr
    have b2 : |4 * k * r.b * x ^ (k + 1) * (x - r.gam)| ≤ 4 * 2 * r.b * (9 * 3) * 3 := by
      rw [pow_succ]
      simp only [abs_mul, abs_of_nonneg hk0, abs_of_nonneg hb, abs_of_pos (by norm_num : (0 : ℝ) < 4)]
      gcongr
    have b3 : |x ^ (k + 2) * (4 * r.b ^ 2 * (x - r.gam) ^ 2 - 2 * r.b)| ≤ (9 * (3 * 3)) * (4 * r.b ^ 2 * 9 + 2 * r.b) := by
      rw [pow_add, sq x, abs_mul, abs_mul, abs_mul]
      have : |4 * r.b ^ 2 * (x - r.gam) ^ 2 - 2 * r.b| ≤ 4 * r.b ^ 2 * 9 + 2 * r.b := by
        refine (abs_sub _ _).trans ?_
        rw [abs_mul, abs_of_nonneg (by positivity : 0 ≤ 4 * r.b ^ 2), abs_of_nonneg (by positivity : 0 ≤ 2 * r.b)]
        gcongr
      gcongr
    have hall : |(k : ℝ) * (k - 1) * x ^ k - 4 * k * r.b * x ^ (k + 1) * (x - r.gam)
          + x ^ (k + 2) * (4 * r.b ^ 2 * (x - r.gam) ^ 2 - 2 * r.b)| ≤ 3000 * (1 + r.b) ^ 2 := by
      refine (abs_add_le _ _).trans ?_
      have := (abs_sub ((k : ℝ) * (k - 1) * x ^ k) (4 * k * r.b * x ^ (k + 1) * (x - r.gam)))
      nlinarith
    rw [e, neg_le_neg_iff]
    refine (le_abs_self _).trans ?_
    rw [abs_mul, abs_mul, abs_of_pos (Real.exp_pos _)]
    gcongr
  · rw [gauss0, if_neg h]
    have : 0 ≤ Real.exp (-(r.a * r.ep ^ 2)) * (|r.c| * (3000 * (1 + r.b) ^ 2)) := by positivity
    simpa using this

end PyroMat.Mp.Props
