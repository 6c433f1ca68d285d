import Verif.Float.PropsResidual
import Verif.Float.Ideal
import Verif.Float.SpecIdeal
import Verif.Mp.PropsAo

/-!
# C114: energies and entropy of multi-phase substances in floating point
-/

set_option linter.unusedSimpArgs false

namespace PyroMat.Float.Props

open PyroMat PyroMat.Mp PyroMat.Float PyroMat.Float.Spec PyroMat.Mp.Spec

variable {ε : ℝ} {A : Arith}

/-- A positive number whose size is at most `Q` times itself has a relative error. -/
theorem near_of_off (h0 : 0 ≤ ε) (h1 : ε ≤ 1e-3) {c Q : ℕ} {m x y : ℝ} (h : Off ε c m x y) (hx : 0 < x) (hm : m ≤ Q * x)
    (hc : ((c * Q : ℕ) : ℝ) * ε ≤ 1e-3) : Near ε (2 * c * Q) x y := by
  have hε : ε < 1 := by linarith
  have s0 := step_nonneg h0 hε
  have hs : step ε ≤ 1.002 * ε := by
    refine (step_le hε).trans ?_
    rw [div_le_iff₀ (by linarith)]
    nlinarith
  have hQ1 : 1 ≤ Q := by
    rcases Nat.eq_zero_or_pos Q with rfl | h'
    · have := h.1
      rw [abs_of_pos hx] at this
      norm_num at hm
      linarith
    · exact h'
  have hQ : (1 : ℝ) ≤ Q := by exact_mod_cast hQ1
  set u := c * step ε with hu
  have u0 : 0 ≤ u := mul_nonneg (Nat.cast_nonneg c) s0
  have huQ : u * Q ≤ 0.0011 := by
    have := mul_le_mul_of_nonneg_left hs (Nat.cast_nonneg (α := ℝ) (c * Q))
    push_cast at this hc
    rw [hu]
    nlinarith
  have hu1 : u ≤ 0.0011 := by nlinarith
  have he : Real.exp u - 1 ≤ 1.2 * u := by
    have := Real.abs_exp_sub_one_sub_id_le (x := u) (by rw [abs_of_nonneg u0]; linarith)
    have := (le_abs_self _).trans this
    nlinarith
  set δ := (y - x) / x with hδ
  have hy : y = x * (1 + δ) := by rw [hδ]; field_simp; ring
  have hd : |δ| ≤ 1.2 * u * Q := by
    rw [hδ, abs_div, abs_of_pos hx, div_le_iff₀ hx]
    have m0 : 0 ≤ m := (abs_nonneg _).trans h.1
    calc |y - x| ≤ (Real.exp u - 1) * m := h.2
      _ ≤ 1.2 * u * (Q * x) := mul_le_mul he hm m0 (by linarith)
      _ = 1.2 * u * Q * x := by ring
  have hd1 : |δ| ≤ 0.002 := by nlinarith
  have hp : 0 < 1 + δ := by linarith [neg_abs_le δ]
  refine ⟨Real.log (1 + δ), ?_, by rw [Real.exp_log hp]; exact hy⟩
  have hl : |Real.log (1 + δ)| ≤ 1.5 * |δ| := by
    rw [abs_le]
    constructor
    · have := Real.one_sub_inv_le_log_of_pos hp
      refine le_trans ?_ this
      rw [show 1 - (1 + δ)⁻¹ = δ / (1 + δ) by field_simp; ring, le_div_iff₀ hp]
      have a := neg_abs_le δ
      have b := le_abs_self δ
      have c := abs_nonneg δ
      nlinarith
    · have := Real.log_le_sub_one_of_pos hp
      have b := le_abs_self δ
      have c := abs_nonneg δ
      linarith
  push_cast
  rw [show 2 * (c : ℝ) * Q * step ε = 2 * u * Q by rw [hu]; ring]
  have : 0 ≤ u * Q := by positivity
  nlinarith

/-- The terms in the logarithms. -/
theorem idealLog_off (h0 : 0 ≤ ε) (h1 : ε < 1) (hA : Accurate ε A) {t t' d d' : ℝ} (ht : 0 < t) (hd : 0 < d)
    (htn : Near ε 2 t t') (hdn : Near ε 2 d d') (g : AOgroup) :
    OffQ ε 9 ⟨(|Real.log d| + 1) + |g.logt.getD 0| * (|Real.log t| + 1) + |g.tlogt.getD 0| * t * (|Real.log t| + 1),
      |g.logt.getD 0| / t + |g.tlogt.getD 0| * (|Real.log t| + 1 + 1), 1 / d⟩ (aoLog g 2 t d) (idealLog A g t' d') := by
  have hto : Off ε 2 t t t' := by have := err_of_near htn; rwa [abs_of_pos ht] at this
  have ld := err_log h0 h1 hd hdn (hA.log _ (near_pos hdn hd))
  have lt := err_log h0 h1 ht htn (hA.log _ (near_pos htn ht))
  have h1o := off_exact h0 h1 0 (1 : ℝ)
  rw [abs_one] at h1o
  have dd := off_div h0 h1 hA h1o hd hdn
  have z := off_zero h0 h1 0
  have lit := fun c => off_of_within h0 h1 (hA.lit c)
  obtain ⟨l, tl, c0, c1⟩ := g
  have key : OffQ ε 6 ⟨(|Real.log d| + 1) + |l.getD 0| * (|Real.log t| + 1), |l.getD 0| / t, 1 / d⟩
      (aoLog ⟨l, none, c0, c1⟩ 2 t d) (idealLog A ⟨l, none, c0, c1⟩ t' d') := by
    cases l with
    | none =>
      refine ⟨?_, ?_, ?_⟩
      · simpa [aoLog, idealLog, Mp.J6.acc] using err_mono h0 h1 (by omega : 2 + 1 ≤ 6) le_rfl ld
      · simpa [aoLog, idealLog, Mp.J6.acc] using err_mono h0 h1 (by omega : 0 ≤ 6) le_rfl z
      · simpa [aoLog, idealLog, Mp.J6.acc] using err_mono h0 h1 (by omega : 0 + 2 + 1 ≤ 6) le_rfl dd
    | some c =>
      refine ⟨?_, ?_, ?_⟩
      · simpa [aoLog, idealLog, Mp.J6.acc] using
          err_mono h0 h1 (l := 6) (by omega) le_rfl (off_add h0 h1 hA ld (off_mul h0 h1 hA (lit c) lt))
      · simpa [aoLog, idealLog, Mp.J6.acc] using
          err_mono h0 h1 (l := 6) (by omega) le_rfl (off_add h0 h1 hA z (off_div h0 h1 hA (lit c) ht htn))
      · simpa [aoLog, idealLog, Mp.J6.acc] using err_mono h0 h1 (by omega : 0 + 2 + 1 ≤ 6) le_rfl dd
  cases tl with
  | none =>
    have := key.mono h0 h1 (by omega : 6 ≤ 9)
    simpa [aoLog, idealLog] using this
  | some c =>
    have ev : (aoLog ⟨l, some c, c0, c1⟩ 2 t d) = (aoLog ⟨l, none, c0, c1⟩ 2 t d).acc 2
      ⟨c * t * Real.log t, c * (Real.log t + 1), 0, c / t, 0, 0⟩ := rfl
    rw [ev]
    refine ⟨?_, ?_, ?_⟩
    · exact err_mono h0 h1 (by omega) le_rfl
        (off_add h0 h1 hA key.v (off_mul h0 h1 hA (off_mul h0 h1 hA (lit c) hto) lt))
    · exact err_mono h0 h1 (by omega) le_rfl
        (off_add h0 h1 hA key.vT (off_mul h0 h1 hA (lit c) (off_add h0 h1 hA lt h1o)))
    · have e1 : ((aoLog ⟨l, none, c0, c1⟩ 2 t d).acc 2 ⟨c * t * Real.log t, c * (Real.log t + 1), 0, c / t, 0, 0⟩).py =
          (aoLog ⟨l, none, c0, c1⟩ 2 t d).py := by simp [Mp.J6.acc]
      rw [e1]
      exact err_mono h0 h1 (by omega : 6 ≤ 9) le_rfl key.vd

/-- One log/exp term. -/
theorem idealStep_off (h0 : 0 ≤ ε) (h1 : ε ≤ 1e-3) (hA : Accurate ε A) {ex : ℝ → ℝ} (hE : Exps ε ex) {t t' : ℝ} (ht : 0 < t)
    (htn : Near ε 2 t t') {M Q B k : ℕ} (r : ℝ × ℝ) (hr : 0 < r.1) (hM : r.1 * t ≤ M)
    (hQ : 1 + Real.exp (-r.1 * t) ≤ Q * (1 - Real.exp (-r.1 * t))) (hB : 2 * (8 * M + 2) * Q + 8 * M + 6 ≤ B)
    (hc : (B : ℝ) * ε ≤ 1e-3) (hk : B ≤ k) {m : Q3} {s : J6} {q : Q3} (h : OffQ ε k m s q) :
    OffQ ε (k + 1) ⟨m.v + |r.2| * (|Real.log (1 - Real.exp (-r.1 * t))| + 1),
        m.vT + |r.2| * (|r.1| * Real.exp (-r.1 * t) / (1 - Real.exp (-r.1 * t))), m.vd⟩
      (s.acc 2 (aoExp t r.1 r.2)) (idealStep A ex t' q r) := by
  have hε : ε < 1 := by linarith
  have hle : ∀ l : ℕ, l ≤ B → (l : ℝ) * ε ≤ 1e-3 := fun l hl =>
    (mul_le_mul_of_nonneg_right (by exact_mod_cast hl) h0).trans hc
  have hQ0 : (8 * M + 2) * Q ≤ B := by
    have : 2 * (8 * M + 2) * Q = 2 * ((8 * M + 2) * Q) := by ring
    omega
  have hto : Off ε 2 t t t' := by have := err_of_near htn; rwa [abs_of_pos ht] at this
  have lit := fun c => off_of_within h0 hε (hA.lit c)
  have harg : Off ε 4 (r.1 * t) (-r.1 * t) (A.mul (-A.lit r.1) t') := by
    have := off_mul h0 hε hA (err_neg (lit r.1)) hto
    rwa [abs_of_pos hr] at this
  have he := off_exp h0 h1 hE harg hM (hle 4 (by omega))
  rw [show 2 * 4 * M + 1 = 8 * M + 1 by ring] at he
  set e := Real.exp (-r.1 * t) with hed
  have h1o := off_exact h0 hε 0 (1 : ℝ)
  rw [abs_one] at h1o
  have e1 : e < 1 := by
    rw [hed, Real.exp_lt_one_iff]
    nlinarith
  have hs : Off ε (8 * M + 2) (1 + e) (1 - e) (A.sub 1 (ex (A.mul (-A.lit r.1) t'))) :=
    err_mono h0 hε (by omega) le_rfl (off_sub h0 hε hA h1o he)
  have hn := near_of_off h0 h1 hs (by linarith) hQ (hle _ hQ0)
  have hl := err_log h0 hε (by linarith) hn (hA.log _ (near_pos hn (by linarith)))
  have hpt := off_div h0 hε hA (off_mul h0 hε hA (lit r.1) he) (by linarith) hn
  refine ⟨?_, ?_, ?_⟩
  · exact err_mono h0 hε (by omega) le_rfl (off_add h0 hε hA h.v (off_mul h0 hε hA (lit r.2) hl))
  · exact err_mono h0 hε (by omega) le_rfl (off_add h0 hε hA h.vT (off_mul h0 hε hA (lit r.2) hpt))
  · have e1 : (s.acc 2 (aoExp t r.1 r.2)).py = s.py := by simp [Mp.J6.acc, aoExp]
    rw [e1]
    exact err_mono h0 hε (by omega : k ≤ k + 1) le_rfl h.vd

/-- The ideal part. -/
theorem ideal_off (h0 : 0 ≤ ε) (h1 : ε ≤ 1e-3) (hA : Accurate ε A) {pw : ℝ → ℝ → ℝ} (hP : Powers ε pw) {ex : ℝ → ℝ}
    (hE : Exps ε ex) {t t' d d' : ℝ} (ht : 0 < t) (hd : 0 < d) (htn : Near ε 2 t t') (hdn : Near ε 2 d d') (g : AOgroup)
    {nx ng w M Q : ℕ} (hg : Tame g nx ng w M Q t) {N : ℕ} (hN : N = idealRoundings nx ng w M Q g.coef1.length)
    (hc : (N : ℝ) * ε ≤ 1e-3) :
    ∃ z j, ideal A pw ex g t' d' = .ok z ∧ ao g 2 t d = .ok j ∧
      OffQ ε N ⟨idealSize g t d, idealSizeT g t, 1 / d⟩ j z := by
  have hε : ε < 1 := by linarith
  set α := 2 * w + 3 with hα
  have hexp : ∀ e : ℝ, |e| ≤ w → ((2 : ℕ) : ℝ) * |e| + 1 ≤ α := by
    intro e he
    rw [hα]
    push_cast
    linarith
  set K := (nx + 1) * (α + 2) + 3 * α + 4 + ng with hK
  set C := 2 * (8 * M + 2) * Q + 8 * M + 6 with hC
  have hNK : K + C + 10 + g.coef1.length ≤ N := by
    rw [hN, hK, hC, idealRoundings, show 2 * w + 5 = α + 2 by omega]
    omega
  have hCc : (C : ℝ) * ε ≤ 1e-3 := (mul_le_mul_of_nonneg_right (by exact_mod_cast (by omega : C ≤ N)) h0).trans hc
  have hlog := idealLog_off h0 hε hA ht hd htn hdn g
  have hpoly : ∃ z j, idealPoly A pw g t' (idealLog A g t' d') = .ok z ∧ aoPoly g 2 t (aoLog g 2 t d) = .ok j ∧
      OffQ ε (K + C + 10) ⟨(|Real.log d| + 1) + |g.logt.getD 0| * (|Real.log t| + 1) + |g.tlogt.getD 0| * t * (|Real.log t| + 1) +
          size0 (g.coef0.getD []) t,
        |g.logt.getD 0| / t + |g.tlogt.getD 0| * (|Real.log t| + 1 + 1) + size1 (g.coef0.getD []) t, 1 / d⟩ j z := by
    unfold idealPoly aoPoly
    cases hcf : g.coef0 with
    | none =>
      refine ⟨_, _, rfl, rfl, ?_⟩
      have := hlog.mono h0 hε (by omega : 9 ≤ K + C + 10)
      simpa [size0, size1] using this
    | some gs =>
      have hgs : g.coef0.getD [] = gs := by rw [hcf]; rfl
      obtain ⟨a1, a2, a3, a4, -, -, -⟩ := hg
      rw [hgs] at a1 a2 a3 a4
      obtain ⟨j, hj, w1, w2, -⟩ := poly_off h0 hε hA hP ht htn (by omega : 2 + 1 ≤ α) nx gs a1
        (fun q hq => ⟨hexp _ (a4 q hq).1, hexp _ (a4 q hq).2⟩) a2
      have hj1 : poly1 A pw t' gs 1 = .ok (P3.cut 1 j) := by rw [C112_order1 A pw 1, hj]; rfl
      simp only [hj1, Mp.Props.poly1_eq gs t (fun q hq => (a1 q hq).1), Option.getD_some]
      refine ⟨_, _, rfl, rfl, ?_, ?_, ?_⟩
      · exact err_mono h0 hε (by omega) le_rfl (off_add h0 hε hA hlog.v w1)
      · exact err_mono h0 hε (by omega) le_rfl (off_add h0 hε hA hlog.vT w2)
      · have := err_mono h0 hε (by omega : 9 ≤ K + C + 10) le_rfl hlog.vd
        simpa [Mp.J6.acc] using this
  obtain ⟨z, j, hz, hj, wz⟩ := hpoly
  have hfold : ∀ (l : List (ℝ × ℝ)), (∀ r ∈ l, r ∈ g.coef1) → ∀ (k : ℕ) (m : Q3) (s : J6) (q : Q3), C ≤ k → OffQ ε k m s q →
      OffQ ε (k + l.length) ⟨m.v + (l.map fun r => |r.2| * (|Real.log (1 - Real.exp (-r.1 * t))| + 1)).sum,
        m.vT + (l.map fun r => |r.2| * (|r.1| * Real.exp (-r.1 * t) / (1 - Real.exp (-r.1 * t)))).sum, m.vd⟩
        (l.foldl (fun acc tc => acc.acc 2 (aoExp t tc.1 tc.2)) s) (l.foldl (idealStep A ex t') q) := by
    intro l
    induction l with
    | nil => intro _ k m s q _ h; simpa using h
    | cons r l ih =>
      intro hl k m s q hk h
      have hr := hl r (by simp)
      have := ih (fun r h => hl r (by simp [h])) (k + 1) _ _ _ (by omega)
        (idealStep_off h0 h1 hA hE ht htn r (hg.positive r hr) (hg.args r hr) (hg.apart r hr) le_rfl hCc hk h)
      rw [List.length_cons, show k + (l.length + 1) = k + 1 + l.length by omega]
      simpa only [List.map_cons, List.sum_cons, List.foldl_cons, ← add_assoc] using this
  refine ⟨g.coef1.foldl (idealStep A ex t') z, g.coef1.foldl (fun acc tc => acc.acc 2 (aoExp t tc.1 tc.2)) j,
    by simp only [ideal, hz], by simp only [ao, hj], ?_⟩
  exact (hfold g.coef1 (fun _ h => h) (K + C + 10) _ _ _ (by omega) wz).mono h0 hε hNK

theorem near_scale (h0 : 0 ≤ ε) (h1 : ε < 1) (hA : Accurate ε A) (Ts T : ℝ) : Near ε 2 (Ts / T) (A.div (A.lit Ts) T) :=
  near_trans (near_div (near_of_within h0 h1 (hA.lit Ts)) (near_refl h0 h1 0 T)) (near_of_within h0 h1 (hA.div _ _))

theorem near_scale' (h0 : 0 ≤ ε) (h1 : ε < 1) (hA : Accurate ε A) (d ds : ℝ) : Near ε 2 (d / ds) (A.div d (A.lit ds)) := by
  have := near_trans (near_div (near_refl h0 h1 0 d) (near_of_within h0 h1 (hA.lit ds)))
    (near_of_within h0 h1 (hA.div d (A.lit ds)))
  exact this

/-- **C114.** Evaluated with rounded operations, the documented ideal part and its first derivatives are off by no more than a
number of roundings of the terms they are made of. -/
theorem C114_ideal (h0 : 0 ≤ ε) (hA : Accurate ε A) {pw : ℝ → ℝ → ℝ} (hP : Powers ε pw) {ex : ℝ → ℝ} (hE : Exps ε ex)
    (T d To dso : ℝ) (hT : 0 < T) (hd : 0 < d) (hTo : 0 < To) (hdso : 0 < dso) (g : AOgroup) (nx ng w M Q N : ℕ)
    (hg : Tame g nx ng w M Q (To / T)) (hN : N = idealRoundings nx ng w M Q g.coef1.length) (hc : (N : ℝ) * ε ≤ 1e-3) :
    ∃ z, ideal A pw ex g (A.div (A.lit To) T) (A.div d (A.lit dso)) = .ok z ∧
      |z.v - aoVal g (To / T) (d / dso)| ≤ 1.01 * N * ε * idealSize g (To / T) (d / dso) ∧
      |z.vT - deriv (fun t => aoVal g t (d / dso)) (To / T)| ≤ 1.01 * N * ε * idealSizeT g (To / T) ∧
      |z.vd - 1 / (d / dso)| ≤ 1.01 * N * ε * (1 / (d / dso)) := by
  have h20 : 20 ≤ N := by rw [hN]; unfold idealRoundings; omega
  have h1 : ε ≤ 1e-3 := by
    have h20' : (20 : ℝ) ≤ N := by exact_mod_cast h20
    nlinarith
  have hε : ε < 1 := by linarith
  have ht : 0 < To / T := div_pos hTo hT
  have hdd : 0 < d / dso := div_pos hd hdso
  obtain ⟨z, j, hz, hj, w⟩ := ideal_off h0 h1 hA hP hE ht hdd (near_scale h0 hε hA To T) (near_scale' h0 hε hA d dso) g hg hN hc
  obtain ⟨j', hj', hi⟩ := Mp.Props.C48_ideal_part g hg.sorted hg.positive _ _ ht hdd
  rw [hj] at hj'
  cases hj'
  obtain ⟨a, b, c⟩ := w
  rw [hi.val] at a
  rw [← hi.dx.deriv] at b
  have hy : j.py = 1 / (d / dso) := by
    rw [← hi.dy.deriv]
    have : HasDerivAt (fun s => aoVal g (To / T) s) (1 / (d / dso)) (d / dso) := by
      have := (((((Real.hasDerivAt_log hdd.ne').add_const (g.logt.getD 0 * Real.log (To / T))).add_const
        (g.tlogt.getD 0 * (To / T) * Real.log (To / T))).add_const (poly1At (g.coef0.getD []) (To / T))).add_const
        (g.coef1.map (fun r => r.2 * Real.log (1 - Real.exp (-r.1 * (To / T))))).sum)
      rw [one_div]
      exact this
    exact this.deriv
  rw [hy] at c
  exact ⟨z, hz, err_abs h0 hc h1 a, err_abs h0 hc h1 b, err_abs h0 hc h1 c⟩

/-- **C114.** Internal energy, enthalpy, entropy, free energy and Gibbs energy at a temperature and density, evaluated with
rounded operations, are off by no more than a number of roundings of the terms they are made of. -/
theorem C114_energies (h0 : 0 ≤ ε) (hA : Accurate ε A) {pw : ℝ → ℝ → ℝ} (hP : Powers ε pw) {ex : ℝ → ℝ} (hE : Exps ε ex)
    (R T d To dso Tr dsr : ℝ) (hR : 0 < R) (hT : 0 < T) (hd : 0 < d) (hTo : 0 < To) (hdso : 0 < dso) (hTr : 0 < Tr)
    (hdsr : 0 < dsr) (g : AOgroup) (coef0 : List (List Group2)) (coef1 : List Row1) (ox og ow oM Q nx ny ng w M N : ℕ)
    (hg : Tame g ox og ow oM Q (To / T)) (hb : Bounded coef0 coef1 nx ny ng w)
    (hm : Moderate coef0 coef1 M (Tr / T) (d / dsr))
    (hN : N = idealRoundings ox og ow oM Q g.coef1.length + roundings nx ny ng w M coef0.length coef1.length)
    (hc : (N : ℝ) * ε ≤ 1e-3) :
    ∃ s, start A pw ex To dso Tr dsr g coef0 coef1 T d = .ok s ∧
      |energy A R Tr s - ((codeFluid R To dso Tr dsr g ⟨coef0, coef1, []⟩).e T d).v| ≤
        1.01 * N * ε * (partsAt To dso Tr dsr g coef0 coef1 T d).e R Tr ∧
      |enthalpy A R T s - ((codeFluid R To dso Tr dsr g ⟨coef0, coef1, []⟩).h T d).v| ≤
        1.01 * N * ε * (partsAt To dso Tr dsr g coef0 coef1 T d).h R T ∧
      |entropy A R s - ((codeFluid R To dso Tr dsr g ⟨coef0, coef1, []⟩).s T d).v| ≤
        1.01 * N * ε * (partsAt To dso Tr dsr g coef0 coef1 T d).s R ∧
      |freeEnergy A R T s - ((codeFluid R To dso Tr dsr g ⟨coef0, coef1, []⟩).f T d).v| ≤
        1.01 * N * ε * (partsAt To dso Tr dsr g coef0 coef1 T d).f R T ∧
      |gibbs A R T s - ((codeFluid R To dso Tr dsr g ⟨coef0, coef1, []⟩).g T d).v| ≤
        1.01 * N * ε * (partsAt To dso Tr dsr g coef0 coef1 T d).g R T := by
  set No := idealRoundings ox og ow oM Q g.coef1.length with hNo
  set Nr := roundings nx ny ng w M coef0.length coef1.length with hNr
  have h20 : 20 ≤ No := by rw [hNo]; unfold idealRoundings; omega
  have h24 : 24 ≤ Nr := by rw [hNr]; unfold roundings; omega
  have hle : ∀ l : ℕ, l ≤ N → (l : ℝ) * ε ≤ 1e-3 := fun l hl =>
    (mul_le_mul_of_nonneg_right (by exact_mod_cast hl) h0).trans hc
  have h1 : ε ≤ 1e-3 := by simpa using hle 1 (by omega)
  have hε : ε < 1 := by linarith
  have hto : 0 < To / T := div_pos hTo hT
  have hdo : 0 < d / dso := div_pos hd hdso
  have ht : 0 < Tr / T := div_pos hTr hT
  have hdd : 0 < d / dsr := div_pos hd hdsr
  obtain ⟨o, jo, ho, hjo, wo⟩ := ideal_off h0 h1 hA hP hE hto hdo (near_scale h0 hε hA To T) (near_scale' h0 hε hA d dso) g hg hNo
    (hle _ (by omega))
  obtain ⟨r, hr, wr⟩ := residual_off h0 h1 hA hP hE ht hdd (near_scale h0 hε hA Tr T) (near_scale' h0 hε hA d dsr) hb hm
    (N := Nr - 8) (by omega) (hle _ (by omega))
  have hjr : arAt ⟨coef0, coef1, []⟩ 2 [(Tr / T, d / dsr)] (Tr / T) (d / dsr) =
      .ok (Mp.Props.arF1 ⟨coef0, coef1, []⟩ (Tr / T) (d / dsr)) := by
    rw [Mp.Props.arAt_eq _ hb.some hb.sorted]
    simp [J6.add]
  set F := codeFluid R To dso Tr dsr g ⟨coef0, coef1, []⟩ with hF
  have eo : F.ao T d = jo := by
    show orZero (ao g 2 (To / T) (d / dso)) = jo
    rw [hjo]; rfl
  have er : F.ar T d = Mp.Props.arF1 ⟨coef0, coef1, []⟩ (Tr / T) (d / dsr) := by
    show orZero (arAt ⟨coef0, coef1, []⟩ 2 [(Tr / T, d / dsr)] (Tr / T) (d / dsr)) = _
    rw [hjr]; rfl
  set jr := Mp.Props.arF1 ⟨coef0, coef1, []⟩ (Tr / T) (d / dsr) with hjrd
  have pos : ∀ {x : ℝ}, 0 < x → ∀ {k : ℕ} {y : ℝ}, Near ε k x y → Off ε k x x y := by
    intro x hx k y h
    have := err_of_near h
    rwa [abs_of_pos hx] at this
  have tto := pos hto (near_scale h0 hε hA To T)
  have tt := pos ht (near_scale h0 hε hA Tr T)
  have dd := pos hdd (near_scale' h0 hε hA d dsr)
  have one := pos one_pos (near_refl h0 hε 0 (1 : ℝ))
  have RO := pos hR (near_of_within h0 hε (hA.lit R))
  have TO := pos hT (near_refl h0 hε 0 T)
  have TrO := pos hTr (near_of_within h0 hε (hA.lit Tr))
  have RT := off_mul h0 hε hA RO TO
  have RTr := off_mul h0 hε hA RO TrO
  refine ⟨⟨A.div (A.lit To) T, o, A.div (A.lit Tr) T, A.div d (A.lit dsr), r⟩, by simp only [start, ho, hr], ?_, ?_, ?_, ?_, ?_⟩
  · rw [Fluid.e, eo, er]
    exact err_abs h0 hc h1 (err_mono h0 hε (by omega) le_rfl (off_mul h0 hε hA (off_add h0 hε hA wo.vT wr.vT) RTr))
  · rw [Fluid.h, eo, er]
    exact err_abs h0 hc h1 (err_mono h0 hε (by omega) le_rfl (off_mul h0 hε hA
      (off_add h0 hε hA (off_add h0 hε hA one (off_mul h0 hε hA tto wo.vT))
        (off_add h0 hε hA (off_mul h0 hε hA dd wr.vd) (off_mul h0 hε hA tt wr.vT))) RT))
  · rw [Fluid.s, eo, er]
    exact err_abs h0 hc h1 (err_mono h0 hε (by omega) le_rfl (off_mul h0 hε hA
      (off_add h0 hε hA (off_sub h0 hε hA (off_mul h0 hε hA tto wo.vT) wo.v)
        (off_sub h0 hε hA (off_mul h0 hε hA tt wr.vT) wr.v)) RO))
  · rw [Fluid.f, eo, er]
    exact err_abs h0 hc h1 (err_mono h0 hε (by omega) le_rfl (off_mul h0 hε hA (off_add h0 hε hA wo.v wr.v) RT))
  · rw [Fluid.g, eo, er]
    exact err_abs h0 hc h1 (err_mono h0 hε (by omega) le_rfl (off_mul h0 hε hA
      (off_add h0 hε hA (off_add h0 hε hA wo.v one) (off_add h0 hε hA wr.v (off_mul h0 hε hA dd wr.vd))) RT))

/-- **C114.** With exact operations the model of the ideal part is the model of C48 asked for first derivatives. -/
theorem C114_exact (g : AOgroup) (t d : ℝ) :
    ideal exact (fun x y => x ^ y) Real.exp g t d = (ao g 1 t d).map first := by
  have hlog : idealLog exact g t d = first (aoLog g 1 t d) := by
    obtain ⟨l, tl, c0, c1⟩ := g
    cases l <;> cases tl <;> simp [idealLog, aoLog, first, exact, Mp.J6.acc]
  have hpoly : idealPoly exact (fun x y => x ^ y) g t (idealLog exact g t d) = (aoPoly g 1 t (aoLog g 1 t d)).map first := by
    unfold idealPoly aoPoly
    rw [hlog]
    cases g.coef0 with
    | none => rfl
    | some gs =>
      simp only [C112_exact1]
      cases Mp.poly1 t gs 1 with
      | error e => rfl
      | ok p => simp [Except.map, first, exact, Mp.J6.acc]
  have hstep : ∀ (s : J6) (r : ℝ × ℝ), idealStep exact Real.exp t (first s) r = first (s.acc 1 (aoExp t r.1 r.2)) := by
    intro s r
    simp [idealStep, first, exact, Mp.J6.acc, aoExp]
  have hfold : ∀ (l : List (ℝ × ℝ)) (s : J6), l.foldl (idealStep exact Real.exp t) (first s) =
      first (l.foldl (fun acc tc => acc.acc 1 (aoExp t tc.1 tc.2)) s) := by
    intro l
    induction l with
    | nil => intro s; rfl
    | cons r l ih => intro s; rw [List.foldl_cons, List.foldl_cons, hstep, ih]
  unfold ideal ao
  rw [hpoly]
  cases aoPoly g 1 t (aoLog g 1 t d) with
  | error e => rfl
  | ok s => simp [Except.map, hfold]

end PyroMat.Float.Props
