import Verif.Float.SpecMix
import Verif.Float.PropsGasCalls
import Verif.Float.PropsLaw

/-!
# C117: properties of ideal-gas mixtures in floating point
-/

set_option linter.unusedSimpArgs false

namespace PyroMat.Float

open PyroMat PyroMat.Units PyroMat.Gas PyroMat.Gas.Props PyroMat.Shipped PyroMat.Float.Spec

variable {ε : ℝ} {A : Arith}

/-! ## Sums -/

/-- Adding numbers that are not negative does not increase the relative error. -/
theorem near_plus {k : ℕ} {x y x' y' : ℝ} (hx : 0 ≤ x) (hx' : 0 < x') (h : Near ε k x y)
    (h' : Near ε k x' y') : Near ε k (x + x') (y + y') := by
  obtain ⟨θ, t, rfl⟩ := h
  obtain ⟨η, u, rfl⟩ := h'
  have hs : 0 < x + x' := by linarith
  have p : 0 < x * Real.exp θ + x' * Real.exp η := by
    have := mul_nonneg hx (Real.exp_pos θ).le
    have := mul_pos hx' (Real.exp_pos η)
    linarith
  obtain ⟨t1, t2⟩ := abs_le.mp t
  obtain ⟨u1, u2⟩ := abs_le.mp u
  refine ⟨Real.log ((x * Real.exp θ + x' * Real.exp η) / (x + x')), abs_le.mpr ⟨?_, ?_⟩, ?_⟩
  · rw [Real.le_log_iff_exp_le (by positivity), le_div_iff₀ hs]
    have a := mul_le_mul_of_nonneg_left (Real.exp_le_exp.mpr t1) hx
    have b := mul_le_mul_of_nonneg_left (Real.exp_le_exp.mpr u1) hx'.le
    linarith
  · rw [Real.log_le_iff_le_exp (by positivity), div_le_iff₀ hs]
    have a := mul_le_mul_of_nonneg_left (Real.exp_le_exp.mpr t2) hx
    have b := mul_le_mul_of_nonneg_left (Real.exp_le_exp.mpr u2) hx'.le
    linarith
  · rw [Real.exp_log (by positivity)]
    field_simp

theorem fold_near (h0 : 0 ≤ ε) (h1 : ε < 1) (hA : Accurate ε A) {ι : Type} (x y : ι → ℝ) (k : ℕ) :
    ∀ (l : List ι), (∀ i ∈ l, 0 < x i ∧ Near ε k (x i) (y i)) → ∀ (j : ℕ) (X Y : ℝ), 0 ≤ X → Near ε (k + j) X Y →
      Near ε (k + j + l.length) (X + (l.map x).sum) (l.foldl (fun a i => A.add a (y i)) Y)
  | [], _, j, X, Y, _, hn => by simpa using hn
  | i :: l, h, j, X, Y, hX, hn => by
    obtain ⟨p, n⟩ := h i (by simp)
    have s := near_trans (near_plus hX p hn (near_mono h0 h1 (by omega) n)) (near_of_within h0 h1 (hA.add Y (y i)))
    have := fold_near h0 h1 hA x y k l (fun i hi => h i (by simp [hi])) (j + 1) (X + x i) (A.add Y (y i)) (by linarith) s
    rw [List.map_cons, List.sum_cons, List.foldl_cons, ← add_assoc X]
    rw [List.length_cons, show k + j + (l.length + 1) = k + (j + 1) + l.length by omega]
    exact this

theorem total_near (h0 : 0 ≤ ε) (h1 : ε < 1) (hA : Accurate ε A) {ι : Type} (x y : ι → ℝ) (k : ℕ) (l : List ι)
    (h : ∀ i ∈ l, 0 < x i ∧ Near ε k (x i) (y i)) :
    Near ε (k + l.length) (l.map x).sum (l.foldl (fun a i => A.add a (y i)) 0) := by
  have := fold_near h0 h1 hA x y k l h 0 0 0 le_rfl (near_refl h0 h1 _ 0)
  simpa using this

theorem fold_off (h0 : 0 ≤ ε) (h1 : ε < 1) (op : ℝ → ℝ → ℝ) (sg : ℝ → ℝ)
    (hop : ∀ {k l : ℕ} {m n x y x' y' : ℝ}, Off ε k m x y → Off ε l n x' y' →
      Off ε (max k l + 1) (m + n) (x + sg x') (op y y')) {ι : Type} (m x y : ι → ℝ) (k : ℕ) :
    ∀ (l : List ι), (∀ i ∈ l, Off ε k (m i) (x i) (y i)) → ∀ (j : ℕ) (M X Y : ℝ), Off ε (k + j) M X Y →
      Off ε (k + j + l.length) (M + (l.map m).sum) (X + (l.map fun i => sg (x i)).sum) (l.foldl (fun a i => op a (y i)) Y)
  | [], _, j, M, X, Y, hn => by simpa using hn
  | i :: l, h, j, M, X, Y, hn => by
    have s := err_mono h0 h1 (l := k + (j + 1)) (by omega) le_rfl (hop hn (h i (by simp)))
    have := fold_off h0 h1 op sg hop m x y k l (fun i hi => h i (by simp [hi])) (j + 1) _ _ _ s
    rw [List.map_cons, List.sum_cons, List.map_cons, List.sum_cons, List.foldl_cons, ← add_assoc X, ← add_assoc M]
    rw [List.length_cons, show k + j + (l.length + 1) = k + (j + 1) + l.length by omega]
    exact this

theorem off_none (h0 : 0 ≤ ε) (h1 : ε < 1) (k : ℕ) : Off ε k 0 0 0 := by
  simpa using err_mono h0 h1 (Nat.zero_le k) le_rfl (err_of_near (near_refl h0 h1 0 0))

/-! ## Fractions -/

theorem parts_map (cs : Mixture) : parts cs = cs.map toPart := rfl

theorem data_mw {f : File} (hf : f ∈ shipped) : 0 < f.data.mw := by
  obtain ⟨b, hb⟩ := shipped_checked f hf
  exact (wellFormed hb).mw

theorem moles_pos {b : Bool} {c : ℝ × File} (h : 0 < c.1 ∧ c.2 ∈ shipped) : 0 < moleAmount b c := by
  have := data_mw h.2
  unfold moleAmount
  have := h.1
  cases b <;> simp <;> positivity

theorem mass_pos {b : Bool} {c : ℝ × File} (h : 0 < c.1 ∧ c.2 ∈ shipped) : 0 < massAmount b c := by
  have := data_mw h.2
  unfold massAmount
  have := h.1
  cases b <;> simp <;> positivity

theorem moles_near (h0 : 0 ≤ ε) (h1 : ε < 1) (hA : Accurate ε A) (b : Bool) (c : ℝ × File) :
    Near ε 3 (moleAmount b c) (molesF A b (toPart c)) := by
  unfold moleAmount molesF
  have l := fun x => near_of_within h0 h1 (hA.lit x)
  cases b
  · simpa using near_mono h0 h1 (by omega) (l c.1)
  · simpa using near_divided h0 h1 hA (l c.1) (l c.2.data.mw)

theorem mass_near (h0 : 0 ≤ ε) (h1 : ε < 1) (hA : Accurate ε A) (b : Bool) (c : ℝ × File) :
    Near ε 3 (massAmount b c) (massF A b (toPart c)) := by
  unfold massAmount massF
  have l := fun x => near_of_within h0 h1 (hA.lit x)
  cases b
  · simpa using near_scaled h0 h1 hA (l c.1) (l c.2.data.mw)
  · simpa using near_mono h0 h1 (by omega) (l c.1)

theorem totalF_parts (f : Part → ℝ) (cs : Mixture) :
    totalF A f (parts cs) = cs.foldl (fun t c => A.add t (f (toPart c))) 0 := by
  unfold totalF; rw [parts_map, List.foldl_map]

theorem x_near (h0 : 0 ≤ ε) (h1 : ε < 1) (hA : Accurate ε A) (b : Bool) {cs : Mixture} (hc : Proper cs) (c : ℝ × File) :
    Near ε (cs.length + 7) (xOf b cs c) (xF A b (parts cs) (toPart c)) := by
  have := near_divided h0 h1 hA (moles_near h0 h1 hA b c)
    (total_near h0 h1 hA (moleAmount b) (fun c => molesF A b (toPart c)) 3 cs (fun c h => ⟨moles_pos (hc c h), moles_near h0 h1 hA b c⟩))
  unfold xOf xF
  rw [totalF_parts]
  exact near_mono h0 h1 (by omega) this

theorem y_near (h0 : 0 ≤ ε) (h1 : ε < 1) (hA : Accurate ε A) (b : Bool) {cs : Mixture} (hc : Proper cs) (c : ℝ × File) :
    Near ε (cs.length + 7) (yOf b cs c) (yF A b (parts cs) (toPart c)) := by
  have := near_divided h0 h1 hA (mass_near h0 h1 hA b c)
    (total_near h0 h1 hA (massAmount b) (fun c => massF A b (toPart c)) 3 cs (fun c h => ⟨mass_pos (hc c h), mass_near h0 h1 hA b c⟩))
  unfold yOf yF
  rw [totalF_parts]
  exact near_mono h0 h1 (by omega) this

theorem mw_near (h0 : 0 ≤ ε) (h1 : ε < 1) (hA : Accurate ε A) (b : Bool) {cs : Mixture} (hc : Proper cs) :
    Near ε (2 * cs.length + 9) (mwOf b cs) (mwF A b (parts cs)) := by
  have l := fun x => near_of_within h0 h1 (hA.lit x)
  have := near_divided h0 h1 hA
    (total_near h0 h1 hA (fun c => c.2.data.mw * moleAmount b c) (fun c => A.mul (A.lit c.2.data.mw) (molesF A b (toPart c))) 5 cs
      (fun c h => ⟨mul_pos (data_mw (hc c h).2) (moles_pos (hc c h)),
        near_scaled h0 h1 hA (l c.2.data.mw) (moles_near h0 h1 hA b c)⟩))
    (total_near h0 h1 hA (moleAmount b) (fun c => molesF A b (toPart c)) 3 cs (fun c h => ⟨moles_pos (hc c h), moles_near h0 h1 hA b c⟩))
  unfold mwOf mwF
  rw [totalF_parts, totalF_parts]
  exact near_mono h0 h1 (by omega) this

theorem sum_pos_of {ι : Type} {x : ι → ℝ} : ∀ {l : List ι}, (∀ i ∈ l, 0 < x i) → l ≠ [] → 0 < (l.map x).sum
  | [], _, h => absurd rfl h
  | [i], h, _ => by simpa using h i (by simp)
  | i :: j :: l, h, _ => by
    rw [List.map_cons, List.sum_cons]
    have := sum_pos_of (l := j :: l) (fun i hi => h i (List.mem_cons_of_mem _ hi)) (by simp)
    have := h i (by simp)
    linarith

theorem moles_sum_pos (b : Bool) {cs : Mixture} (hc : Proper cs) (hne : cs ≠ []) : 0 < (cs.map (moleAmount b)).sum :=
  sum_pos_of (fun c h => moles_pos (hc c h)) hne

theorem x_pos (b : Bool) {cs : Mixture} (hc : Proper cs) {c : ℝ × File} (h : c ∈ cs) : 0 < xOf b cs c :=
  div_pos (moles_pos (hc c h)) (moles_sum_pos b hc (List.ne_nil_of_mem h))

theorem x_sum (b : Bool) {cs : Mixture} (hc : Proper cs) (hne : cs ≠ []) (w : ℝ) :
    (cs.map fun c => xOf b cs c * w).sum = w := by
  have h := moles_sum_pos b hc hne
  have e : (fun c => xOf b cs c * w) = fun c => moleAmount b c * (w / (cs.map (moleAmount b)).sum) := by
    funext c; unfold xOf; field_simp
  rw [e, List.sum_map_mul_right]
  field_simp

theorem x_le_one (b : Bool) {cs : Mixture} (hc : Proper cs) {c : ℝ × File} (h : c ∈ cs) : xOf b cs c ≤ 1 := by
  have hs := moles_sum_pos b hc (List.ne_nil_of_mem h)
  unfold xOf
  rw [div_le_one hs]
  exact List.single_le_sum (by
    intro z hz
    obtain ⟨d, hd, rfl⟩ := List.mem_map.mp hz
    exact (moles_pos (hc d hd)).le) _ (List.mem_map.mpr ⟨c, h, rfl⟩)

/-! ## The entropy of mixing -/

theorem xlog_bound {x : ℝ} (h : 0 < x) (h1 : x ≤ 1) : x * (|Real.log x| + 1) ≤ 1 := by
  rw [abs_of_nonpos (Real.log_nonpos h.le h1)]
  have := Real.one_sub_inv_le_log_of_pos h
  have e : x * (1 - x⁻¹) = x - 1 := by field_simp
  have := mul_le_mul_of_nonneg_left this h.le
  nlinarith

theorem sum_le_length {ι : Type} {m : ι → ℝ} : ∀ {l : List ι}, (∀ i ∈ l, m i ≤ 1) → (l.map m).sum ≤ l.length
  | [], _ => by simp
  | i :: l, h => by
    rw [List.map_cons, List.sum_cons, List.length_cons]
    have := sum_le_length (l := l) (fun i hi => h i (List.mem_cons_of_mem _ hi))
    have := h i (by simp)
    push_cast; linarith

theorem smix_off (h0 : 0 ≤ ε) (h1 : ε < 1) (hA : Accurate ε A) (b : Bool) {cs : Mixture} (hc : Proper cs) :
    Off ε (3 * cs.length + 20) (9 * cs.length) (mixingEntropy b cs) (smixF A b (parts cs)) := by
  have R0 : 0 < Ru := Shipped.Ru_pos
  have nR : Near ε 3 Ru (RuE.eval A) := eval_near h0 h1 hA RuE
  have oR : Off ε 3 9 Ru (RuE.eval A) := by
    have := err_of_near nR; rw [abs_of_pos R0] at this
    exact err_mono h0 h1 le_rfl Ru_le_nine this
  have term : ∀ c ∈ cs, Off ε (2 * cs.length + 16) (xOf b cs c * (|Real.log (xOf b cs c)| + 1))
      (xOf b cs c * Real.log (xOf b cs c))
      (A.mul (xF A b (parts cs) (toPart c)) (A.log (xF A b (parts cs) (toPart c)))) := by
    intro c h
    have p := x_pos b hc h
    have n := x_near h0 h1 hA b hc c
    have o := err_of_near n
    rw [abs_of_pos p] at o
    exact err_mono h0 h1 (by omega) le_rfl (off_mul h0 h1 hA o (err_log h0 h1 p n (hA.log _ (near_pos n p))))
  have f := fold_off h0 h1 A.sub (fun z => -z) (by
    intro k l m n x y x' y' h h'
    simpa [sub_eq_add_neg] using off_sub h0 h1 hA h h') _ _ _ _ cs term 0 0 0 0 (off_none h0 h1 _)
  have le : (0 : ℝ) + (cs.map fun c => xOf b cs c * (|Real.log (xOf b cs c)| + 1)).sum ≤ cs.length := by
    rw [zero_add]
    exact sum_le_length (fun c h => xlog_bound (x_pos b hc h) (x_le_one b hc h))
  have g := off_mul h0 h1 hA (err_mono h0 h1 le_rfl le f) oR
  unfold smixF mixingEntropy
  rw [parts_map, List.foldl_map]
  rw [zero_add] at g
  rw [mul_comm Ru, mul_comm 9]
  exact err_mono h0 h1 (by omega) le_rfl g

/-! ## The properties of a constituent -/

theorem gas_rows (f : File) (T : ℝ) {C : Coef}
    (pw : ∀ (α : Type) (F : Coef → ℝ → α), piecewise f.data.Tlim f.data.C F T = some (F C T)) :
    f.gas.cp T = some (((fileForms f).cp C T).eval exact) ∧
    (f.gas.h T).map (·.1) = some (((fileForms f).h C T).eval exact) ∧
    (f.gas.s T).map (·.1) = some (((fileForms f).s C T).eval exact) ∧
    (f.gas.g T).map (·.1) = some (((fileForms f).g C T).eval exact) := by
  unfold fileForms File.gas
  cases f.cls with
  | ig => simp only [ig, pw, Option.map_some]; exact ⟨rfl, rfl, rfl, rfl⟩
  | ig2 =>
    obtain ⟨a, b, c, d⟩ := exact_nasa C T
    simp only [ig2, ig2Forms, pw, Option.map_some, a, b, c, d]
    simp

/-- The five routines of a gas, and what the gas's own model has for them. -/
inductive Rt
  | cp | h | s | g | f

noncomputable def Rt.form : Rt → Forms → Coef → ℝ → Sm
  | .cp => Forms.cp | .h => Forms.h | .s => Forms.s | .g => Forms.g | .f => freeForm

noncomputable def Rt.gas (G : Gas) (T : ℝ) : Rt → Nan
  | .cp => G.cp T | .h => (G.h T).map (·.1) | .s => (G.s T).map (·.1) | .g => (G.g T).map (·.1)
  | .f => (G.f T).map (·.1)

noncomputable def Rt.size (T : ℝ) : Rt → ℝ
  | .cp => 20000 | .h => 5e6 + T * 20000 | .s => 28000 | .g => 5e6 + T * 28000
  | .f => 5e6 + T * 28009

theorem part_off (h0 : 0 ≤ ε) (h1 : ε < 1) (hA : Accurate ε A) (r : Rt) {T : ℝ} {c : ℝ × File} (hf : c.2 ∈ shipped)
    (hi : Inside ε A T c.2) :
    ∃ v w, r.gas c.2.gas T = some v ∧ partF A r.form (toPart c) T = some w ∧ Off ε 41 (r.size T) v w := by
  obtain ⟨q, f⟩ := c
  obtain ⟨lo, hi, clear⟩ := hi
  simp only at hf lo hi clear ⊢
  obtain ⟨bd, hb⟩ := shipped_checked f hf
  have hwf := wellFormed hb
  obtain ⟨r1, r2, -⟩ := s_size hf hb T lo hi
  rw [gas_Tlo] at lo
  rw [gas_Thi] at hi
  obtain ⟨i, tl, th, C, e1, e2, e3, e4, e5, pw⟩ := (C33_evaluation f.data hwf T).1 lo hi
  have e1' := e1
  have e2' := e2
  have e5' := e5
  simp only [File.data, List.getElem?_map, Option.map_eq_some_iff] at e1' e2' e5'
  obtain ⟨u0, a1, rfl⟩ := e1'
  obtain ⟨u1, a2, rfl⟩ := e2'
  obtain ⟨rw', a3, rfl⟩ := e5'
  have hok := walk_ok _ _ _ _ _ (check_walk hb)
  have o1 := (walk_piece _ _ _ _ _ (check_walk hb) i u0 u1 rw' a1 a2 a3).1
  obtain ⟨s1, s2, s3⟩ := terms_spec f.cls o1 (hok _ (List.mem_of_getElem? a1)) (hok _ (List.mem_of_getElem? a2))
    (termss_get _ _ _ (List.all_eq_true.mp shipped_terms f hf) i u0 u1 rw' a1 a2 a3) T e3 e4
  have hT : 0 < T := by linarith
  obtain ⟨k1, k2, k3, k4, -⟩ := forms_cost f.cls f.data.pref (coef rw') T
  obtain ⟨l1, l2, l3, l4⟩ := forms_logs f.cls f.data.pref (coef rw') hT
  obtain ⟨m1, m2, m3, m4⟩ := forms_mag f.cls f.data.pref (coef rw') r1 r2
  have F1 := err_mono h0 h1 k1 (m1.trans s1) (Sm.err h0 h1 hA _ l1)
  have F2 := err_mono h0 h1 k2 (m2.trans (show _ ≤ 5e6 + T * 20000 by nlinarith)) (Sm.err h0 h1 hA _ l2)
  have F3 := err_mono h0 h1 k3 (m3.trans (show _ ≤ (28000 : ℝ) by linarith)) (Sm.err h0 h1 hA _ l3)
  have F4 := err_mono h0 h1 k4 (m4.trans (show _ ≤ 5e6 + T * 28000 by nlinarith)) (Sm.err h0 h1 hA _ l4)
  obtain ⟨g1, g2, g3, g4⟩ := gas_rows f T pw
  have ev : ∀ form : Forms → Coef → ℝ → Sm,
      partF A form (toPart (q, f)) T = some ((form (fileForms f) (coef rw') T).eval A) := by
    intro form
    unfold partF
    rw [piecewise_lit _ _ hA clear, pw]
  have up : ∀ {m x y : ℝ}, Off ε 40 m x y → Off ε 41 m x y := fun o => err_mono h0 h1 (by norm_num) le_rfl o
  cases r with
  | cp => exact ⟨_, _, g1, ev _, up F1⟩
  | h => exact ⟨_, _, g2, ev _, up F2⟩
  | s => exact ⟨_, _, g3, ev _, up F3⟩
  | g => exact ⟨_, _, g4, ev _, up F4⟩
  | f =>
    have oRT : Off ε 4 (9 * T) (Ru * T) (A.mul (RuE.eval A) T) := by
      have nR : Near ε 3 Ru (RuE.eval A) := eval_near h0 h1 hA RuE
      have := err_of_near (near_scaled h0 h1 hA nR (near_refl h0 h1 0 T))
      rw [abs_of_pos (mul_pos Shipped.Ru_pos hT)] at this
      exact err_mono h0 h1 le_rfl (mul_le_mul_of_nonneg_right Ru_le_nine hT.le) this
    refine ⟨_, _, ?_, ev _, err_mono h0 h1 (by norm_num) (by simp only [Rt.size]; linarith) (off_sub h0 h1 hA F4 oRT)⟩
    obtain ⟨z, z1, z2⟩ := Option.map_eq_some_iff.mp g4
    simp only [Rt.gas, Gas.f, z1, Option.map_some, z2]
    rfl

theorem foldl_some {ι : Type} (f : ℝ → ι → ℝ → ℝ) (v : ι → Nan) (w : ι → ℝ) : ∀ (l : List ι), (∀ i ∈ l, v i = some (w i)) →
    ∀ a, l.foldl (fun a i => a.bind fun a => (v i).map fun z => f a i z) (some a)
      = some (l.foldl (fun a i => f a i (w i)) a)
  | [], _, a => rfl
  | i :: l, h, a => by
    rw [List.foldl_cons, List.foldl_cons, Option.bind_some, h i (by simp), Option.map_some]
    exact foldl_some f v w l (fun i hi => h i (by simp [hi])) _

/-- The sum over the constituents. -/
theorem sum_off (h0 : 0 ≤ ε) (h1 : ε < 1) (hA : Accurate ε A) (b : Bool) (r : Rt) {T : ℝ} {cs : Mixture} (hc : Proper cs)
    (hne : cs ≠ []) (hi : ∀ c ∈ cs, Inside ε A T c.2) :
    ∃ w, sumF A b (parts cs) r.form T = some w ∧
      Off ε (2 * cs.length + 49) (r.size T) (cs.map fun c => xOf b cs c * (r.gas c.2.gas T).getD 0).sum w := by
  have part := fun c (h : c ∈ cs) => part_off h0 h1 hA r (hc c h).2 (hi c h)
  have term : ∀ c ∈ cs, Off ε (cs.length + 49) (xOf b cs c * r.size T) (xOf b cs c * (r.gas c.2.gas T).getD 0)
      (A.mul (xF A b (parts cs) (toPart c)) ((partF A r.form (toPart c) T).getD 0)) := by
    intro c h
    obtain ⟨v, w, ev, ew, o⟩ := part c h
    have ox := err_of_near (x_near h0 h1 hA b hc c)
    rw [abs_of_pos (x_pos b hc h)] at ox
    rw [ev, ew, Option.getD_some, Option.getD_some]
    exact err_mono h0 h1 (by omega) le_rfl (off_mul h0 h1 hA ox o)
  have f := fold_off h0 h1 A.add id (fun h h' => off_add h0 h1 hA h h') _ _ _ _ cs term 0 0 0 0 (off_none h0 h1 _)
  rw [x_sum b hc hne, zero_add, zero_add] at f
  refine ⟨_, ?_, err_mono h0 h1 (by omega) le_rfl f⟩
  unfold sumF
  rw [parts_map, List.foldl_map]
  exact foldl_some (fun a c z => A.add a (A.mul (xF A b (cs.map toPart) (toPart c)) z)) _ _ cs (fun c h => by
    obtain ⟨v, w, ev, ew, o⟩ := part c h
    rw [ew]; rfl) 0

/-- The sums before the pressure enters. -/
theorem mix_off (h0 : 0 ≤ ε) (hlt : ε < 1) (hA : Accurate ε A) (b : Bool) {cs : Mixture} (hc : Proper cs)
    (hne : cs ≠ []) {T : ℝ} (hT : 0 < T) (hi : ∀ c ∈ cs, Inside ε A T c.2) (q : MQ) :
    ∃ y, mixF A b (parts cs) q T = some y ∧
      Off ε (3 * cs.length + 50) (mixWeight cs.length q T) (valueOf b cs q T) y := by
  have l0 : (0 : ℝ) ≤ cs.length := Nat.cast_nonneg _
  have nR : Near ε 3 Ru (RuE.eval A) := eval_near h0 hlt hA RuE
  have R0 : 0 < Ru := Shipped.Ru_pos
  have oRT : Off ε 4 (9 * T) (Ru * T) (A.mul (RuE.eval A) T) := by
    have := err_of_near (near_scaled h0 hlt hA nR (near_refl h0 hlt 0 T))
    rw [abs_of_pos (by positivity)] at this
    exact err_mono h0 hlt le_rfl (mul_le_mul_of_nonneg_right Ru_le_nine hT.le) this
  have oS := smix_off h0 hlt hA b hc
  have oT : Off ε 0 T T T := by
    have := err_of_near (near_refl h0 hlt 0 T); rwa [abs_of_pos hT] at this
  have L1 : 1 ≤ cs.length := List.length_pos_of_ne_nil hne
  cases q with
  | cp =>
    obtain ⟨w, e, o⟩ := sum_off h0 hlt hA b .cp hc hne hi
    exact ⟨w, e, err_mono h0 hlt (by omega) le_rfl o⟩
  | h =>
    obtain ⟨w, e, o⟩ := sum_off h0 hlt hA b .h hc hne hi
    exact ⟨w, e, err_mono h0 hlt (by omega) (by simp only [Rt.size, mixWeight]; linarith) o⟩
  | e =>
    obtain ⟨w, e, o⟩ := sum_off h0 hlt hA b .h hc hne hi
    refine ⟨_, ?_, err_mono h0 hlt (by omega) (by simp only [Rt.size, mixWeight]; linarith) (off_sub h0 hlt hA o oRT)⟩
    show (sumF A b (parts cs) Forms.h T).map _ = _
    rw [show sumF A b (parts cs) Forms.h T = some w from e]; rfl
  | s =>
    obtain ⟨w, e, o⟩ := sum_off h0 hlt hA b .s hc hne hi
    refine ⟨_, ?_, err_mono h0 hlt (by omega) (by simp only [Rt.size, mixWeight]; linarith) (off_add h0 hlt hA o oS)⟩
    show (sumF A b (parts cs) Forms.s T).map _ = _
    rw [show sumF A b (parts cs) Forms.s T = some w from e]; rfl
  | g =>
    obtain ⟨w, e, o⟩ := sum_off h0 hlt hA b .g hc hne hi
    refine ⟨_, ?_, err_mono h0 hlt (by omega) (by simp only [Rt.size, mixWeight]; linarith)
      (off_sub h0 hlt hA o (off_mul h0 hlt hA oT oS))⟩
    show (sumF A b (parts cs) Forms.g T).map _ = _
    rw [show sumF A b (parts cs) Forms.g T = some w from e]; rfl
  | f =>
    obtain ⟨w, e, o⟩ := sum_off h0 hlt hA b .f hc hne hi
    refine ⟨_, ?_, err_mono h0 hlt (by omega) (by simp only [Rt.size, mixWeight]; linarith)
      (off_sub h0 hlt hA o (off_mul h0 hlt hA oT oS))⟩
    show (sumF A b (parts cs) freeForm T).map _ = _
    rw [show sumF A b (parts cs) freeForm T = some w from e]; rfl

namespace Props

/-- C117, composition.  Let every operation of the arithmetic be accurate to `ε`.  The mole and mass fractions that the
program has for a mixture of `n` shipped gases, given in moles or in kilograms, are off by at most `1.01 (n + 7) ε` of
themselves, and its molecular weight by at most `1.01 (2 n + 9) ε` of itself. -/
theorem C117_composition (h0 : 0 ≤ ε) (h1 : ε ≤ 1e-6) (hA : Accurate ε A) (bymass : Bool) (cs : Mixture) (hc : Proper cs)
    (hn : (2 * cs.length + 9) * ε ≤ 1e-3) :
    (∀ c ∈ cs, Within (1.01 * (cs.length + 7) * ε) (xOf bymass cs c) (xF A bymass (parts cs) (toPart c)) ∧
      Within (1.01 * (cs.length + 7) * ε) (yOf bymass cs c) (yF A bymass (parts cs) (toPart c))) ∧
    Within (1.01 * (2 * cs.length + 9) * ε) (mwOf bymass cs) (mwF A bymass (parts cs)) := by
  have hlt : ε < 1 := by linarith
  have l0 : (0 : ℝ) ≤ cs.length := Nat.cast_nonneg _
  have hs : ((cs.length + 7 : ℕ) : ℝ) * ε ≤ 1e-3 := by push_cast; nlinarith
  refine ⟨fun c _ => ⟨?_, ?_⟩, ?_⟩
  · have := within_of_near h0 hs (by linarith) (x_near h0 hlt hA bymass hc c)
    push_cast at this; exact this
  · have := within_of_near h0 hs (by linarith) (y_near h0 hlt hA bymass hc c)
    push_cast at this; exact this
  · have := within_of_near h0 (by push_cast; exact hn) (by linarith) (mw_near h0 hlt hA bymass hc)
    push_cast at this; exact this

/-- C117, properties.  Let every operation of the arithmetic be accurate to `ε`, and let the temperature be one of all
the gases of the mixture.  Then the specific heat, enthalpy, internal energy, entropy, Gibbs energy and free energy that the
inner routines return for a mixture of `n` shipped gases, in any amounts, are within `1.01 (3 n + 50) ε` times the size of the
terms that are added up. -/
theorem C117_properties (h0 : 0 ≤ ε) (h1 : ε ≤ 1e-6) (hA : Accurate ε A) (bymass : Bool) (cs : Mixture) (hc : Proper cs)
    (hne : cs ≠ []) (hn : (3 * cs.length + 50) * ε ≤ 1e-3) (T : ℝ) (hi : ∀ c ∈ cs, Inside ε A T c.2) (q : MQ) :
    ∃ y, mixF A bymass (parts cs) q T = some y ∧
      |y - valueOf bymass cs q T| ≤ 1.01 * (3 * cs.length + 50) * ε * mixWeight cs.length q T := by
  have hlt : ε < 1 := by linarith
  have hT : 0 < T := by
    obtain ⟨c, h⟩ := List.exists_mem_of_ne_nil cs hne
    obtain ⟨bd, hb⟩ := shipped_checked c.2 (hc c h).2
    have := (s_size (hc c h).2 hb T (hi c h).1 (hi c h).2.1).1
    linarith
  obtain ⟨y, e, o⟩ := mix_off h0 hlt hA bymass hc hne hT hi q
  have := err_abs h0 (by push_cast; exact hn) (by linarith) o
  push_cast at this
  exact ⟨y, e, this⟩

end Props

end PyroMat.Float
