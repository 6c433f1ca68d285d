import Verif.Float.GasTerms
import Verif.Shipped.PropsEntropy

/-!
# C105: properties of ideal gases in floating point
-/

set_option linter.unusedSimpArgs false

namespace PyroMat.Float

open PyroMat PyroMat.Units PyroMat.Units.Spec PyroMat.Units.Props PyroMat.Gas PyroMat.Gas.Spec PyroMat.Gas.Props
open PyroMat.Shipped

variable {ε : ℝ} {A : Arith}

theorem off_add (h0 : 0 ≤ ε) (h1 : ε < 1) (hA : Accurate ε A) {k l : ℕ} {m n x y x' y' : ℝ} (h : Off ε k m x y)
    (h' : Off ε l n x' y') : Off ε (max k l + 1) (m + n) (x + x') (A.add y y') :=
  err_within h0 h1 (err_plus h0 h1 h h') (hA.add _ _)

theorem off_sub (h0 : 0 ≤ ε) (h1 : ε < 1) (hA : Accurate ε A) {k l : ℕ} {m n x y x' y' : ℝ} (h : Off ε k m x y)
    (h' : Off ε l n x' y') : Off ε (max k l + 1) (m + n) (x - x') (A.sub y y') := by
  have := err_plus h0 h1 h (err_neg h')
  rw [← sub_eq_add_neg, ← sub_eq_add_neg] at this
  exact err_within h0 h1 this (hA.sub _ _)

theorem off_mul (h0 : 0 ≤ ε) (h1 : ε < 1) (hA : Accurate ε A) {k l : ℕ} {m n x y x' y' : ℝ} (h : Off ε k m x y)
    (h' : Off ε l n x' y') : Off ε (k + l + 1) (m * n) (x * x') (A.mul y y') :=
  err_within h0 h1 (err_times h0 h1 h h') (hA.mul _ _)

/-- The error before scaling. -/
theorem inner_off (h0 : 0 ≤ ε) (h1 : ε < 1) (hA : Accurate ε A) (c : Cls) {pref : ℝ} (hp : 0 < (forms c pref).pref.eval exact)
    {C : Coef} {T P P' : ℝ}
    (t1 : 200 ≤ T) (t2 : T ≤ 6000) (s1 : absTerms c C T ≤ 20000) (s2 : absS c C ≤ 8000) (s3 : absH c C ≤ 5e6)
    (hP : 0 < P) {k : ℕ} (hk : 71 ≤ k) (hn : Near ε k P P') (q : Q) :
    Off ε (k + 9) (weight q T (Real.log (P / (forms c pref).pref.eval exact))) (inner exact (forms c pref) q C T P)
      (inner A (forms c pref) q C T P') := by
  have hT : 0 < T := by linarith
  obtain ⟨k1, k2, k3, k4, k5⟩ := forms_cost c pref C T
  obtain ⟨l1, l2, l3, l4⟩ := forms_logs c pref C hT
  obtain ⟨m1, m2, m3, m4⟩ := forms_mag c pref C t1 t2
  have R9 := Ru_le_nine
  have R0 : 0 < Ru := Shipped.Ru_pos
  have nR : Near ε 3 Ru (RuE.eval A) := eval_near h0 h1 hA RuE
  have nT : Near ε 0 T T := near_refl h0 h1 0 T
  have oR : Off ε 3 Ru Ru (RuE.eval A) := by have := err_of_near nR; rwa [abs_of_pos R0] at this
  have oRT : Off ε 4 (Ru * T) (Ru * T) (A.mul (RuE.eval A) T) := by
    have := err_of_near (near_scaled h0 h1 hA nR nT)
    rwa [abs_of_pos (by positivity)] at this
  have oTR : Off ε 4 (T * Ru) (T * Ru) (A.mul T (RuE.eval A)) := by
    have := err_of_near (near_scaled h0 h1 hA nT nR)
    rwa [abs_of_pos (by positivity)] at this
  have nd : Near ε (k + 1 + 1) (P / (forms c pref).pref.eval exact) (A.div P' ((forms c pref).pref.eval A)) :=
    near_trans (near_div hn (near_mono h0 h1 k5 (eval_near h0 h1 hA _))) (near_of_within h0 h1 (hA.div _ _))
  have hd : 0 < P / (forms c pref).pref.eval exact := by positivity
  have oL := err_log h0 h1 hd nd (hA.log _ (near_pos nd hd))
  have F1 := err_mono h0 h1 k1 (m1.trans s1) (Sm.err h0 h1 hA _ l1)
  have F2 := err_mono h0 h1 k2 (m2.trans (show _ ≤ 5e6 + T * 20000 by nlinarith)) (Sm.err h0 h1 hA _ l2)
  have F3 := err_mono h0 h1 k3 (m3.trans (show _ ≤ (28000 : ℝ) by linarith)) (Sm.err h0 h1 hA _ l3)
  have F4 := err_mono h0 h1 k4 (m4.trans (show _ ≤ 5e6 + T * 28000 by nlinarith)) (Sm.err h0 h1 hA _ l4)
  show Off ε (k + 9) _ (inner exact _ _ _ _ _) _
  unfold inner
  simp only [exact_Ru]
  have aL := abs_nonneg (Real.log (P / (forms c pref).pref.eval exact))
  have RL : Ru * (|Real.log (P / (forms c pref).pref.eval exact)| + 1) ≤ 9 * (|Real.log (P / (forms c pref).pref.eval exact)| + 1) :=
    mul_le_mul_of_nonneg_right R9 (by linarith)
  have RT : Ru * T ≤ 9 * T := mul_le_mul_of_nonneg_right R9 hT.le
  have TL : T * Ru * (|Real.log (P / (forms c pref).pref.eval exact)| + 1)
      ≤ T * (9 * (|Real.log (P / (forms c pref).pref.eval exact)| + 1)) := by
    rw [mul_assoc]; exact mul_le_mul_of_nonneg_left RL hT.le
  cases q with
  | cp => exact err_mono h0 h1 (by omega) (by norm_num [weight]) F1
  | cv => exact err_mono h0 h1 (by omega) (by simp only [weight]; linarith) (off_sub h0 h1 hA F1 oR)
  | h => exact err_mono h0 h1 (by omega) (by simp only [weight]; linarith) F2
  | e => exact err_mono h0 h1 (by omega) (by simp only [weight]; linarith) (off_sub h0 h1 hA F2 oRT)
  | s => exact err_mono h0 h1 (by omega) (by simp only [weight]; linarith) (off_sub h0 h1 hA F3 (off_mul h0 h1 hA oR oL))
  | g => exact err_mono h0 h1 (by omega) (by simp only [weight]; linarith) (off_add h0 h1 hA F4 (off_mul h0 h1 hA oTR oL))
  | f =>
    exact err_mono h0 h1 (by omega) (by simp only [weight]; linarith)
      (off_add h0 h1 hA (off_sub h0 h1 hA F4 oRT) (off_mul h0 h1 hA oTR oL))

/-! ## The piece that is evaluated -/

theorem lit_lt {T L : ℝ} (hA : Accurate ε A) (h : A.lit L = L ∨ ε * |L| < |T - L|) :
    (T < A.lit L ↔ T < L) ∧ (A.lit L < T ↔ L < T) := by
  rcases h with h | h
  · rw [h]; exact ⟨Iff.rfl, Iff.rfl⟩
  have hl := hA.lit L
  unfold Within at hl
  obtain ⟨a, b⟩ := abs_le.mp hl
  rcases lt_abs.mp h with h | h
  · constructor <;> constructor <;> intro <;> linarith [abs_nonneg L]
  · constructor <;> constructor <;> intro <;> linarith [abs_nonneg L]

open Classical in
theorem piecewise_lit {α : Type} {Tlim : List ℝ} (C : List Coef) (F : Coef → ℝ → α) {T : ℝ} (hA : Accurate ε A)
    (h : ∀ L ∈ Tlim, A.lit L = L ∨ ε * |L| < |T - L|) :
    piecewise (Tlim.map A.lit) C F T = piecewise Tlim C F T := by
  unfold piecewise
  rw [List.length_map]
  have hlim : ∀ k, k < Tlim.length → (T < lim (Tlim.map A.lit) k ↔ T < lim Tlim k) ∧
      (lim (Tlim.map A.lit) k < T ↔ lim Tlim k < T) := by
    intro k hk
    have e1 : lim (Tlim.map A.lit) k = A.lit Tlim[k] := by
      simp [lim, List.getD_eq_getElem?_getD, hk]
    have e2 : lim Tlim k = Tlim[k] := by simp [lim, List.getD_eq_getElem?_getD, hk]
    rw [e1, e2]
    exact lit_lt hA (h _ (List.getElem_mem hk))
  have hc : ∀ i, i ∈ List.range (Tlim.length - 1) → (crange (Tlim.map A.lit) T i ↔ crange Tlim T i) := by
    intro i hi
    rw [List.mem_range] at hi
    obtain ⟨a1, a2⟩ := hlim i (by omega)
    obtain ⟨b1, b2⟩ := hlim (i + 1) (by omega)
    unfold crange
    rw [List.length_map]
    simp only [← not_lt]
    rw [a1, b2, b1]
  generalize List.range (Tlim.length - 1) = l at hc
  generalize (none : Option α) = o
  induction l generalizing o with
  | nil => rfl
  | cons i l ih =>
    rw [List.foldl_cons, List.foldl_cons]
    rw [show (if crange (Tlim.map A.lit) T i then (C[i]?).map (fun c => F c T) else o)
      = (if crange Tlim T i then (C[i]?).map (fun c => F c T) else o) from if_congr (hc i (by simp)) rfl rfl]
    exact ih (fun j hj => hc j (by simp [hj])) _

theorem file_pref (f : File) : (fileForms f).pref.eval exact = f.gas.pref := by
  unfold fileForms File.gas
  cases f.cls <;> rfl

/-- What the exact model returns, in terms of the row that is evaluated. -/
theorem inner_value {f : File} {T : ℝ} {C : Coef}
    (pw : ∀ (α : Type) (F : Coef → ℝ → α), piecewise f.data.Tlim f.data.C F T = some (F C T)) (a : SetupArgs ℝ) (S : Sys)
    (q : Q) (P D : ℝ) :
    value a S f.gas q.quantity (some T) (some P) (some D)
      = some (inUnits a S f.gas.mw q.kind (inner exact (fileForms f) q C T P)) := by
  have e := file_pref f
  unfold fileForms at e
  unfold fileForms File.gas
  cases hc : f.cls with
  | ig =>
    simp only [hc] at e
    cases q <;>
      simp only [Q.quantity, Q.kind, value, Gas.cpI, Gas.cvI, Gas.hI, Gas.eI, Gas.sI, Gas.gI, Gas.fI, Gas.e, Gas.f, ig,
        Option.bind_some, pw, Option.map_some] <;> rfl
  | ig2 =>
    have n := fun C T => exact_nasa C T
    cases q <;>
      simp only [Q.quantity, Q.kind, value, Gas.cpI, Gas.cvI, Gas.hI, Gas.eI, Gas.sI, Gas.gI, Gas.fI, Gas.e, Gas.f, ig2,
        Option.bind_some, pw, Option.map_some] <;>
      simp only [inner, ig2Forms, (n C T).1, (n C T).2.1, (n C T).2.2.1, (n C T).2.2.2] <;> rfl

theorem energy_pos {E : Env} {S : Sys} (hU : Uses E S) {mw : ℝ} (hmw : 0 < mw) : 0 < inUnits E.a S mw .energy 1 := by
  have h1 := Gas.Props.msize_pos hU hmw
  have h2 : 0 < size (Units.energy : Conv ℝ) S.e := C04_factors_positive E.a hU.pos Units.energy
    (by simp [allConvs]) (S.e, _) (Units.lookup_mem (size_lookup hU hU.valid.e))
  simp only [inUnits]
  positivity

namespace Props

/-- C105.  Let every operation of the arithmetic be accurate to `ε`.  For every shipped ideal gas, in every unit
system, for a temperature `t` between the limits of the gas and a positive pressure `p`: `cp`, `cv`, `h`, `e`, `s`,
`g` and `f` of the gas return the exact value at a temperature `t'` that differs from `t` by the rounding of the
conversion to kelvin (not at all if temperatures are in K), within `300 ε` times the size of the terms that are added
up.  Limits of the data file that the arithmetic cannot hold must not be within a rounding of the temperature. -/
theorem C105_property_partial (h0 : 0 ≤ ε) (h1 : ε ≤ 1e-6) (hA : Accurate ε A) (f : File) (hf : f ∈ shipped) (E : Env)
    (S : Sys) (hU : Uses E S) (q : Q) (t p : ℝ) (hp : 0 < p) (hlo : f.gas.Tlo ≤ toKelvin S.T.name t)
    (hhi : toKelvin S.T.name t ≤ f.gas.Thi)
    (hlim : ∀ L ∈ f.data.Tlim, Clear ε A S (toKelvin S.T.name t) L) :
    ∃ t' y y', |toKelvin S.T.name t' - toKelvin S.T.name t| ≤ 4.1 * ε * (toKelvin S.T.name t + 300) ∧
      (S.T = .K → t' = t) ∧
      method q.quantity E f.gas [.scalar t', .scalar p] [] = .ok [some y] ∧
      methodF A E f.data (fileForms f) q t p = .ok (some y') ∧
      |y' - y| ≤ 300 * ε * inUnits E.a S f.gas.mw q.kind
        (weight q (toKelvin S.T.name t') (Real.log (internal E.a S f.gas.mw .pressure p / f.gas.pref))) := by
  have hlt : ε < 1 := by linarith
  obtain ⟨bd, hb⟩ := shipped_checked f hf
  have hmw := gas_mw_pos hb
  have hwf := wellFormed hb
  obtain ⟨T', eT, nT, kT⟩ := kelvin_near hU h0 (h1.trans (by norm_num)) hA t
  obtain ⟨P', eP, nP⟩ := pressure_near hU h0 hlt hA f.gas.mw p
  obtain ⟨c, ec, nc⟩ := scaleF_near hU h0 hlt hA hmw.ne' q
  have t0 : 200 ≤ toKelvin S.T.name t := (lo_le hf hb).trans hlo
  rw [abs_of_nonneg (by linarith : 0 ≤ toKelvin S.T.name t)] at nT
  have hne : f.Tlim ≠ [] := by
    intro h
    have := hwf.rows
    simp [File.data, h] at this
  have pos : ∀ L ∈ f.data.Tlim, 0 < L := by
    intro L hL
    obtain ⟨d, hd, rfl⟩ := List.mem_map.mp hL
    exact (mK_val (walk_ok _ _ _ _ _ (check_walk hb) d hd)).2
  have clear : ∀ L ∈ f.data.Tlim, A.lit L = L ∨ ε * |L| < |T' - L| := by
    intro L hL
    rcases hlim L hL with ⟨-, h⟩ | h
    · exact Or.inl h
    · right
      rw [abs_of_pos (pos L hL)]
      have := abs_add_le (T' - L) (-(T' - toKelvin S.T.name t))
      rw [show T' - L + -(T' - toKelvin S.T.name t) = toKelvin S.T.name t - L by ring, abs_neg] at this
      linarith
  have side : ∀ L ∈ f.data.Tlim, (L ≤ toKelvin S.T.name t → L ≤ T') ∧ (toKelvin S.T.name t ≤ L → T' ≤ L) := by
    intro L hL
    rcases hlim L hL with ⟨h, -⟩ | h
    · have : T' = toKelvin S.T.name t := by rw [kT h, h]; simp [toKelvin, Scale.name]
      rw [this]; exact ⟨id, id⟩
    · have q0 : 0 ≤ ε * L := mul_nonneg h0 (pos L hL).le
      obtain ⟨n1, n2⟩ := abs_le.mp nT
      constructor
      · intro hl
        rw [abs_of_nonneg (by linarith)] at h
        linarith
      · intro hl
        rw [abs_of_nonpos (by linarith)] at h
        linarith
  rw [gas_Tlo] at hlo
  rw [gas_Thi] at hhi
  obtain ⟨d0, ds, hds⟩ := List.exists_cons_of_ne_nil (show f.data.Tlim ≠ [] by simpa [File.data] using hne)
  have mlo : f.data.Tlim.headD 0 ∈ f.data.Tlim := by rw [hds]; simp
  have mhi : f.data.Tlim.getLastD 0 ∈ f.data.Tlim := by
    rw [hds, List.getLastD_cons]
    rcases List.eq_nil_or_concat ds with rfl | ⟨l, b, rfl⟩ <;> simp
  have lo' := (side _ mlo).1 hlo
  have hi' := (side _ mhi).2 hhi
  obtain ⟨i, lo, hi, C, e1, e2, e3, e4, e5, pw⟩ := (C33_evaluation f.data hwf T').1 lo' hi'
  -- the row and its terms
  have e1' := e1
  have e2' := e2
  have e5' := e5
  simp only [File.data, List.getElem?_map, Option.map_eq_some_iff] at e1' e2' e5'
  obtain ⟨u0, a1, rfl⟩ := e1'
  obtain ⟨u1, a2, rfl⟩ := e2'
  obtain ⟨r, a3, rfl⟩ := e5'
  have hok := walk_ok _ _ _ _ _ (check_walk hb)
  have o1 := (walk_piece _ _ _ _ _ (check_walk hb) i u0 u1 r a1 a2 a3).1
  obtain ⟨s1, s2, s3⟩ := terms_spec f.cls o1 (hok _ (List.mem_of_getElem? a1)) (hok _ (List.mem_of_getElem? a2))
    (termss_get _ _ _ (List.all_eq_true.mp shipped_terms f hf) i u0 u1 r a1 a2 a3) T' e3 e4
  obtain ⟨r1, r2, -⟩ := s_size hf hb T' (by rw [gas_Tlo]; exact lo') (by rw [gas_Thi]; exact hi')
  -- the pressure
  have hs : 0 < size (pressure E.a) S.p :=
    C04_factors_positive E.a hU.pos (pressure E.a) (by simp [allConvs]) (S.p, size (pressure E.a) S.p)
      (Units.lookup_mem (size_lookup hU hU.valid.p))
  have hP : 0 < internal E.a S f.gas.mw .pressure p := mul_pos hp hs
  have hpr : 0 < f.gas.pref := by linarith [(pref_bounds hf).1]
  have off := inner_off h0 hlt hA f.cls (pref := f.data.pref) (by
    show 0 < (fileForms f).pref.eval exact
    rw [file_pref]; exact hpr) r1 r2 s1 s2 s3 hP le_rfl nP q
  have efor : forms f.cls f.data.pref = fileForms f := rfl
  rw [efor, file_pref] at off
  have oS := off_mul h0 hlt hA off (err_of_near nc)
  refine ⟨fromKelvin S.T.name T', inUnits E.a S f.gas.mw q.kind (inner exact (fileForms f) q (coef r) T'
    (internal E.a S f.gas.mw .pressure p)), A.mul (inner A (fileForms f) q (coef r) T' P') c, ?_, ?_, ?_, ?_, ?_⟩
  · rw [to_from]; exact nT
  · intro h
    rw [h, kT h]; simp [fromKelvin, Scale.name]
  · rw [method_Tp hU hmw.ne' _ p (by rw [to_from, gas_Tlo]; exact lo') (by rw [to_from, gas_Thi]; exact hi')]
    rw [to_from, inner_value pw]
  · unfold methodF
    have eh : (f.data.Tlim.map A.lit).headD 0 = A.lit (f.data.Tlim.headD 0) := by rw [hds]; rfl
    have el : (f.data.Tlim.map A.lit).getLastD 0 = A.lit (f.data.Tlim.getLastD 0) := by
      rw [hds, List.map_cons, List.getLastD_cons, List.getLastD_cons, List.getLastD_map]
    have g : ¬ (T' < (f.data.Tlim.map A.lit).headD 0 ∨ (f.data.Tlim.map A.lit).getLastD 0 < T') := by
      rw [eh, el, (lit_lt hA (clear _ mlo)).1, (lit_lt hA (clear _ mhi)).2]
      push Not
      exact ⟨lo', hi'⟩
    rw [eT, exOk, eP, exOk]
    simp only [if_neg g]
    rw [← gas_mw, ec, exOk, piecewise_lit _ _ hA clear, pw]
    rfl
  · have hk : q.kind ≠ .temperature := by cases q <;> simp [Q.kind]
    rw [inUnits_mul E.a S _ hk] at oS
    have := err_abs h0 (by push_cast; linarith) (by linarith) oS
    refine this.trans ?_
    have hc : 0 < inUnits E.a S f.gas.mw q.kind 1 := by
      cases q
      all_goals first | exact entropy_pos hU hmw | exact energy_pos hU hmw
    rw [abs_of_pos hc, inUnits_mul E.a S _ hk, to_from]
    refine mul_le_mul_of_nonneg_right ?_ ?_
    · push_cast; linarith
    · rw [← inUnits_mul E.a S _ hk]
      exact mul_nonneg ((abs_nonneg _).trans off.1) hc.le

end Props

end PyroMat.Float
