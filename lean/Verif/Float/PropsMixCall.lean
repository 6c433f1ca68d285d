import Verif.Float.MixCall
import Verif.Float.MixModel
import Verif.Float.PropsPoly

/-!
# C117: the property methods of ideal-gas mixtures in floating point
-/

set_option linter.unusedSimpArgs false

namespace PyroMat.Float

open PyroMat PyroMat.Units PyroMat.Units.Spec PyroMat.Units.Props PyroMat.Gas PyroMat.Gas.Spec PyroMat.Gas.Props
open PyroMat.Gas.Mix PyroMat.Shipped PyroMat.Shipped.Props PyroMat.Float.Spec

/-- The method of the exact model. -/
def MC.quantity : MC → Quantity
  | .cp => .cp | .cv => .cv | .h => .h | .e => .e | .s => .s | .g => .g | .f => .f

/-- The kind of quantity a method returns, by the units it is given in. -/
def MC.kind : MC → Kind
  | .cp | .cv | .s => .entropy
  | .h | .e | .g | .f => .energy

/-- The size of what is added up for a property of a mixture of `n` gases at the temperature `T` (in K), `l` being the
logarithm of the pressure over the reference pressure, in kJ/kmol or kJ/kmol/K. -/
noncomputable def MC.weight (n : ℕ) (q : MC) (T l : ℝ) : ℝ :=
  match q with
  | .cp | .cv => 20010
  | .h | .e => 5e6 + 20010 * T
  | .s => 28010 + 9 * n + 9 * |l|
  | .g => 5e6 + (28010 + 9 * n + 9 * |l|) * T
  | .f => 5e6 + (28020 + 9 * n + 9 * |l|) * T

variable {ε : ℝ} {A : Arith}

/-! ## The reference pressure -/

/-- The logarithm of the reference pressure of the mixture. -/
noncomputable def logPref (b : Bool) (cs : Mixture) : ℝ := (cs.map fun c => xOf b cs c * Real.log c.2.gas.pref).sum

theorem log_pref {f : File} (hf : f ∈ shipped) : |Real.log f.gas.pref| + 1 ≤ 15 := by
  obtain ⟨l, h⟩ := pref_bounds hf
  have p : 0 < f.gas.pref := by linarith
  have e : Real.log 10 ≤ 7 / 3 := by
    rw [Real.log_le_iff_le_exp (by norm_num)]
    have := Real.exp_one_gt_d9
    have h2 : Real.exp (7 / 3) ^ 3 = Real.exp 1 ^ 7 := by
      rw [← Real.exp_nat_mul, ← Real.exp_nat_mul]; norm_num
    have h3 : (10 : ℝ) ^ 3 ≤ Real.exp (7 / 3) ^ 3 := by
      rw [h2]
      calc (10 : ℝ) ^ 3 ≤ 2.7182818283 ^ 7 := by norm_num
        _ ≤ Real.exp 1 ^ 7 := pow_le_pow_left₀ (by norm_num) this.le 7
    exact le_of_pow_le_pow_left₀ (by norm_num) (Real.exp_pos _).le h3
  have u := Real.log_le_log p h
  rw [Real.log_pow] at u
  have v : 0 ≤ Real.log f.gas.pref := Real.log_nonneg (by linarith)
  rw [abs_of_nonneg v]
  push_cast at u
  linarith

theorem exp_split (x y : ℝ) : Real.exp x = Real.exp y * Real.exp (x - y) := by
  rw [← Real.exp_add, add_sub_cancel]

theorem pref_near (h0 : 0 ≤ ε) (h1 : ε ≤ 1e-6) (hA : Accurate ε A) {ex : ℝ → ℝ} (hex : ∀ x, Within ε (Real.exp x) (ex x))
    (b : Bool) {cs : Mixture} (hc : Proper cs) (hne : cs ≠ []) (hn : (70 * cs.length + 700) * ε ≤ 1e-3) :
    Near ε (60 * cs.length + 301) (Real.exp (logPref b cs)) (prefF A ex b (parts cs)) := by
  have hlt : ε < 1 := by linarith
  have tot := moles_sum_pos b hc hne
  have term : ∀ c ∈ cs, Off ε 6 (moleAmount b c * 15) (Real.log c.2.gas.pref * moleAmount b c)
      (A.mul (A.log ((fileForms c.2).pref.eval A)) (molesF A b (toPart c))) := by
    intro c h
    have hp : 0 < c.2.gas.pref := by linarith [(pref_bounds (hc c h).2).1]
    have n : Near ε 1 c.2.gas.pref ((fileForms c.2).pref.eval A) := by
      rw [← file_pref]
      exact near_mono h0 hlt (forms_cost c.2.cls c.2.data.pref ⟨0, 0, 0, 0, 0, 0, 0⟩ 1).2.2.2.2 (eval_near h0 hlt hA _)
    have o := err_of_near (moles_near h0 hlt hA b c)
    rw [abs_of_pos (moles_pos (hc c h))] at o
    rw [mul_comm _ (15 : ℝ)]
    exact off_mul h0 hlt hA (err_mono h0 hlt le_rfl (log_pref (hc c h).2) (err_log h0 hlt hp n (hA.log _ (near_pos n hp)))) o
  have f := fold_off h0 hlt A.add id (fun h h' => off_add h0 hlt hA h h') _ _ _ _ cs term 0 0 0 0 (off_none h0 hlt _)
  have tn := total_near h0 hlt hA (moleAmount b) (fun c => molesF A b (toPart c)) 3 cs
    (fun c h => ⟨moles_pos (hc c h), moles_near h0 hlt hA b c⟩)
  have d := Float.Props.off_div h0 hlt hA f tot tn
  have e1 : (0 + (cs.map fun c => moleAmount b c * 15).sum) / (cs.map (moleAmount b)).sum = 15 := by
    rw [zero_add, List.sum_map_mul_right]; field_simp
  have e2 : (0 + (cs.map fun c => id (Real.log c.2.gas.pref * moleAmount b c)).sum) / (cs.map (moleAmount b)).sum
      = logPref b cs := by
    unfold logPref
    rw [zero_add, div_eq_mul_inv, ← List.sum_map_mul_right]
    refine congrArg List.sum (List.map_congr_left fun c _ => ?_)
    unfold xOf
    simp only [id]
    field_simp
  rw [e1, e2] at d
  have d := err_mono h0 hlt (l := 2 * cs.length + 10) (by omega) le_rfl d
  have s0 := step_nonneg h0 hlt
  have hs : step ε ≤ 1.002 * ε := by
    refine (step_le hlt).trans ?_
    rw [div_le_iff₀ (by linarith)]
    nlinarith
  have small : ((2 * cs.length + 10 : ℕ) : ℝ) * step ε ≤ 1 := by
    push_cast
    have l0 : (0 : ℝ) ≤ cs.length := Nat.cast_nonneg _
    have := mul_le_mul_of_nonneg_left hs (show (0 : ℝ) ≤ 2 * cs.length + 10 by positivity)
    nlinarith
  have nn : (0 : ℝ) ≤ ((2 * cs.length + 10 : ℕ) : ℝ) * step ε := by positivity
  have ee : Real.exp (((2 * cs.length + 10 : ℕ) : ℝ) * step ε) - 1 ≤ 2 * (((2 * cs.length + 10 : ℕ) : ℝ) * step ε) := by
    have := Real.abs_exp_sub_one_le (x := ((2 * cs.length + 10 : ℕ) : ℝ) * step ε) (by rwa [abs_of_nonneg nn])
    rw [abs_of_nonneg nn] at this
    exact (le_abs_self _).trans this
  unfold prefF
  rw [totalF_parts, totalF_parts]
  refine near_trans (k := 60 * cs.length + 300) (l := 1) ?_ (near_of_within h0 hlt (hex _))
  refine ⟨_, ?_, (exp_split _ (logPref b cs))⟩
  refine d.2.trans ?_
  push_cast at ee ⊢
  nlinarith

/-! ## The conversion -/

theorem msize_near {j : ℕ} (h0 : 0 ≤ ε) (h1 : ε < 1) (a : SetupArgs ℝ) {mw mw' : ℝ} (h : Near ε j mw mw') (u : String) :
    Near ε j (msize a mw u) (msize a mw' u) := by
  unfold msize matterScale
  cases (mass a).table.lookup u with
  | some x =>
    simp only [Option.getD_some]
    have := near_div (near_refl h0 h1 0 x) h
    rwa [zero_add] at this
  | none => exact near_refl h0 h1 _ _

theorem scalarOf_matter_in {E : Env} {S : Sys} (hU : Uses E S) {mw : ℝ} (hmw : mw ≠ 0) {u : String} {y : ℝ}
    (hy : matterScale E.a mw u = some y) (x : ℝ) (e : Option ℤ) (ip : Bool) :
    scalarOf (matter E.a E.c.str (.scalar x) mw (some u) none e ip) = .ok (x * powS (y / msize E.a mw S.m) e) := by
  rw [(matter_none hU.m _ e ip u).2]
  obtain ⟨r, h1, h2⟩ := matter_ret E.a hU.pos mw hmw u S.m _ _ hy (msize_lookup hU mw) E.c.str (.scalar x) e ip
  rw [h1, scalarOf_ok, h2]
  rfl

theorem out_near {E : Env} {S : Sys} (hU : Uses E S) (h0 : 0 ≤ ε) (h1 : ε < 1) (hA : Accurate ε A) {j : ℕ} {mw mw' : ℝ}
    (hmw : mw ≠ 0) (h : Near ε j mw mw') (q : MC) (x : ℝ) :
    ∃ y, mixOut A E mw' q x = .ok y ∧ Near ε (213 + j) (inUnits E.a S mw q.kind x) y := by
  have hmw' : mw' ≠ 0 := fun e => hmw ((near_iff_zero h).mpr e)
  have h2 := es_ne hU
  have h5 := ms_ne hU hmw'
  have te : energyT ∈ tables E.a := by simp [tables]
  have tt : temperatureT ∈ tables E.a := by simp [tables]
  have c1 := scalarOf_call hU (nz_energy hU) (k := "unit_energy") rfl hU.e hU.valid.e (w := "kJ") (y := 1000) rfl x none true
  rw [← exact_energy] at c1
  obtain ⟨y1, f1, n1⟩ := call_near h0 h1 hA te E.c.str (near_refl h0 h1 0 x) _ _ _ _ c1
  have c2 := fun z => scalarOf_matter_in hU hmw' (u := "kmol") (y := 1) rfl z (some (-1)) true
  obtain ⟨y2, f2, n2⟩ := matter_near h0 h1 hA E.a E.c.str n1 (near_refl h0 h1 1 mw') _ _ _ _ (c2 _)
  have mm := msize_near h0 h1 E.a h S.m
  unfold mixOut
  rw [f1, exOk, f2, exOk]
  have base : Near ε (142 + j) (inUnits E.a S mw .energy x) y2 := by
    have e : x * powS (1000 / size Units.energy S.e) none * powS (1 / msize E.a mw' S.m) (some (-1))
        = x * (1000 / size Units.energy S.e) * msize E.a mw' S.m := by
      simp [powS]
    rw [exact_energy, e] at n2
    have t := near_trans (near_mul (near_refl h0 h1 0 (x * (1000 / size Units.energy S.e))) mm) n2
    exact near_mono h0 h1 (by simp [times]; omega) t
  have ent : ∃ y, scalarOf (callF A (temperatureT.build A) E.c.str (.scalar y2) (some "K") none (some (-1)) true) = .ok y ∧
      Near ε (213 + j) (inUnits E.a S mw .entropy x) y := by
    have c3 : scalarOf ((temperature : Conv ℝ).call E.c.str (.scalar (inUnits E.a S mw .energy x)) (some "K") none
        (some (-1)) true) = .ok (inUnits E.a S mw .entropy x) := by
      rw [scalarOf_call hU (nz_temperature hU) (k := "unit_temperature") rfl hU.T (tcontains hU) (y := 1.8) rfl]
      simp [powS, inUnits]
    rw [← exact_temperature] at c3
    obtain ⟨y3, f3, n3⟩ := call_near h0 h1 hA tt E.c.str base _ _ _ _ c3
    exact ⟨y3, f3, near_mono h0 h1 (by simp [times]; omega) n3⟩
  cases q with
  | cp => exact ent
  | cv => exact ent
  | s => exact ent
  | h => exact ⟨y2, rfl, near_mono h0 h1 (by omega) base⟩
  | e => exact ⟨y2, rfl, near_mono h0 h1 (by omega) base⟩
  | g => exact ⟨y2, rfl, near_mono h0 h1 (by omega) base⟩
  | f => exact ⟨y2, rfl, near_mono h0 h1 (by omega) base⟩

/-! ## The value before the conversion -/

/-- The exact value of a method in kJ and kmol. -/
noncomputable def MC.value (b : Bool) (cs : Mixture) (q : MC) (T P : ℝ) : ℝ :=
  match q with
  | .cp => valueOf b cs .cp T
  | .cv => valueOf b cs .cp T - Ru
  | .h => valueOf b cs .h T
  | .e => valueOf b cs .e T
  | .s => valueOf b cs .s T - Ru * Real.log (P / Real.exp (logPref b cs))
  | .g => valueOf b cs .g T + T * Ru * Real.log (P / Real.exp (logPref b cs))
  | .f => valueOf b cs .f T + T * Ru * Real.log (P / Real.exp (logPref b cs))

theorem mixInner_off (h0 : 0 ≤ ε) (h1 : ε ≤ 1e-6) (hA : Accurate ε A) {ex : ℝ → ℝ}
    (hex : ∀ x, Within ε (Real.exp x) (ex x)) (b : Bool) {cs : Mixture} (hc : Proper cs) (hne : cs ≠ [])
    (hn : (70 * cs.length + 700) * ε ≤ 1e-3) {T P P' : ℝ} (hT : 0 < T) (hi : ∀ c ∈ cs, Inside ε A T c.2)
    (hP : 0 < P) (nP : Near ε 71 P P') (q : MC) :
    ∃ y, mixInner A ex b (parts cs) q T P' = some y ∧
      Off ε (60 * cs.length + 380) (q.weight cs.length T (Real.log (P / Real.exp (logPref b cs)))) (q.value b cs T P) y := by
  have hlt : ε < 1 := by linarith
  have l0 : (0 : ℝ) ≤ cs.length := Nat.cast_nonneg _
  have R9 := Ru_le_nine
  have R0 : 0 < Ru := Shipped.Ru_pos
  have nR : Near ε 3 Ru (RuE.eval A) := eval_near h0 hlt hA RuE
  have oR : Off ε 3 9 Ru (RuE.eval A) := by
    have := err_of_near nR; rw [abs_of_pos R0] at this; exact err_mono h0 hlt le_rfl R9 this
  have oTR : Off ε 4 (9 * T) (T * Ru) (A.mul T (RuE.eval A)) := by
    have := err_of_near (near_scaled h0 hlt hA (near_refl h0 hlt 0 T) nR)
    rw [abs_of_pos (by positivity)] at this
    exact err_mono h0 hlt le_rfl (by nlinarith) this
  have np := pref_near h0 h1 hA hex b hc hne hn
  have nd := near_divided h0 hlt hA nP np
  have hd : 0 < P / Real.exp (logPref b cs) := div_pos hP (Real.exp_pos _)
  have oL := err_log h0 hlt hd nd (hA.log _ (near_pos nd hd))
  have key := fun q => mix_off h0 hlt hA b hc hne hT hi q
  have aL := abs_nonneg (Real.log (P / Real.exp (logPref b cs)))
  unfold mixInner
  cases q with
  | cp =>
    obtain ⟨y, e, o⟩ := key .cp
    exact ⟨y, e, err_mono h0 hlt (by omega) (by norm_num [MC.weight, mixWeight]) o⟩
  | cv =>
    obtain ⟨y, e, o⟩ := key .cp
    refine ⟨_, by simp only [e, Option.map_some], err_mono h0 hlt (by omega) ?_ (off_sub h0 hlt hA o oR)⟩
    norm_num [MC.weight, mixWeight]
  | h =>
    obtain ⟨y, e, o⟩ := key .h
    exact ⟨y, e, err_mono h0 hlt (by omega) (by simp only [MC.weight, mixWeight]; exact le_rfl) o⟩
  | e =>
    obtain ⟨y, e, o⟩ := key .e
    exact ⟨y, e, err_mono h0 hlt (by omega) (by simp only [MC.weight, mixWeight]; exact le_rfl) o⟩
  | s =>
    obtain ⟨y, e, o⟩ := key .s
    refine ⟨_, by simp only [e, Option.map_some],
      err_mono h0 hlt (by omega) ?_ (off_sub h0 hlt hA o (off_mul h0 hlt hA oR oL))⟩
    simp only [MC.weight, mixWeight]
    linarith
  | g =>
    obtain ⟨y, e, o⟩ := key .g
    refine ⟨_, by simp only [e, Option.map_some],
      err_mono h0 hlt (by omega) ?_ (off_add h0 hlt hA o (off_mul h0 hlt hA oTR oL))⟩
    simp only [MC.weight, mixWeight]
    nlinarith
  | f =>
    obtain ⟨y, e, o⟩ := key .f
    refine ⟨_, by simp only [e, Option.map_some],
      err_mono h0 hlt (by omega) ?_ (off_add h0 hlt hA o (off_mul h0 hlt hA oTR oL))⟩
    simp only [MC.weight, mixWeight]
    nlinarith

/-! ## The call -/

/-- A temperature that has been converted is on the same side of the limits. -/
theorem same_side (h0 : 0 ≤ ε) {S : Sys} {f : File} (hf : f ∈ shipped) {T T' : ℝ} (t0 : 0 ≤ T)
    (nT : |T' - T| ≤ 4.1 * ε * (T + 300)) (kT : S.T = .K → T' = T) (hlim : ∀ L ∈ f.data.Tlim, Clear ε A S T L)
    (hlo : f.gas.Tlo ≤ T) (hhi : T ≤ f.gas.Thi) : Inside ε A T' f := by
  obtain ⟨bd, hb⟩ := shipped_checked f hf
  have hwf := wellFormed hb
  have hne : f.Tlim ≠ [] := by
    intro h
    have := hwf.rows
    simp [File.data, h] at this
  have pos : ∀ L ∈ f.data.Tlim, 0 < L := by
    intro L hL
    obtain ⟨d, hd, rfl⟩ := List.mem_map.mp hL
    exact (mK_val (walk_ok _ _ _ _ _ (check_walk hb) d hd)).2
  have clear : ∀ L ∈ f.data.Tlim, A.lit L = L ∨ ε * |L| < |T' - L| := by
    intro L hL
    rcases hlim L hL with ⟨-, h⟩ | h
    · exact Or.inl h
    · right
      rw [abs_of_pos (pos L hL)]
      have := abs_add_le (T' - L) (-(T' - T))
      rw [show T' - L + -(T' - T) = T - L by ring, abs_neg] at this
      linarith
  have side : ∀ L ∈ f.data.Tlim, (L ≤ T → L ≤ T') ∧ (T ≤ L → T' ≤ L) := by
    intro L hL
    rcases hlim L hL with ⟨h, -⟩ | h
    · rw [kT h]; exact ⟨id, id⟩
    · have q0 : 0 ≤ ε * L := mul_nonneg h0 (pos L hL).le
      obtain ⟨n1, n2⟩ := abs_le.mp nT
      constructor
      · intro hl
        rw [abs_of_nonneg (by linarith)] at h
        linarith
      · intro hl
        rw [abs_of_nonpos (by linarith)] at h
        linarith
  obtain ⟨d0, ds, hds⟩ := List.exists_cons_of_ne_nil (show f.data.Tlim ≠ [] by simpa [File.data] using hne)
  have mlo : f.data.Tlim.headD 0 ∈ f.data.Tlim := by rw [hds]; simp
  have mhi : f.data.Tlim.getLastD 0 ∈ f.data.Tlim := by
    rw [hds, List.getLastD_cons]
    rcases List.eq_nil_or_concat ds with rfl | ⟨l, b, rfl⟩ <;> simp
  rw [gas_Tlo] at hlo
  rw [gas_Thi] at hhi
  exact ⟨by rw [gas_Tlo]; exact (side _ mlo).1 hlo, by rw [gas_Thi]; exact (side _ mhi).2 hhi, clear⟩

/-- The test against the limits of a gas. -/
theorem in_limits (hA : Accurate ε A) {f : File} (hf : f ∈ shipped) {T : ℝ} (h : Inside ε A T f) :
    ¬ (T < A.lit (f.data.Tlim.headD 0) ∨ A.lit (f.data.Tlim.getLastD 0) < T) := by
  obtain ⟨bd, hb⟩ := shipped_checked f hf
  have hwf := wellFormed hb
  obtain ⟨lo, hi, clear⟩ := h
  rw [gas_Tlo] at lo
  rw [gas_Thi] at hi
  have hne : f.data.Tlim ≠ [] := by
    intro h
    have := hwf.rows
    simp [h] at this
  obtain ⟨d0, ds, hds⟩ := List.exists_cons_of_ne_nil hne
  have mlo : f.data.Tlim.headD 0 ∈ f.data.Tlim := by rw [hds]; simp
  have mhi : f.data.Tlim.getLastD 0 ∈ f.data.Tlim := by
    rw [hds, List.getLastD_cons]
    rcases List.eq_nil_or_concat ds with rfl | ⟨l, b, rfl⟩ <;> simp
  rw [(lit_lt hA (clear _ mlo)).1, (lit_lt hA (clear _ mhi)).2]
  push Not
  exact ⟨lo, hi⟩

namespace Props

/-- C117, methods.  Let every operation of the arithmetic be accurate to `ε`, and the exponential too.  For every mixture
of `n` shipped gases, in any amounts by mole or by mass and in every unit system, for a temperature `t` between the limits
of the mixture and a positive pressure `p`: `cp`, `cv`, `h`, `e`, `s`, `g` and `f` of the mixture return the exact value at a
temperature `t'` that differs from `t` by the rounding of the conversion to kelvin (not at all if temperatures are in K),
within `71 (n + 10) ε` times the size of the terms that are added up.  Limits of a data file that the arithmetic cannot
hold must not be within a rounding of the temperature. -/
theorem C117_methods (h0 : 0 ≤ ε) (h1 : ε ≤ 1e-6) (hA : Accurate ε A) (ex : ℝ → ℝ)
    (hex : ∀ x, Within ε (Real.exp x) (ex x)) {coll : Coll} {D : Entry} {comps : List Comp} (hS : Sound coll D comps)
    (M : Gas) (hM : IsMixture coll D M) (cs : Mixture) (hl : Lists comps cs) (hn : (70 * cs.length + 700) * ε ≤ 1e-3)
    (E : Env) (S : Sys) (hU : Uses E S) (q : MC) (t p : ℝ) (hp : 0 < p) (hlo : M.Tlo ≤ toKelvin S.T.name t)
    (hhi : toKelvin S.T.name t ≤ M.Thi) (hlim : ∀ c ∈ cs, ∀ L ∈ c.2.data.Tlim, Clear ε A S (toKelvin S.T.name t) L) :
    ∃ t' y y', |toKelvin S.T.name t' - toKelvin S.T.name t| ≤ 4.1 * ε * (toKelvin S.T.name t + 300) ∧
      (S.T = .K → t' = t) ∧
      method q.quantity E M [.scalar t', .scalar p] [] = .ok [some y] ∧
      mixMethodF A ex E D.bymass (parts cs) q t p = .ok (some y') ∧
      |y' - y| ≤ 71 * (cs.length + 10) * ε * inUnits E.a S M.mw q.kind
        (q.weight cs.length (toKelvin S.T.name t') (Real.log (internal E.a S M.mw .pressure p / M.pref))) := by
  have hlt : ε < 1 := by linarith
  have l0 : (0 : ℝ) ≤ cs.length := Nat.cast_nonneg _
  obtain ⟨hc, hne⟩ := lists_proper hS hl
  obtain ⟨m1, m2⟩ := C117_model hS M hM cs hl
  have lim := (m2 _ hlo hhi).1
  have t0 : 0 < toKelvin S.T.name t := by
    obtain ⟨c, h⟩ := List.exists_mem_of_ne_nil cs hne
    obtain ⟨bd, hb⟩ := shipped_checked c.2 (hl.2 c h)
    have := (s_size (hl.2 c h) hb _ (lim c h).1 (lim c h).2).1
    linarith
  obtain ⟨T', eT, nT, kT⟩ := kelvin_near hU h0 (h1.trans (by norm_num)) hA t
  obtain ⟨P', eP, nP⟩ := pressure_near hU h0 hlt hA M.mw p
  rw [abs_of_pos t0] at nT
  have kT' : S.T = .K → T' = toKelvin S.T.name t := by
    intro h
    rw [kT h, h]; simp [toKelvin, Scale.name]
  have inside : ∀ c ∈ cs, Inside ε A T' c.2 := fun c h =>
    same_side h0 (hl.2 c h) t0.le nT kT' (hlim c h) (lim c h).1 (lim c h).2
  have pos : 0 < T' := by
    obtain ⟨c, h⟩ := List.exists_mem_of_ne_nil cs hne
    obtain ⟨bd, hb⟩ := shipped_checked c.2 (hl.2 c h)
    have := (s_size (hl.2 c h) hb _ (inside c h).1 (inside c h).2.1).1
    linarith
  -- the limits of the mixture
  obtain ⟨em, -, ⟨c1, i1, b1⟩, -, ⟨c2, i2, b2⟩⟩ := mixture_eq hS hM
  have inCs : ∀ c ∈ comps, ∃ d ∈ cs, c.gas = d.2.gas := by
    intro c hc
    have : (c.qty, c.gas) ∈ cs.map (fun c => (c.1, c.2.gas)) := by rw [← hl.1]; exact List.mem_map.mpr ⟨c, hc, rfl⟩
    obtain ⟨d, hd, e⟩ := List.mem_map.mp this
    simp only [Prod.mk.injEq] at e
    exact ⟨d, hd, e.2.symm⟩
  have lo' : M.Tlo ≤ T' := by
    obtain ⟨d, hd, e⟩ := inCs c1 i1
    rw [b1, e]; exact (inside d hd).1
  have hi' : T' ≤ M.Thi := by
    obtain ⟨d, hd, e⟩ := inCs c2 i2
    rw [b2, e]; exact (inside d hd).2.1
  have val := (m2 T' lo' hi').2
  have epref : M.pref = Real.exp (logPref D.bymass cs) := by
    conv_lhs => rw [em]
    show Real.exp (comps.map (fun c => moleFrac D.bymass comps c * Real.log c.gas.pref)).sum = _
    rw [lists_frac hl D.bymass (fun x G => x * Real.log G.pref)]
    rfl
  have hmw : 0 < M.mw := mix_mw_pos hS hM
  have hs : 0 < size (pressure E.a) S.p :=
    C04_factors_positive E.a hU.pos (pressure E.a) (by simp [allConvs]) (S.p, size (pressure E.a) S.p)
      (Units.lookup_mem (size_lookup hU hU.valid.p))
  have hP : 0 < internal E.a S M.mw .pressure p := mul_pos hp hs
  obtain ⟨x, ex1, off⟩ := mixInner_off h0 h1 hA hex D.bymass hc hne hn pos inside hP nP q
  have nmw := mw_near h0 hlt hA D.bymass hc
  rw [← m1] at nmw
  obtain ⟨y', eo, no⟩ := out_near hU h0 hlt hA hmw.ne' nmw q x
  have hk : q.kind ≠ .temperature := by cases q <;> simp [MC.kind]
  have hcv : 0 < inUnits E.a S M.mw q.kind 1 := by
    cases q
    all_goals first | exact entropy_pos hU hmw | exact energy_pos hU hmw
  have fin : Off ε (70 * cs.length + 700)
      (q.weight cs.length T' (Real.log (internal E.a S M.mw .pressure p / M.pref)) * inUnits E.a S M.mw q.kind 1)
      (q.value D.bymass cs T' (internal E.a S M.mw .pressure p) * inUnits E.a S M.mw q.kind 1) y' := by
    obtain ⟨θ, u, e⟩ := no
    rw [← inUnits_mul E.a S _ hk, mul_assoc] at e
    rw [e]
    have n : Near ε (213 + (2 * cs.length + 9)) (inUnits E.a S M.mw q.kind 1) (inUnits E.a S M.mw q.kind 1 * Real.exp θ) :=
      ⟨θ, u, rfl⟩
    have o := err_of_near n
    rw [abs_of_pos hcv] at o
    rw [epref]
    exact err_mono h0 hlt (by omega) le_rfl (err_times h0 hlt off o)
  refine ⟨fromKelvin S.T.name T', q.value D.bymass cs T' (internal E.a S M.mw .pressure p) * inUnits E.a S M.mw q.kind 1,
    y', ?_, ?_, ?_, ?_, ?_⟩
  · rw [to_from]; exact nT
  · intro h
    rw [h, kT h]; simp [fromKelvin, Scale.name]
  · rw [method_Tp hU hmw.ne' _ p (by rw [to_from]; exact lo') (by rw [to_from]; exact hi'), to_from,
      inUnits_mul E.a S _ hk]
    have vcp := val .cp
    have vh := val .h
    have ve := val .e
    have vs := val .s
    have vg := val .g
    simp only [MQ.exact, Option.map_eq_some_iff] at vcp vh ve vs vg
    obtain ⟨rh, a1, a2⟩ := vh
    obtain ⟨re, c1, c2⟩ := ve
    obtain ⟨rs, d1, d2⟩ := vs
    obtain ⟨rg, g1, g2⟩ := vg
    obtain ⟨rf, f1, f2⟩ := val .f |> Option.map_eq_some_iff.mp
    cases q <;>
      simp only [MC.quantity, MC.kind, Gas.Props.value, Gas.cpI, Gas.cvI, Gas.hI, Gas.eI, Gas.sI, Gas.gI, Gas.fI, Gas.e,
        Option.bind_some, Option.map_some, vcp, a1, d1, g1, f1, MC.value, ← epref]
    case e =>
      rw [a1, Option.some.injEq] at c1
      rw [← c2, c1]
    all_goals first | rw [← d2] | rw [← g2] | rw [← f2] | rw [← a2] | skip
  · unfold mixMethodF
    have g : ¬ ∃ c ∈ parts cs, T' < A.lit (c.data.Tlim.headD 0) ∨ A.lit (c.data.Tlim.getLastD 0) < T' := by
      rintro ⟨c, hcm, h⟩
      obtain ⟨d, hd, rfl⟩ := List.mem_map.mp hcm
      exact in_limits hA (hl.2 d hd) (inside d hd) h
    rw [eT, exOk, eP, exOk]
    simp only [if_neg g, ex1]
    rw [eo, exOk]
  · rw [to_from]
    have := err_abs h0 (by push_cast; exact hn) (by linarith) fin
    refine this.trans ?_
    rw [← inUnits_mul E.a S _ hk (q.weight _ _ _)]
    refine mul_le_mul_of_nonneg_right ?_ ((abs_nonneg _).trans fin.1)
    push_cast
    nlinarith

/-- C117, methods of the mixtures that come with the package, in double precision with temperatures in kelvin (the other
units are free): at every temperature from 200 K to 6000 K and every positive pressure. -/
theorem C117_methods_shipped (ex : ℝ → ℝ) (hex : ∀ x, Within (2 ^ (-53 : ℤ)) (Real.exp x) (ex x)) (m : MixFile)
    (hm : m ∈ shippedMix) (E : Env) (S : Sys) (hU : Uses E S) (hK : S.T = .K) (q : MC) (t p : ℝ) (hp : 0 < p)
    (h1 : 200 ≤ t) (h2 : t ≤ 6000) :
    ∃ comps M cs y y', Sound loaded m.entry comps ∧ Lists comps cs ∧ IsMixture loaded m.entry M ∧
      method q.quantity E M [.scalar t, .scalar p] [] = .ok [some y] ∧
      mixMethodF double ex E m.bymass (parts cs) q t p = .ok (some y') ∧
      |y' - y| ≤ 1.2e-13 * inUnits E.a S M.mw q.kind
        (q.weight cs.length t (Real.log (internal E.a S M.mw .pressure p / M.pref))) := by
  obtain ⟨comps, M, cs, hS, hM, hl, hw, hn, e1, e2⟩ := shipped_lists m hm
  have hlen : cs.length ≤ 4 := by
    rw [hn]
    simp only [shippedMix, List.mem_cons, List.not_mem_nil, or_false] at hm
    rcases hm with rfl | rfl | rfl <;> simp [air, f5, h35]
  have l0 : (0 : ℝ) ≤ cs.length := Nat.cast_nonneg _
  have l1 : (cs.length : ℝ) ≤ 4 := by exact_mod_cast hlen
  have u0 : (0 : ℝ) < 2 ^ (-53 : ℤ) := by positivity
  have u1 : (2 : ℝ) ^ (-53 : ℤ) ≤ 1.1103e-16 := by norm_num [zpow_neg]
  have eK : toKelvin S.T.name t = t := by rw [hK]; simp [toKelvin, Scale.name]
  obtain ⟨t', y, y', -, k, a, b, c⟩ := C117_methods double_small.1 double_small.2 double_accurate ex hex hS M hM cs hl
    (by nlinarith) E S hU q t p hp (by rw [eK, e1]; exact h1) (by rw [eK, e2]; exact h2)
    (fun d hd L hL => Or.inl ⟨hK, whole_lit (hl.2 d hd) (hw d hd) L hL⟩)
  rw [k hK] at a c
  rw [eK] at c
  have hmw : 0 < M.mw := mix_mw_pos hS hM
  have hk : q.kind ≠ .temperature := by cases q <;> simp [MC.kind]
  have hcv : 0 < inUnits E.a S M.mw q.kind 1 := by
    cases q
    all_goals first | exact entropy_pos hU hmw | exact energy_pos hU hmw
  have w0 : 0 ≤ q.weight cs.length t (Real.log (internal E.a S M.mw .pressure p / M.pref)) := by
    have R0 : 0 < Ru := Shipped.Ru_pos
    have t0 : 0 < t := by linarith
    cases q <;> simp only [MC.weight] <;> positivity
  refine ⟨comps, M, cs, y, y', hS, hl, hM, a, b, c.trans (mul_le_mul_of_nonneg_right ?_ ?_)⟩
  · nlinarith
  · rw [← inUnits_mul E.a S _ hk]
    exact mul_nonneg w0 hcv.le

/-- Every hypothesis is met: the entropy of air at 300 K. -/
example : ∃ comps M cs y y', Sound loaded air.entry comps ∧ Lists comps cs ∧ IsMixture loaded air.entry M ∧
    method MC.s.quantity kmolEnv M [.scalar 300, .scalar 1] [] = .ok [some y] ∧
    mixMethodF double Real.exp kmolEnv air.bymass (parts cs) .s 300 1 = .ok (some y') := by
  obtain ⟨comps, M, cs, y, y', a, b, c, d, e, -⟩ := C117_methods_shipped Real.exp
    (fun x => by simp only [Within, sub_self, abs_zero]; positivity) air (by simp [shippedMix]) kmolEnv kmolSys
    kmolEnv_uses rfl .s 300 1 one_pos (by norm_num) (by norm_num)
  exact ⟨comps, M, cs, y, y', a, b, c, d, e⟩

end Props

end PyroMat.Float
