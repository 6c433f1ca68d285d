import Verif.Float.GasExact
import Verif.Float.PropsScale
import Verif.Float.SpecGas

/-!
# Conversions of one number, in a chain
-/

set_option linter.unusedSimpArgs false

namespace PyroMat.Float

open PyroMat PyroMat.Units PyroMat.Units.Spec PyroMat.Units.Props PyroMat.Gas PyroMat.Gas.Spec PyroMat.Gas.Props

variable {ε : ℝ} {A : Arith}

theorem scalarOf_ok (r : Res ℝ) : scalarOf (.ok r) = match r.ret with | .scalar x => .ok x | .arr _ => .error .type := rfl

theorem scalarOf_apply (g : ℝ → ℝ) (x : ℝ) (i : Bool) : scalarOf (.ok (applyOp g (.scalar x) i)) = .ok (g x) := by
  unfold applyOp
  split <;> rfl

theorem near_scaled (h0 : 0 ≤ ε) (h1 : ε < 1) (hA : Accurate ε A) {k l : ℕ} {x x' w w' : ℝ} (hx : Near ε k x x')
    (hw : Near ε l w w') : Near ε (k + l + 1) (x * w) (A.mul x' w') :=
  near_trans (near_mul hx hw) (near_of_within h0 h1 (hA.mul _ _))

/-- A conversion of a number that is `k` roundings off. -/
theorem call_near (h0 : 0 ≤ ε) (h1 : ε < 1) (hA : Accurate ε A) {a : SetupArgs ℝ} {t : Table} (ht : t ∈ tables a)
    (cfg : Cfg) {k : ℕ} {x x' : ℝ} (hx : Near ε k x x') (f u : Option String) (n : Option ℤ) (i : Bool) {y : ℝ}
    (hy : scalarOf ((t.build exact).call cfg (.scalar x) f u n i) = .ok y) :
    ∃ y', scalarOf (callF A (t.build A) cfg (.scalar x') f u n i) = .ok y' ∧ Near ε (k + times n * 70 + 1) y y' := by
  unfold Conv.call at hy
  unfold callF
  rw [resolve_build (A := A) t cfg f, resolve_build (A := A) t cfg u]
  cases hf : (t.build exact).resolve cfg f with
  | error e => rw [hf] at hy; cases hy
  | ok fu =>
  cases hu : (t.build exact).resolve cfg u with
  | error e => rw [hf, hu] at hy; cases hy
  | ok tu =>
  rw [hf, hu] at hy
  simp only [bind, Except.bind, pure, Except.pure] at hy ⊢
  by_cases hs : fu = tu
  · rw [if_pos hs] at hy ⊢
    cases hy
    exact ⟨x', rfl, near_mono h0 h1 (by omega) hx⟩
  rw [if_neg hs] at hy ⊢
  rcases get_near h0 h1 hA (cost_le a t ht) fu with ⟨e, g1, g2⟩ | ⟨v, v', g1, g2, gx⟩
  · simp only [g1] at hy; cases hy
  rcases get_near h0 h1 hA (cost_le a t ht) tu with ⟨e, k1, k2⟩ | ⟨z, z', k1, k2, gy⟩
  · simp only [g1, k1] at hy; cases hy
  rcases div_near h0 h1 hA gx gy with ⟨e, d1, d2⟩ | ⟨q, q', d1, d2, gz⟩
  · simp only [g1, k1, d1] at hy; cases hy
  rcases pow_near h0 h1 hA gz n with ⟨e, p1, p2⟩ | ⟨w, w', p1, p2, gw⟩
  · simp only [g1, k1, d1, p1] at hy; cases hy
  simp only [g1, k1, d1, p1, scalarOf_apply, Except.ok.injEq] at hy
  simp only [g2, k2, d2, p2, scalarOf_apply]
  exact ⟨_, rfl, hy ▸ near_scaled h0 h1 hA hx gw⟩

/-- `matter` of a number and a molecular weight that are `k` and one roundings off. -/
theorem matter_near_some (h0 : 0 ≤ ε) (h1 : ε < 1) (hA : Accurate ε A) (a : SetupArgs ℝ)
    (cfg : Cfg) {k : ℕ} {x x' mw mw' : ℝ} (hx : Near ε k x x') (hm : Near ε 1 mw mw') (fu tu : String) (n : Option ℤ)
    (i : Bool) {y : ℝ} (hy : scalarOf (matter a cfg (.scalar x) mw (some fu) (some tu) n i) = .ok y) :
    ∃ y', scalarOf (matterF A a cfg (.scalar x') mw' (some fu) (some tu) n i) = .ok y' ∧ Near ε (k + times n * 70 + 1) y y' := by
  have tm : massT a ∈ tables a := by simp [tables]
  have tn : molarT a ∈ tables a := by simp [tables]
  have em : mass a = (massT a).build exact := by
    have := congrArg (·[2]?) (exact_tables a)
    simpa [convs, tables, allConvs] using this.symm
  have en : molar a = (molarT a).build exact := by
    have := congrArg (·[4]?) (exact_tables a)
    simpa [convs, tables, allConvs] using this.symm
  unfold matter at hy
  unfold matterF
  simp only [bind, Except.bind, pure, Except.pure] at hy ⊢
  by_cases hs : fu = tu
  · rw [if_pos hs] at hy ⊢
    cases hy
    exact ⟨x', rfl, near_mono h0 h1 (by omega) hx⟩
  rw [if_neg hs] at hy ⊢
  rw [em, en] at hy
  rw [contains_build (A := A) (massT a) fu, contains_build (A := A) (massT a) tu, contains_build (A := A) (molarT a) tu]
  by_cases hc : ((massT a).build exact).contains fu = true
  · rw [if_pos hc] at hy ⊢
    by_cases hd : ((massT a).build exact).contains tu = true
    · rw [if_pos hd] at hy ⊢
      exact call_near h0 h1 hA tm cfg hx _ _ n i hy
    · rw [if_neg hd] at hy ⊢
      rcases get_near h0 h1 hA (mass_cost a) fu with ⟨e, g1, g2⟩ | ⟨v, v', g1, g2, gx⟩
      · simp only [g1] at hy; cases hy
      rcases div_near h0 h1 hA gx hm with ⟨e, m1, m2⟩ | ⟨o, o', m1, m2, go⟩
      · simp only [g1, m1] at hy; cases hy
      rcases get_near h0 h1 hA (cost_le a _ tn) tu with ⟨e, k1, k2⟩ | ⟨z, z', k1, k2, gy⟩
      · simp only [g1, m1, k1] at hy; cases hy
      rcases div_near h0 h1 hA go gy with ⟨e, d1, d2⟩ | ⟨q, q', d1, d2, gz⟩
      · simp only [g1, m1, k1, d1] at hy; cases hy
      rcases pow_near h0 h1 hA gz n with ⟨e, p1, p2⟩ | ⟨w, w', p1, p2, gw⟩
      · simp only [g1, m1, k1, d1, p1] at hy; cases hy
      simp only [g1, m1, k1, d1, p1, scalarOf_apply, Except.ok.injEq] at hy
      simp only [g2, m2, k2, d2, p2, scalarOf_apply]
      refine ⟨_, rfl, hy ▸ near_mono h0 h1 ?_ (near_scaled h0 h1 hA hx gw)⟩
      have : times n * (6 + 1 + 1 + 34 + 1 + 1) ≤ times n * 70 := Nat.mul_le_mul_left _ (by norm_num)
      omega
  · rw [if_neg hc] at hy ⊢
    by_cases hd : ((molarT a).build exact).contains tu = true
    · rw [if_pos hd] at hy ⊢
      exact call_near h0 h1 hA tn cfg hx _ _ n i hy
    · rw [if_neg hd] at hy ⊢
      rcases get_near h0 h1 hA (cost_le a _ tn) fu with ⟨e, g1, g2⟩ | ⟨v, v', g1, g2, gx⟩
      · simp only [g1] at hy; cases hy
      rcases get_near h0 h1 hA (mass_cost a) tu with ⟨e, k1, k2⟩ | ⟨z, z', k1, k2, gy⟩
      · simp only [g1, k1] at hy; cases hy
      have go := near_scaled h0 h1 hA gx hm
      rcases div_near h0 h1 hA go gy with ⟨e, d1, d2⟩ | ⟨q, q', d1, d2, gz⟩
      · simp only [g1, k1, d1] at hy; cases hy
      rcases pow_near h0 h1 hA gz n with ⟨e, p1, p2⟩ | ⟨w, w', p1, p2, gw⟩
      · simp only [g1, k1, d1, p1] at hy; cases hy
      simp only [g1, k1, d1, p1, scalarOf_apply, Except.ok.injEq] at hy
      simp only [g2, k2, d2, p2, scalarOf_apply]
      refine ⟨_, rfl, hy ▸ near_mono h0 h1 ?_ (near_scaled h0 h1 hA hx gw)⟩
      have : times n * (34 + 1 + 1 + 6 + 1 + 1) ≤ times n * 70 := Nat.mul_le_mul_left _ (by norm_num)
      omega

/-- `matter` of a number and a molecular weight that are `k` and one roundings off. -/
theorem matter_near (h0 : 0 ≤ ε) (h1 : ε < 1) (hA : Accurate ε A) (a : SetupArgs ℝ)
    (cfg : Cfg) {k : ℕ} {x x' mw mw' : ℝ} (hx : Near ε k x x') (hm : Near ε 1 mw mw') (f u : Option String) (n : Option ℤ)
    (i : Bool) {y : ℝ} (hy : scalarOf (matter a cfg (.scalar x) mw f u n i) = .ok y) :
    ∃ y', scalarOf (matterF A a cfg (.scalar x') mw' f u n i) = .ok y' ∧ Near ε (k + times n * 70 + 1) y y' := by
  cases f with
  | some fu =>
    cases u with
    | some tu => exact matter_near_some h0 h1 hA a cfg hx hm fu tu n i hy
    | none =>
      cases hcfg : cfg "unit_matter" with
      | error e => simp only [matter, hcfg] at hy; cases hy
      | ok tu =>
        have e1 : matter a cfg (.scalar x) mw (some fu) none n i = matter a cfg (.scalar x) mw (some fu) (some tu) n i := by
          simp only [matter, hcfg]; rfl
        have e2 : matterF A a cfg (.scalar x') mw' (some fu) none n i = matterF A a cfg (.scalar x') mw' (some fu) (some tu) n i := by
          simp only [matterF, hcfg]; rfl
        rw [e1] at hy
        rw [e2]
        exact matter_near_some h0 h1 hA a cfg hx hm fu tu n i hy
  | none =>
    cases hcfg : cfg "unit_matter" with
    | error e => simp only [matter, hcfg] at hy; cases hy
    | ok fu =>
      cases u with
      | some tu =>
        have e1 : matter a cfg (.scalar x) mw none (some tu) n i = matter a cfg (.scalar x) mw (some fu) (some tu) n i := by
          simp only [matter, hcfg]; rfl
        have e2 : matterF A a cfg (.scalar x') mw' none (some tu) n i = matterF A a cfg (.scalar x') mw' (some fu) (some tu) n i := by
          simp only [matterF, hcfg]; rfl
        rw [e1] at hy
        rw [e2]
        exact matter_near_some h0 h1 hA a cfg hx hm fu tu n i hy
      | none =>
        have e1 : matter a cfg (.scalar x) mw none none n i = matter a cfg (.scalar x) mw (some fu) (some fu) n i := by
          simp only [matter, hcfg]; rfl
        have e2 : matterF A a cfg (.scalar x') mw' none none n i = matterF A a cfg (.scalar x') mw' (some fu) (some fu) n i := by
          simp only [matterF, hcfg]; rfl
        rw [e1] at hy
        rw [e2]
        exact matter_near_some h0 h1 hA a cfg hx hm fu fu n i hy

theorem times_neg : times (some (-1)) = 1 := rfl
theorem times_none : times none = 1 := rfl

theorem exact_energy : energyT.build exact = (energy : Conv ℝ) := by
  have := congrArg (·[6]?) (exact_tables SetupArgs.default)
  simpa [convs, tables, allConvs] using this

theorem exact_temperature : temperatureT.build exact = (temperature : Conv ℝ) := by
  have := congrArg (·[5]?) (exact_tables SetupArgs.default)
  simpa [convs, tables, allConvs] using this

theorem exact_pressure (a : SetupArgs ℝ) : (pressureT a).build exact = pressure a := by
  have := congrArg (·[8]?) (exact_tables a)
  simpa [convs, tables, allConvs] using this

section
variable {E : Env} {S : Sys} (hU : Uses E S)
include hU

/-- The factor to the units of the user. -/
theorem scaleF_near (h0 : 0 ≤ ε) (h1 : ε < 1) (hA : Accurate ε A) {mw : ℝ} (hmw : mw ≠ 0) (q : Q) :
    ∃ c, scaleF A E (A.lit mw) q = .ok c ∧ Near ε 213 (inUnits E.a S mw q.kind 1) c := by
  have hm : Near ε 1 mw (A.lit mw) := near_of_within h0 h1 (hA.lit mw)
  have te : energyT ∈ tables E.a := by simp [tables]
  have tt : temperatureT ∈ tables E.a := by simp [tables]
  have one : Near ε 0 (1 : ℝ) 1 := near_refl h0 h1 0 1
  have split : ∀ {α β : Type} {x : Except Err α} {f : α → Except Err β} {y : β}, x >>= f = .ok y → ∃ z, x = .ok z ∧ f z = .ok y := by
    intro α β x f y h
    cases x with
    | error e => cases h
    | ok z => exact ⟨z, rfl, h⟩
  have entropy : ∃ c, (do
      let s ← scalarOf (callF A (energyT.build A) E.c.str (.scalar 1) (some "kJ") none none false)
      let s ← scalarOf (callF A (temperatureT.build A) E.c.str (.scalar s) (some "K") none (some (-1)) false)
      scalarOf (matterF A E.a E.c.str (.scalar s) (A.lit mw) (some "kmol") none (some (-1)) false)) = .ok c ∧
      Near ε 213 (inUnits E.a S mw .entropy 1) c := by
    have h := scaleS_eq hU hmw
    unfold scaleS at h
    obtain ⟨z1, e1, h⟩ := split h
    obtain ⟨z2, e2, h⟩ := split h
    rw [← exact_energy] at e1
    rw [← exact_temperature] at e2
    obtain ⟨y1, f1, n1⟩ := call_near h0 h1 hA te E.c.str one _ _ _ _ e1
    obtain ⟨y2, f2, n2⟩ := call_near h0 h1 hA tt E.c.str n1 _ _ _ _ e2
    obtain ⟨y3, f3, n3⟩ := matter_near h0 h1 hA E.a E.c.str n2 hm _ _ _ _ h
    rw [f1, exOk, f2, exOk]
    exact ⟨y3, f3, near_mono h0 h1 (by simp [times]) n3⟩
  have energy : ∀ eu mu, scaleH E mw eu mu = .ok (inUnits E.a S mw .energy 1) → ∃ c, (do
      let s ← scalarOf (callF A (energyT.build A) E.c.str (.scalar 1) (some eu) none none false)
      scalarOf (matterF A E.a E.c.str (.scalar s) (A.lit mw) (some mu) none (some (-1)) false)) = .ok c ∧
      Near ε 213 (inUnits E.a S mw .energy 1) c := by
    intro eu mu h
    unfold scaleH at h
    obtain ⟨z1, e1, h⟩ := split h
    rw [← exact_energy] at e1
    obtain ⟨y1, f1, n1⟩ := call_near h0 h1 hA te E.c.str one _ _ _ _ e1
    obtain ⟨y3, f3, n3⟩ := matter_near h0 h1 hA E.a E.c.str n1 hm _ _ _ _ h
    rw [f1, exOk]
    exact ⟨y3, f3, near_mono h0 h1 (by simp [times]) n3⟩
  cases q with
  | cp => exact entropy
  | cv => exact entropy
  | s => exact entropy
  | h => exact energy _ _ (scaleH_eq hU hmw)
  | g => exact energy _ _ (scaleH_eq hU hmw)
  | f => exact energy _ _ (scaleH_eq hU hmw)
  | e => exact energy _ _ (scaleH_J_eq hU hmw)

/-- The pressure in pascal. -/
theorem pressure_near (h0 : 0 ≤ ε) (h1 : ε < 1) (hA : Accurate ε A) (mw p : ℝ) :
    ∃ p', scalarOf (callF A ((pressureT E.a).build A) E.c.str (.scalar p) none (some "Pa") none false) = .ok p' ∧
      Near ε 71 (internal E.a S mw .pressure p) p' := by
  have tp : pressureT E.a ∈ tables E.a := by simp [tables]
  have h : scalarOf ((pressure E.a).call E.c.str (.scalar p) none (some "Pa") none false)
      = .ok (internal E.a S mw .pressure p) := by
    rw [(call_none (k := "unit_pressure") rfl hU.p _ none false "Pa").1]
    obtain ⟨r, e1, e2⟩ := call_ret (nz_pressure hU) (size_lookup hU hU.valid.p) (b := "Pa") (tb := 1) rfl E.c.str
      (.scalar p) none false
    rw [e1, scalarOf_ok, e2]
    simp [Val.map, powS, internal]
  rw [← exact_pressure] at h
  exact call_near h0 h1 hA tp E.c.str (near_refl h0 h1 0 p) _ _ _ _ h

/-- The temperature in kelvin. -/
theorem kelvin_near (h0 : 0 ≤ ε) (h1 : ε ≤ 1e-5) (hA : Accurate ε A) (t : ℝ) :
    ∃ T', scalarOf (temperatureScaleF A E.c.str (.scalar t) none (some "K") false) = .ok T' ∧
      |T' - toKelvin S.T.name t| ≤ 4.1 * ε * (|toKelvin S.T.name t| + 300) ∧ (S.T = .K → T' = t) := by
  unfold temperatureScaleF
  simp only [hU.T, bind, Except.bind, pure, Except.pure]
  have e := toKelvin_err h0 h1 hA S.T t
  cases hS : S.T with
  | K =>
    rw [if_pos (show Scale.K.name = "K" from rfl)]
    refine ⟨t, rfl, ?_, fun _ => rfl⟩
    simp [toKelvin, Scale.name]
    positivity
  | C => exact ⟨_, rfl, hS ▸ e, by simp⟩
  | F => exact ⟨_, rfl, hS ▸ e, by simp⟩
  | R => exact ⟨_, rfl, hS ▸ e, by simp⟩
  | eV => exact ⟨_, rfl, hS ▸ e, by simp⟩

end

end PyroMat.Float
