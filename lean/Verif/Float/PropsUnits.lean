import Verif.Float.Units
import Verif.Float.SpecUnits
import Verif.Units.Props

/-!
# C104: unit conversions in floating point
-/

set_option linter.unusedSimpArgs false

namespace PyroMat.Float

open PyroMat PyroMat.Units

variable {ε : ℝ} {A : Arith}

theorem eval_near (h0 : 0 ≤ ε) (h1 : ε < 1) (hA : Accurate ε A) (e : Ex) :
    Near ε e.cost (e.eval exact) (e.eval A) := by
  induction e with
  | lit x => exact near_of_within h0 h1 (hA.lit x)
  | num x => exact near_refl h0 h1 0 x
  | mul a b iha ihb => exact near_trans (near_mul iha ihb) (near_of_within h0 h1 (hA.mul _ _))
  | div a b iha ihb => exact near_trans (near_div iha ihb) (near_of_within h0 h1 (hA.div _ _))
  | pow a n ih =>
    have := near_trans (near_zpow ih n) (near_of_within h0 h1 (hA.pow _ _))
    simpa [Ex.cost, Ex.eval, exact] using this

theorem cost_le (a : SetupArgs ℝ) (t : Table) (ht : t ∈ tables a) (e : String × Ex) (he : e ∈ t.entries) :
    e.2.cost ≤ 34 := by
  have h : ((tables a).all fun t => t.entries.all fun e => decide (e.2.cost ≤ 34)) = true := by rfl
  have := List.all_eq_true.mp h t ht
  simpa using List.all_eq_true.mp this e he

theorem lookup_build (t : Table) (u : String) :
    (t.build A).table.lookup u = (t.entries.lookup u).map (·.eval A) := by
  unfold Table.build
  simp only
  induction t.entries with
  | nil => rfl
  | cons e es ih =>
    rw [List.map_cons, List.lookup_cons, List.lookup_cons]
    cases h : u == e.1
    · exact ih
    · rfl

theorem lookup_mem {es : List (String × Ex)} {u : String} {x : Ex} (h : es.lookup u = some x) : (u, x) ∈ es := by
  induction es with
  | nil => simp at h
  | cons e es ih =>
    rw [List.lookup_cons] at h
    cases hu : u == e.1
    · rw [hu] at h; exact List.mem_cons_of_mem _ (ih h)
    · rw [hu] at h
      have : e = (u, x) := by
        rw [beq_iff_eq] at hu
        cases e; simp_all
      rw [this]; exact List.mem_cons_self

theorem mass_cost (a : SetupArgs ℝ) (e : String × Ex) (he : e ∈ (massT a).entries) : e.2.cost ≤ 6 := by
  have h : ((massT a).entries.all fun e => decide (e.2.cost ≤ 6)) = true := by rfl
  simpa using List.all_eq_true.mp h e he

/-- Reading an entry: the same `KeyError`, or values `K` roundings apart. -/
theorem get_near (h0 : 0 ≤ ε) (h1 : ε < 1) (hA : Accurate ε A) {K : ℕ} {t : Table} (hK : ∀ e ∈ t.entries, e.2.cost ≤ K)
    (u : String) :
    (∃ e, (t.build exact).get u = .error e ∧ (t.build A).get u = .error e) ∨
    ∃ x y, (t.build exact).get u = .ok x ∧ (t.build A).get u = .ok y ∧ Near ε K x y := by
  unfold Conv.get
  rw [lookup_build, lookup_build]
  cases h : t.entries.lookup u with
  | none => exact Or.inl ⟨_, rfl, rfl⟩
  | some e =>
    exact Or.inr ⟨_, _, rfl, rfl, near_mono h0 h1 (hK _ (lookup_mem h)) (eval_near h0 h1 hA e)⟩

theorem div_near (h0 : 0 ≤ ε) (h1 : ε < 1) (hA : Accurate ε A) {x y x' y' : ℝ} {k l : ℕ} (hx : Near ε k x x')
    (hy : Near ε l y y') :
    (∃ e, pyDiv x y = .error e ∧ divF A x' y' = .error e) ∨
    ∃ z z', pyDiv x y = .ok z ∧ divF A x' y' = .ok z' ∧ Near ε (k + l + 1) z z' := by
  unfold pyDiv divF
  by_cases h : y = 0
  · rw [if_pos h, if_pos ((near_iff_zero hy).mp h)]
    exact Or.inl ⟨_, rfl, rfl⟩
  · rw [if_neg h, if_neg (fun hc => h ((near_iff_zero hy).mpr hc))]
    exact Or.inr ⟨_, _, rfl, rfl, near_trans (near_div hx hy) (near_of_within h0 h1 (hA.div _ _))⟩

/-- The exponent as a number of repetitions of the conversion. -/
def times : Option ℤ → ℕ
  | none => 1
  | some n => max 1 n.natAbs

theorem pow_near (h0 : 0 ≤ ε) (h1 : ε < 1) (hA : Accurate ε A) {x x' : ℝ} {k : ℕ} (hx : Near ε k x x')
    (n : Option ℤ) :
    (∃ e, powExp x n = .error e ∧ powF A x' n = .error e) ∨
    ∃ z z', powExp x n = .ok z ∧ powF A x' n = .ok z' ∧ Near ε (times n * (k + 1)) z z' := by
  unfold powExp powF
  cases n with
  | none => exact Or.inr ⟨_, _, rfl, rfl, near_mono h0 h1 (by simp [times]) hx⟩
  | some n =>
    simp only
    by_cases hn : n = 0
    · rw [if_pos hn, if_pos hn]
      exact Or.inr ⟨_, _, rfl, rfl, near_mono h0 h1 (by simp [times, hn]) hx⟩
    · rw [if_neg hn, if_neg hn]
      by_cases hc : x = 0 ∧ n < 0
      · rw [if_pos hc, if_pos ⟨(near_iff_zero hx).mp hc.1, hc.2⟩]
        exact Or.inl ⟨_, rfl, rfl⟩
      · rw [if_neg hc, if_neg (fun h => hc ⟨(near_iff_zero hx).mpr h.1, h.2⟩)]
        refine Or.inr ⟨_, _, rfl, rfl, near_mono h0 h1 ?_ (near_trans (near_zpow hx n) (near_of_within h0 h1 (hA.pow _ _)))⟩
        have : 1 ≤ n.natAbs := by omega
        simp only [times, max_eq_right this]
        nlinarith

theorem valRel_map {R : ℝ → ℝ → Prop} {f g : ℝ → ℝ} (h : ∀ x, R (f x) (g x)) (v : Val ℝ) :
    ValRel R (v.map f) (v.map g) := by
  cases v with
  | scalar x => exact h x
  | arr xs =>
    simp only [Val.map, ValRel]
    induction xs with
    | nil => exact List.Forall₂.nil
    | cons x xs ih => exact List.Forall₂.cons (h x) ih

theorem valRel_refl {R : ℝ → ℝ → Prop} (h : ∀ x, R x x) (v : Val ℝ) : ValRel R v v := by
  cases v with
  | scalar x => exact h x
  | arr xs => exact List.forall₂_same.mpr fun x _ => h x

theorem agrees_apply {R : ℝ → ℝ → Prop} (hr : ∀ x, R x x) {f g : ℝ → ℝ} (h : ∀ x, R (f x) (g x)) (v : Val ℝ)
    (i : Bool) : Agrees R (.ok (applyOp f v i)) (.ok (applyOp g v i)) := by
  unfold applyOp
  split
  · exact ⟨valRel_map h v, valRel_map h v, rfl⟩
  · exact ⟨valRel_map h v, valRel_refl hr v, rfl⟩

theorem agrees_same {R : ℝ → ℝ → Prop} (hr : ∀ x, R x x) (v : Val ℝ) : Agrees R (.ok (retSame v)) (.ok (retSame v)) :=
  ⟨valRel_refl hr v, valRel_refl hr v, rfl⟩

/-- A number multiplied by a factor that is `m (k + 1)` roundings off. -/
theorem scaled (h0 : 0 ≤ ε) (hA : Accurate ε A) {m k : ℕ} (hm : 1 ≤ m) (hk : k ≤ 69) (hε : m * ε ≤ 1e-5) {z z' : ℝ}
    (hz : Near ε (m * (k + 1)) z z') (x : ℝ) : Within (72 * m * ε) (x * z) (A.mul x z') := by
  have hm' : (1 : ℝ) ≤ m := by exact_mod_cast hm
  have h2 : ε ≤ 1e-5 := by nlinarith
  have h1 : ε < 1 := by linarith
  have n1 : Near ε (m * 71) (x * z) (A.mul x z') := by
    refine near_mono h0 h1 ?_ (near_trans (near_mul (near_refl h0 h1 0 x) hz) (near_of_within h0 h1 (hA.mul x z')))
    nlinarith
  have := within_of_near h0 (by push_cast; nlinarith) (by linarith) n1
  unfold Within at this ⊢
  refine this.trans (mul_le_mul_of_nonneg_right ?_ (abs_nonneg _))
  push_cast
  have : 0 ≤ (m : ℝ) * ε := by positivity
  nlinarith

theorem within_refl {b : ℝ} (hb : 0 ≤ b) (x : ℝ) : Within b x x := by
  unfold Within
  rw [sub_self, abs_zero]
  positivity

theorem resolve_build (t : Table) (cfg : Cfg) (u : Option String) :
    (t.build A).resolve cfg u = (t.build exact).resolve cfg u := by
  cases u <;> rfl

theorem call_agrees (h0 : 0 ≤ ε) (hA : Accurate ε A) {a : SetupArgs ℝ} {t : Table} (ht : t ∈ tables a)
    (cfg : Cfg) (v : Val ℝ) (f u : Option String) (n : Option ℤ) (hn : times n * ε ≤ 1e-5) (i : Bool) :
    Agrees (Within (72 * times n * ε)) ((t.build exact).call cfg v f u n i) (callF A (t.build A) cfg v f u n i) := by
  have hm : 1 ≤ times n := by cases n <;> simp [times]
  have hm' : (1 : ℝ) ≤ times n := by exact_mod_cast hm
  have h1 : ε < 1 := by nlinarith
  have hr : ∀ x, Within (72 * times n * ε) x x := within_refl (by positivity)
  unfold Conv.call callF
  rw [resolve_build (A := A) t cfg f, resolve_build (A := A) t cfg u]
  cases hf : (t.build exact).resolve cfg f with
  | error e => exact rfl
  | ok fu =>
  cases hu : (t.build exact).resolve cfg u with
  | error e => exact rfl
  | ok tu =>
  simp only [bind, Except.bind, pure, Except.pure]
  by_cases hs : fu = tu
  · rw [if_pos hs, if_pos hs]; exact agrees_same hr v
  rw [if_neg hs, if_neg hs]
  rcases get_near h0 h1 hA (cost_le a t ht) fu with ⟨e, g1, g2⟩ | ⟨x, x', g1, g2, gx⟩
  · simp only [g1, g2]; exact rfl
  rcases get_near h0 h1 hA (cost_le a t ht) tu with ⟨e, k1, k2⟩ | ⟨y, y', k1, k2, gy⟩
  · simp only [g1, g2, k1, k2]; exact rfl
  rcases div_near h0 h1 hA gx gy with ⟨e, d1, d2⟩ | ⟨z, z', d1, d2, gz⟩
  · simp only [g1, g2, k1, k2, d1, d2]; exact rfl
  rcases pow_near h0 h1 hA gz n with ⟨e, p1, p2⟩ | ⟨w, w', p1, p2, gw⟩
  · simp only [g1, g2, k1, k2, d1, d2, p1, p2]; exact rfl
  simp only [g1, g2, k1, k2, d1, d2, p1, p2]
  exact agrees_apply hr (scaled h0 hA hm (by norm_num) hn gw) v i

theorem contains_build (t : Table) (u : String) : (t.build A).contains u = (t.build exact).contains u := by
  unfold Conv.contains
  rw [lookup_build, lookup_build]
  cases t.entries.lookup u <;> rfl

namespace Props

/-- C104, the conversion objects.  Let every operation of the arithmetic be accurate to `ε`.  For each of the nine
conversion objects, built by `setup` and called with that arithmetic, and for all arguments: the call raises the
same exception as in exact arithmetic, or it returns the same kind of object with every number within a relative
error of `72 ε` of the exact one, times the size of the exponent (`1.6e-14` for doubles). -/
theorem C104_conversion (h0 : 0 ≤ ε) (hA : Accurate ε A) (a : SetupArgs ℝ) (j : Nat) (c : Conv ℝ)
    (hc : (allConvs a)[j]? = some c) : ∃ c', (convs A a)[j]? = some c' ∧
    ∀ (cfg : Cfg) (v : Val ℝ) (f u : Option String) (n : Option ℤ) (i : Bool) (m : ℕ),
      m = max 1 ((n.getD 1).natAbs) → m * ε ≤ 1e-5 →
      Agrees (Within (72 * m * ε)) (c.call cfg v f u n i) (callF A c' cfg v f u n i) := by
  rw [← exact_tables, convs, List.getElem?_map] at hc
  cases ht : (tables a)[j]? with
  | none => simp [ht] at hc
  | some t =>
    rw [ht, Option.map_some, Option.some.injEq] at hc
    refine ⟨t.build A, by simp [convs, ht], ?_⟩
    intro cfg v f u n i m hm hn
    have hmt : m = times n := by
      rw [hm]
      cases n <;> simp [times]
    rw [hmt] at hn ⊢
    rw [← hc]
    exact call_agrees h0 hA (List.mem_of_getElem? ht) cfg v f u n hn i

/-- C104, `matter`.  The same for conversions between mass and molar units, for every molecular weight. -/
theorem C104_matter (h0 : 0 ≤ ε) (hA : Accurate ε A) (a : SetupArgs ℝ) (cfg : Cfg) (v : Val ℝ) (mw : ℝ)
    (f u : Option String) (n : Option ℤ) (i : Bool) (m : ℕ) (hm : m = max 1 ((n.getD 1).natAbs))
    (hn : m * ε ≤ 1e-5) :
    Agrees (Within (72 * m * ε)) (matter a cfg v mw f u n i) (matterF A a cfg v mw f u n i) := by
  have hmt : m = times n := by
    rw [hm]
    cases n <;> simp [times]
  rw [hmt] at hn ⊢
  clear hm hmt
  have hm : 1 ≤ times n := by cases n <;> simp [times]
  have hm' : (1 : ℝ) ≤ times n := by exact_mod_cast hm
  have h1 : ε < 1 := by nlinarith
  have hr : ∀ x, Within (72 * times n * ε) x x := within_refl (by positivity)
  have tm : massT a ∈ tables a := by simp [tables]
  have tn : molarT a ∈ tables a := by simp [tables]
  have hw : Near ε 0 mw mw := near_refl h0 h1 0 mw
  unfold matter matterF
  have key : ∀ fu tu : String, Agrees (Within (72 * times n * ε))
      (if fu = tu then Except.ok (retSame v) else
        if (mass a).contains fu then
          if (mass a).contains tu then (mass a).call cfg v (some fu) (some tu) n i
          else do
            let x ← (mass a).get fu
            let xm ← pyDiv x mw
            let y ← (molar a).get tu
            let conv ← powExp (← pyDiv xm y) n
            return applyOp (· * conv) v i
        else
          if (molar a).contains tu then (molar a).call cfg v (some fu) (some tu) n i
          else do
            let x ← (molar a).get fu
            let y ← (mass a).get tu
            let conv ← powExp (← pyDiv (x * mw) y) n
            return applyOp (· * conv) v i)
      (if fu = tu then Except.ok (retSame v) else
        if ((massT a).build A).contains fu then
          if ((massT a).build A).contains tu then callF A ((massT a).build A) cfg v (some fu) (some tu) n i
          else do
            let x ← ((massT a).build A).get fu
            let xm ← divF A x mw
            let y ← ((molarT a).build A).get tu
            let conv ← powF A (← divF A xm y) n
            return applyOp (fun x => A.mul x conv) v i
        else
          if ((molarT a).build A).contains tu then callF A ((molarT a).build A) cfg v (some fu) (some tu) n i
          else do
            let x ← ((molarT a).build A).get fu
            let y ← ((massT a).build A).get tu
            let conv ← powF A (← divF A (A.mul x mw) y) n
            return applyOp (fun x => A.mul x conv) v i) := by
    intro fu tu
    by_cases hs : fu = tu
    · rw [if_pos hs, if_pos hs]; exact agrees_same hr v
    rw [if_neg hs, if_neg hs, contains_build (A := A), contains_build (A := A), contains_build (A := A), exact_mass, exact_molar]
    cases c1 : (mass a).contains fu
    · simp only [Bool.false_eq_true, if_false]
      cases c2 : (molar a).contains tu
      · simp only [Bool.false_eq_true, if_false]
        rw [← exact_mass, ← exact_molar]
        rcases get_near h0 h1 hA (cost_le a _ tn) fu with ⟨e, g1, g2⟩ | ⟨x, x', g1, g2, gx⟩
        · simp only [g1, g2]; exact rfl
        rcases get_near h0 h1 hA (mass_cost a) tu with ⟨e, k1, k2⟩ | ⟨y, y', k1, k2, gy⟩
        · simp only [g1, g2, k1, k2]; exact rfl
        rcases div_near h0 h1 hA (near_trans (near_mul gx hw) (near_of_within h0 h1 (hA.mul _ _))) gy with
          ⟨e, d1, d2⟩ | ⟨z, z', d1, d2, gz⟩
        · simp only [g1, g2, k1, k2, d1, d2, bind, Except.bind]; exact rfl
        rcases pow_near h0 h1 hA gz n with ⟨e, p1, p2⟩ | ⟨w, w', p1, p2, gw⟩
        · simp only [g1, g2, k1, k2, d1, d2, p1, p2, bind, Except.bind]; exact rfl
        simp only [g1, g2, k1, k2, d1, d2, p1, p2, bind, Except.bind, pure, Except.pure]
        exact agrees_apply hr (scaled h0 hA hm (by norm_num) hn gw) v i
      · simp only [if_true, Bool.false_eq_true, if_false]
        rw [← exact_molar]
        exact call_agrees h0 hA tn cfg v _ _ n hn i
    · simp only [if_true]
      cases c2 : (mass a).contains tu
      · simp only [Bool.false_eq_true, if_false]
        rw [← exact_mass, ← exact_molar]
        rcases get_near h0 h1 hA (mass_cost a) fu with ⟨e, g1, g2⟩ | ⟨x, x', g1, g2, gx⟩
        · simp only [g1, g2]; exact rfl
        rcases div_near h0 h1 hA gx hw with ⟨e, d1, d2⟩ | ⟨z, z', d1, d2, gz⟩
        · simp only [g1, g2, d1, d2, bind, Except.bind]; exact rfl
        rcases get_near h0 h1 hA (cost_le a _ tn) tu with ⟨e, k1, k2⟩ | ⟨y, y', k1, k2, gy⟩
        · simp only [g1, g2, d1, d2, k1, k2, bind, Except.bind]; exact rfl
        rcases div_near h0 h1 hA gz gy with ⟨e, e1, e2⟩ | ⟨q, q', e1, e2, gq⟩
        · simp only [g1, g2, k1, k2, d1, d2, e1, e2, bind, Except.bind]; exact rfl
        rcases pow_near h0 h1 hA gq n with ⟨e, p1, p2⟩ | ⟨w, w', p1, p2, gw⟩
        · simp only [g1, g2, k1, k2, d1, d2, e1, e2, p1, p2, bind, Except.bind]; exact rfl
        simp only [g1, g2, k1, k2, d1, d2, e1, e2, p1, p2, bind, Except.bind, pure, Except.pure]
        exact agrees_apply hr (scaled h0 hA hm (by norm_num) hn gw) v i
      · simp only [if_true]
        rw [← exact_mass]
        exact call_agrees h0 hA tm cfg v _ _ n hn i
  cases f with
  | some fu =>
    cases u with
    | some tu => exact key fu tu
    | none =>
      cases hc : cfg "unit_matter" with
      | error e => simp only [hc]; exact rfl
      | ok tu => simp only [hc]; exact key fu tu
  | none =>
    cases hc : cfg "unit_matter" with
    | error e => simp only [hc]; exact rfl
    | ok fu =>
      cases u with
      | some tu => simp only [hc]; exact key fu tu
      | none => simp only [hc]; exact key fu fu

end Props

end PyroMat.Float
