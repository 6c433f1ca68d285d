import Verif.Igt.ThermoLemmas

/-!
# C81: properties of a dynamic mixture are sums over its constituents
-/

set_option linter.unusedSectionVars false
set_option linter.unusedSimpArgs false

namespace PyroMat.Igt.Props

open PyroMat PyroMat.Gas PyroMat.Igt PyroMat.Igt.Spec
open PyroMat.Units PyroMat.Units.Spec PyroMat.Units.Props PyroMat.Gas.Spec PyroMat.Gas.Props
open scoped BigOperators

variable {σ : Type} [DecidableEq σ]

theorem shows_at {r : Except Err NArr} {i : List Nat} {x : ℝ} (hp : Position r i)
    (hx : Shows r i x) : ∃ A, r = .ok A ∧ Within i A.shape ∧ A.val i = some x := by
  obtain ⟨A, h1, h2⟩ := hp
  obtain ⟨B, h3, h4⟩ := hx
  rw [h1] at h3; cases h3
  exact ⟨A, h1, h2, by rw [← h4]; exact (get_same h2).symm⟩

section
variable {E : Env} {S : Sys} (hU : Uses E S) {L : Lib σ} {m : Mix σ} {varg : List Arr} {kw : KwM}
include hU

/-- The temperature a call reports, in kelvin. -/
theorem shows_T {i : List Nat} {t : ℝ} (h : Shows (iT E L m varg kw) i t) :
    ∃ st, argparseM E L m varg kw = .ok st ∧ st.T.get i = some (toKelvin S.T.name t) := by
  obtain ⟨A, h1, h2⟩ := h
  unfold iT at h1
  cases hst : argparseM E L m varg kw with
  | error e => rw [hst, exbind_err] at h1; cases h1
  | ok st =>
    rw [hst, exbind_ok, conv_ok (does_out_T hU)] at h1
    cases h1
    refine ⟨st, rfl, ?_⟩
    change (st.T.get i).map (fromKelvin S.T.name) = some t at h2
    cases hT : st.T.get i with
    | none => rw [hT] at h2; cases h2
    | some τ =>
      rw [hT] at h2
      simp only [Option.map_some, Option.some.injEq] at h2
      rw [← h2, to_from]

/-- The common shape of `cp`, `h` and `e`. -/
theorem summed {f : Gas → ℝ → Nan} {out : NArr → Except Err NArr} {k : ℝ}
    (hout : ∀ a : NArr, out a = .ok ⟨a.shape, fun i => (a.val i).map (· * k)⟩)
    {r : Except Err NArr}
    (hr : r = (do
      let st ← argparseM E L m varg kw
      let x ← propeval L m f st.T
      out x)) {i : List Nat} {x t : ℝ} (hp : Position r i) (hx : Shows r i x)
    (ht : Shows (iT E L m varg kw) i t) {g : σ → ℝ}
    (hg : ∀ s ∈ m.c, f (L.gas s) (toKelvin S.T.name t) = some (g s)) :
    x = weigh g m (place m i) * k := by
  obtain ⟨A, h1, h2, h3⟩ := shows_at hp hx
  obtain ⟨st, h4, h5⟩ := shows_T hU ht
  rw [hr, h4, exbind_ok] at h1
  unfold propeval at h1
  cases hs : npShape m.shape st.T.shape with
  | error e => rw [hs, exbind_err, exbind_err] at h1; cases h1
  | ok sh =>
    rw [hs, exbind_ok, exbind_ok, hout] at h1
    cases h1
    dsimp only at h3
    rw [h5] at h3
    simp only [Option.bind_some] at h3
    rw [mixSum_weigh hg] at h3
    simp only [Option.map_some, Option.some.injEq] at h3
    exact h3.symm

end

/-- One constituent's own value at a temperature and pressure. -/
theorem own_value {E : Env} {S : Sys} (hU : Uses E S) {G : Gas} (hmw : 0 < G.mw) {t p : ℝ}
    (h1 : G.Tlo ≤ toKelvin S.T.name t) (h2 : toKelvin S.T.name t ≤ G.Thi) {q : Quantity} {y : ℝ}
    (h : method q E G [.scalar t, .scalar p] [] = .ok [some y]) :
    value E.a S G q (some (toKelvin S.T.name t)) (some (internal E.a S G.mw .pressure p))
      (some (internal E.a S G.mw .pressure p / (1000 * Ru * toKelvin S.T.name t))) = some y := by
  rw [method_Tp hU hmw.ne' t p h1 h2 q] at h
  simpa using h

theorem sum_amounts (E : Env) (S : Sys) (L : Lib σ) (m : Mix σ) (i : List Nat) (g w : σ → ℝ) (k : ℝ)
    (h : ∀ s ∈ m.c, g s * k = w s / msize E.a (L.gas s).mw S.m) :
    weigh g m (place m i) * k = ∑ s ∈ m.c.toFinset, holds E S L m s i * w s := by
  unfold weigh
  rw [Finset.sum_mul]
  refine Finset.sum_congr rfl fun s hs => ?_
  have := h s (by simpa using hs)
  unfold holds
  calc g s * amount m s (place m i) * k = amount m s (place m i) * (g s * k) := by ring
    _ = _ := by rw [this]; ring

/-- **C81.** Enthalpy.  At every position, the enthalpy of a mixture is the sum over its constituents
of the amount (in the working unit of matter) times the enthalpy that the constituent itself
reports at the temperature of that position (and any pressure). -/
theorem C81_enthalpy (E : Env) (S : Sys) (hU : Uses E S) (L : Lib σ) (m : Mix σ) (hm : Weighs L m)
    (varg : List Arr) (kw : KwM) (i : List Nat) (x t p : ℝ) (y : σ → ℝ)
    (hp : Position (iH E L m varg kw) i) (hx : Shows (iH E L m varg kw) i x)
    (ht : Shows (iT E L m varg kw) i t) (hv : ValidAt S L m t)
    (hy : ∀ s ∈ m.c, mH E (L.gas s) [.scalar t, .scalar p] [] = .ok [some (y s)]) :
    x = ∑ s ∈ m.c.toFinset, holds E S L m s i * y s := by
  have key : ∀ s ∈ m.c, ∃ z, ((L.gas s).h (toKelvin S.T.name t)).map (·.1) = some z ∧
      z * (1000 / size energy S.e) = y s / msize E.a (L.gas s).mw S.m := by
    intro s hs
    have := own_value hU (hm s hs) (hv s hs).1 (hv s hs).2 (q := .h) (hy s hs)
    simp only [value, Gas.hI, Option.bind_some] at this
    cases hh : ((L.gas s).h (toKelvin S.T.name t)).map (·.1) with
    | none => rw [hh] at this; cases this
    | some z =>
      rw [hh] at this
      simp only [Option.map_some, Option.some.injEq, inUnits] at this
      refine ⟨z, rfl, ?_⟩
      rw [← this, mul_div_assoc, div_self (ms_ne hU (hm s hs).ne'), mul_one]
  choose! z hz1 hz2 using key
  rw [summed hU (r := iH E L m varg kw) (f := fun G t => (G.h t).map (fun r => r.1)) (outE_ok hU) rfl hp hx ht hz1]
  exact sum_amounts E S L m i z y _ hz2

/-- **C81.** Internal energy, in the same way. -/
theorem C81_energy (E : Env) (S : Sys) (hU : Uses E S) (L : Lib σ) (m : Mix σ) (hm : Weighs L m)
    (varg : List Arr) (kw : KwM) (i : List Nat) (x t p : ℝ) (y : σ → ℝ)
    (hp : Position (iE E L m varg kw) i) (hx : Shows (iE E L m varg kw) i x)
    (ht : Shows (iT E L m varg kw) i t) (hv : ValidAt S L m t)
    (hy : ∀ s ∈ m.c, mE E (L.gas s) [.scalar t, .scalar p] [] = .ok [some (y s)]) :
    x = ∑ s ∈ m.c.toFinset, holds E S L m s i * y s := by
  have key : ∀ s ∈ m.c, ∃ z, ((L.gas s).e (toKelvin S.T.name t)).map (·.1) = some z ∧
      z * (1000 / size energy S.e) = y s / msize E.a (L.gas s).mw S.m := by
    intro s hs
    have := own_value hU (hm s hs) (hv s hs).1 (hv s hs).2 (q := .e) (hy s hs)
    simp only [value, Gas.eI, Option.bind_some] at this
    unfold Gas.e
    cases hh : (L.gas s).h (toKelvin S.T.name t) with
    | none => rw [hh] at this; cases this
    | some z =>
      rw [hh] at this
      simp only [Option.map_some, Option.some.injEq, inUnits] at this
      refine ⟨z.1 - Ru * toKelvin S.T.name t, rfl, ?_⟩
      rw [← this, mul_div_assoc, div_self (ms_ne hU (hm s hs).ne'), mul_one]
  choose! z hz1 hz2 using key
  rw [summed hU (r := iE E L m varg kw) (f := fun G t => (G.e t).map (fun r => r.1)) (outE_ok hU) rfl hp hx ht hz1]
  exact sum_amounts E S L m i z y _ hz2

/-- **C81.** Heat capacity at constant pressure, in the same way. -/
theorem C81_heat_capacity (E : Env) (S : Sys) (hU : Uses E S) (L : Lib σ) (m : Mix σ)
    (hm : Weighs L m) (varg : List Arr) (kw : KwM) (i : List Nat) (x t p : ℝ) (y : σ → ℝ)
    (hp : Position (iCp E L m varg kw) i) (hx : Shows (iCp E L m varg kw) i x)
    (ht : Shows (iT E L m varg kw) i t) (hv : ValidAt S L m t)
    (hy : ∀ s ∈ m.c, mCp E (L.gas s) [.scalar t, .scalar p] [] = .ok [some (y s)]) :
    x = ∑ s ∈ m.c.toFinset, holds E S L m s i * y s := by
  have key : ∀ s ∈ m.c, ∃ z, (L.gas s).cp (toKelvin S.T.name t) = some z ∧
      z * (1000 / size energy S.e * (size temperature S.T.name / 1.8))
        = y s / msize E.a (L.gas s).mw S.m := by
    intro s hs
    have := own_value hU (hm s hs) (hv s hs).1 (hv s hs).2 (q := .cp) (hy s hs)
    simp only [value, Gas.cpI, Option.bind_some] at this
    cases hh : (L.gas s).cp (toKelvin S.T.name t) with
    | none => rw [hh] at this; cases this
    | some z =>
      rw [hh] at this
      simp only [Option.map_some, Option.some.injEq, inUnits] at this
      refine ⟨z, rfl, ?_⟩
      rw [← this]
      have := ms_ne hU (hm s hs).ne'
      field_simp
  choose! z hz1 hz2 using key
  have hout : ∀ a : NArr, outS E a = .ok ⟨a.shape, fun i => (a.val i).map
      (· * (1000 / size energy S.e * (size temperature S.T.name / 1.8)))⟩ := by
    intro a
    rw [outS_ok hU]
    simp only [mul_assoc]
  rw [summed hU (r := iCp E L m varg kw) (f := Gas.cp) hout rfl hp hx ht hz1]
  exact sum_amounts E S L m i z y _ hz2

/-! ## Entropy, Gibbs and Helmholtz energy -/

theorem amount_row {m : Mix σ} (hn : m.c.Nodup) {k : Nat} (hk : k < m.c.length) (j : List Nat) :
    amount m m.c[k] j = m.q.val (k :: j) := by
  unfold amount
  rw [Finset.sum_eq_single k]
  · rw [if_pos (List.getElem?_eq_getElem hk)]
  · intro r hr hne
    rw [if_neg]
    intro h
    have hr' := Finset.mem_range.mp hr
    rw [List.getElem?_eq_getElem hr', Option.some.injEq] at h
    exact hne ((List.Nodup.getElem_inj_iff hn).mp h)
  · intro h
    exact absurd (Finset.mem_range.mpr hk) h

/-- A sum over rows as a sum over substances, each entered once. -/
theorem rows_nodup {m : Mix σ} (hn : m.c.Nodup) (j : List Nat) (f : σ → ℝ → ℝ) :
    ((m.c.zip (List.range m.c.length)).map (fun r => f r.1 (m.q.val (r.2 :: j)))).sum =
      ∑ s ∈ m.c.toFinset, f s (amount m s j) := by
  rw [List.sum_toFinset _ hn]
  congr 1
  apply List.ext_getElem
  · simp
  · intro k h1 h2
    simp at h1 h2 ⊢
    rw [amount_row hn]

theorem mixSum_list (l : List (ℝ × ℝ)) :
    mixSum (fun x : ℝ => some x) l = some ((l.map (fun r => r.2 * r.1)).sum) :=
  mixSum_some (g := fun x => x) l (fun _ _ => rfl)

open Classical in
/-- The pressure part of the entropy, when pressures and mixture have the same shape. -/
theorem spMix_val {L : Lib σ} {m : Mix σ} (hn : m.c.Nodup) {P Y : NArr} (hY : spMix L m P = .ok Y)
    (hs : P.shape = m.shape) {i : List Nat} (hi : Within i m.shape) {p : ℝ} (hp : P.val i = some p) :
    Y.shape = m.shape ∧ Y.val i = some (- (Ru * ∑ s ∈ m.c.toFinset, amount m s i *
      Real.log (if amount m s i ≤ 0 then 1 else p * (amount m s i / kmols m i) / (L.gas s).pref))) := by
  have hat : m.at i = i := by
    unfold Mix.at
    rw [within_length hi, Nat.sub_self, List.drop_zero, clip_eq_src, src_within hi]
  unfold spMix at hY
  unfold classes at hY
  split at hY
  · rw [exbind_err] at hY; cases hY
  · rw [exbind_ok, hs, npShape_self, exbind_ok] at hY
    rw [if_neg (by simp), if_neg (by simp)] at hY
    cases hY
    refine ⟨rfl, ?_⟩
    dsimp only
    rw [hp, Option.bind_some, mixSum_list, Option.map_some, List.map_map]
    have ht : i.take m.shape.length = i := by rw [← within_length hi, List.take_length]
    simp only [ht, hat, Function.comp_def]
    congr 1
    have := rows_nodup hn i (fun s q => q * -Real.log (if q ≤ 0 then 1
      else p * q / total m i / (L.gas s).pref))
    rw [this, kmols_total, hat]
    rw [← neg_mul, Finset.sum_mul, Finset.mul_sum]
    refine Finset.sum_congr rfl fun s _ => ?_
    rw [mul_div_assoc p]
    ring

section
variable {E : Env} {S : Sys} (hU : Uses E S) {L : Lib σ} {m : Mix σ} {varg : List Arr} {kw : KwM}
include hU

theorem shows_T' {i : List Nat} {t : ℝ} (h : Shows (iT E L m varg kw) i t) {sh : List Nat}
    (hs : HasShape (iT E L m varg kw) sh) (hi : Within i sh) :
    ∃ st, argparseM E L m varg kw = .ok st ∧ st.T.shape = sh ∧
      st.T.val i = some (toKelvin S.T.name t) := by
  obtain ⟨st, h1, h2⟩ := shows_T hU h
  obtain ⟨A, h3, h4⟩ := hs
  unfold iT at h3
  rw [h1, exbind_ok, conv_ok (does_out_T hU)] at h3
  cases h3
  exact ⟨st, h1, h4, by rw [← h2]; exact (get_same (by rw [h4]; exact hi)).symm⟩

theorem shows_P {i : List Nat} {p : ℝ} (h : Shows (iP E L m varg kw) i p) {sh : List Nat}
    (hs : HasShape (iP E L m varg kw) sh) (hi : Within i sh) :
    ∃ st P, argparseM E L m varg kw = .ok st ∧ st.pressure = .ok P ∧ P.shape = sh ∧
      P.val i = some (p * size (Units.pressure E.a) S.p) := by
  obtain ⟨A, h1, h2⟩ := h
  obtain ⟨B, h3, h4⟩ := hs
  rw [h1] at h3; cases h3
  unfold iP at h1
  cases hst : argparseM E L m varg kw with
  | error e => rw [hst, exbind_err] at h1; cases h1
  | ok st =>
    rw [hst, exbind_ok] at h1
    cases hP : st.pressure with
    | error e => rw [hP, exbind_err] at h1; cases h1
    | ok P =>
      rw [hP, exbind_ok, conv_ok (does_out_p hU)] at h1
      cases h1
      refine ⟨st, P, rfl, hP, h4, ?_⟩
      change (P.get i).map (· / size (Units.pressure E.a) S.p) = some p at h2
      rw [get_same (by rw [h4]; exact hi)] at h2
      cases hv : P.val i with
      | none => rw [hv] at h2; cases h2
      | some z =>
        rw [hv] at h2
        simp only [Option.map_some, Option.some.injEq] at h2
        rw [← h2, div_mul_cancel₀ _ (ps_ne hU)]

end

open Classical in
/-- The negative of the pressure part, per substance. -/
noncomputable def logPart (L : Lib σ) (m : Mix σ) (i : List Nat) (p : ℝ) (s : σ) : ℝ :=
  Real.log (if amount m s i ≤ 0 then 1 else p * (amount m s i / kmols m i) / (L.gas s).pref)

theorem place_within {m : Mix σ} {i : List Nat} (hi : Within i m.shape) : place m i = i := by
  unfold place
  rw [within_length hi, Nat.sub_self, List.drop_zero, src_within hi]

theorem zip_same {f : ℝ → ℝ → ℝ} {a b : NArr} {sh : List Nat} (ha : a.shape = sh) (hb : b.shape = sh) :
    ∃ c, a.zip f b = .ok c ∧ c.shape = sh ∧ ∀ i, Within i sh → c.val i = nan2 f (a.val i) (b.val i) := by
  unfold NArr.zip
  rw [ha, hb, npShape_self, exbind_ok]
  refine ⟨_, rfl, rfl, fun i hi => ?_⟩
  dsimp only
  rw [get_same (by rw [ha]; exact hi), get_same (by rw [hb]; exact hi)]

theorem propeval_same {L : Lib σ} {m : Mix σ} {f : Gas → ℝ → Nan} {T X : NArr}
    (hX : propeval L m f T = .ok X) (hs : T.shape = m.shape) {i : List Nat} (hi : Within i m.shape)
    {t : ℝ} (ht : T.val i = some t) :
    X.shape = m.shape ∧ X.val i = mixSum (fun s => f (L.gas s) t) (rowsAt m i) := by
  unfold propeval at hX
  rw [hs, npShape_self, exbind_ok] at hX
  cases hX
  refine ⟨rfl, ?_⟩
  dsimp only
  rw [get_same (by rw [hs]; exact hi), ht, Option.bind_some]
  congr 2
  exact place_within hi

theorem mixSum_get {m : Mix σ} {j : List Nat} {f : σ → Nan} {x : ℝ}
    (h : mixSum f (rowsAt m j) = some x) : ∃ g : σ → ℝ, (∀ s ∈ m.c, f s = some (g s)) ∧ x = weigh g m j := by
  have h1 : ∀ s ∈ m.c, ∃ y, f s = some y := by
    intro s hs
    obtain ⟨q, hq⟩ := rowsAt_of_mem j hs
    exact mixSum_eq_some _ h _ hq
  choose! g hg using h1
  refine ⟨g, hg, ?_⟩
  rw [mixSum_weigh hg] at h
  exact (Option.some.inj h).symm

/-- Entropy in internal units. -/
theorem entropy_internal {E : Env} {S : Sys} (hU : Uses E S) {L : Lib σ} {m : Mix σ}
    {varg : List Arr} {kw : KwM} (hn : m.c.Nodup) {i : List Nat} (hi : Within i m.shape) {x t p : ℝ}
    (sT : HasShape (iT E L m varg kw) m.shape) (sP : HasShape (iP E L m varg kw) m.shape)
    (hx : Shows (iS E L m varg kw) i x) (ht : Shows (iT E L m varg kw) i t)
    (hp : Shows (iP E L m varg kw) i p) :
    ∃ g : σ → ℝ, (∀ s ∈ m.c, ((L.gas s).s (toKelvin S.T.name t)).map (·.1) = some (g s)) ∧
      x = (∑ s ∈ m.c.toFinset, amount m s i *
        (g s - Ru * logPart L m i (p * size (Units.pressure E.a) S.p) s)) *
        (1000 / size energy S.e * (size temperature S.T.name / 1.8)) := by
  obtain ⟨st, h1, h2, h3⟩ := shows_T' hU ht sT hi
  obtain ⟨st', P, h4, h5, h6, h7⟩ := shows_P hU hp sP hi
  rw [h1] at h4; cases h4
  obtain ⟨A, a1, a2⟩ := hx
  unfold iS at a1
  rw [h1, exbind_ok, h5, exbind_ok] at a1
  cases hX : propeval L m (fun G t => (G.s t).map (·.1)) st.T with
  | error e => rw [hX, exbind_err] at a1; cases a1
  | ok X =>
    obtain ⟨x1, x2⟩ := propeval_same hX h2 hi h3
    rw [hX, exbind_ok] at a1
    cases hY : spMix L m P with
    | error e => rw [hY, exbind_err] at a1; cases a1
    | ok Y =>
      obtain ⟨y1, y2⟩ := spMix_val hn hY h6 hi h7
      obtain ⟨Z, z1, z2, z3⟩ := zip_same (f := (· + ·)) x1 y1
      rw [hY, exbind_ok, z1, exbind_ok, outS_ok hU] at a1
      cases a1
      change NArr.get ⟨Z.shape, _⟩ i = some x at a2
      rw [get_same (by rw [z2]; exact hi)] at a2
      dsimp only at a2
      rw [z3 i hi, x2, y2] at a2
      cases hM : mixSum (fun s => ((L.gas s).s (toKelvin S.T.name t)).map (·.1)) (rowsAt m i) with
      | none => rw [hM] at a2; cases a2
      | some z =>
        obtain ⟨g, g1, g2⟩ := mixSum_get hM
        rw [hM] at a2
        simp only [nan2, Option.bind_some, Option.map_some, Option.some.injEq] at a2
        refine ⟨g, g1, ?_⟩
        rw [← a2, g2, mul_assoc]
        congr 1
        unfold weigh logPart
        rw [Finset.mul_sum, ← Finset.sum_neg_distrib, ← Finset.sum_add_distrib]
        refine Finset.sum_congr rfl fun s _ => ?_
        ring

/-- `g` and `f` in internal units. -/
theorem free_internal {E : Env} {S : Sys} (hU : Uses E S) {L : Lib σ} {m : Mix σ}
    {varg : List Arr} {kw : KwM} (hn : m.c.Nodup) {i : List Nat} (hi : Within i m.shape) {x t p : ℝ}
    (sT : HasShape (iT E L m varg kw) m.shape) (sP : HasShape (iP E L m varg kw) m.shape)
    {φ : Gas → ℝ → Nan} {r : Except Err NArr} (hr : r = (do
      let st ← argparseM E L m varg kw
      let p ← st.pressure
      let x ← propeval L m φ st.T
      let y ← spMix L m p
      let ty ← st.T.zip (· * ·) y
      let z ← x.zip (· - ·) ty
      outE E z))
    (hx : Shows r i x) (ht : Shows (iT E L m varg kw) i t)
    (hp : Shows (iP E L m varg kw) i p) :
    ∃ g : σ → ℝ, (∀ s ∈ m.c, φ (L.gas s) (toKelvin S.T.name t) = some (g s)) ∧
      x = (∑ s ∈ m.c.toFinset, amount m s i *
        (g s + toKelvin S.T.name t * Ru * logPart L m i (p * size (Units.pressure E.a) S.p) s)) *
        (1000 / size energy S.e) := by
  obtain ⟨st, h1, h2, h3⟩ := shows_T' hU ht sT hi
  obtain ⟨st', P, h4, h5, h6, h7⟩ := shows_P hU hp sP hi
  rw [h1] at h4; cases h4
  obtain ⟨A, a1, a2⟩ := hx
  rw [hr, h1, exbind_ok, h5, exbind_ok] at a1
  cases hX : propeval L m φ st.T with
  | error e => rw [hX, exbind_err] at a1; cases a1
  | ok X =>
    obtain ⟨x1, x2⟩ := propeval_same hX h2 hi h3
    rw [hX, exbind_ok] at a1
    cases hY : spMix L m P with
    | error e => rw [hY, exbind_err] at a1; cases a1
    | ok Y =>
      obtain ⟨y1, y2⟩ := spMix_val hn hY h6 hi h7
      obtain ⟨W, w1, w2, w3⟩ := zip_same (f := (· * ·)) h2 y1
      obtain ⟨Z, z1, z2, z3⟩ := zip_same (f := (· - ·)) x1 w2
      rw [hY, exbind_ok, w1, exbind_ok, z1, exbind_ok, outE_ok hU] at a1
      cases a1
      change NArr.get ⟨Z.shape, _⟩ i = some x at a2
      rw [get_same (by rw [z2]; exact hi)] at a2
      dsimp only at a2
      rw [z3 i hi, w3 i hi, x2, y2, h3] at a2
      cases hM : mixSum (fun s => φ (L.gas s) (toKelvin S.T.name t)) (rowsAt m i) with
      | none => rw [hM] at a2; cases a2
      | some z =>
        obtain ⟨g, g1, g2⟩ := mixSum_get hM
        rw [hM] at a2
        simp only [nan2, Option.bind_some, Option.map_some, Option.some.injEq] at a2
        refine ⟨g, g1, ?_⟩
        rw [← a2, g2]
        congr 1
        unfold weigh logPart
        rw [Finset.mul_sum, ← Finset.sum_neg_distrib, Finset.mul_sum, ← Finset.sum_sub_distrib]
        refine Finset.sum_congr rfl fun s _ => ?_
        ring

/-- **C81, partial.** Entropy.  At every position, the entropy of a mixture is the sum over its
constituents of the amount times the entropy that the constituent itself reports at the temperature
of that position and its own partial pressure (mole fraction times pressure).  Missing: calls in
which the shape of the arguments differs from that of the mixture, see `C81_shape_defect`. -/
theorem C81_entropy_partial (E : Env) (S : Sys) (hU : Uses E S) (L : Lib σ) (m : Mix σ)
    (hm : Weighs L m) (hn : m.c.Nodup) (varg : List Arr) (kw : KwM) (i : List Nat)
    (hi : Within i m.shape) (hq : ∀ s ∈ m.c, 0 ≤ amount m s i) (x t p : ℝ) (y : σ → ℝ)
    (sT : HasShape (iT E L m varg kw) m.shape) (sP : HasShape (iP E L m varg kw) m.shape)
    (hx : Shows (iS E L m varg kw) i x) (ht : Shows (iT E L m varg kw) i t)
    (hp : Shows (iP E L m varg kw) i p) (hv : ValidAt S L m t)
    (hy : ∀ s ∈ m.c, 0 < amount m s i →
      mS E (L.gas s) [.scalar t, .scalar (p * molFrac m s i)] [] = .ok [some (y s)]) :
    x = ∑ s ∈ m.c.toFinset, holds E S L m s i * y s := by
  obtain ⟨g, g1, g2⟩ := entropy_internal hU hn hi sT sP hx ht hp
  rw [g2, Finset.sum_mul]
  refine Finset.sum_congr rfl fun s hs => ?_
  have hs' : s ∈ m.c := by simpa using hs
  unfold holds
  rw [place_within hi]
  rcases (hq s hs').eq_or_lt with h0 | h0
  · rw [← h0]; simp
  · have := own_value hU (hm s hs') (hv s hs').1 (hv s hs').2 (q := .s) (hy s hs' h0)
    have hg := g1 s hs'
    simp only [value, Gas.sI, Option.bind_some] at this
    cases hh : (L.gas s).s (toKelvin S.T.name t) with
    | none => rw [hh] at hg; cases hg
    | some z =>
      rw [hh] at this hg
      simp only [Option.map_some, Option.some.injEq, inUnits, internal] at this hg
      unfold logPart
      rw [if_neg (not_le.mpr h0), ← this, ← hg]
      have e : p * molFrac m s i * size (Units.pressure E.a) S.p / (L.gas s).pref =
          p * size (Units.pressure E.a) S.p * (amount m s i / kmols m i) / (L.gas s).pref := by
        unfold molFrac
        rw [place_within hi]; ring
      rw [e]
      have := ms_ne hU (hm s hs').ne'
      field_simp

/-- **C81, partial.** Gibbs energy, in the same way, each constituent at its partial pressure. -/
theorem C81_gibbs_partial (E : Env) (S : Sys) (hU : Uses E S) (L : Lib σ) (m : Mix σ)
    (hm : Weighs L m) (hn : m.c.Nodup) (varg : List Arr) (kw : KwM) (i : List Nat)
    (hi : Within i m.shape) (hq : ∀ s ∈ m.c, 0 ≤ amount m s i) (x t p : ℝ) (y : σ → ℝ)
    (sT : HasShape (iT E L m varg kw) m.shape) (sP : HasShape (iP E L m varg kw) m.shape)
    (hx : Shows (iG E L m varg kw) i x) (ht : Shows (iT E L m varg kw) i t)
    (hp : Shows (iP E L m varg kw) i p) (hv : ValidAt S L m t)
    (hy : ∀ s ∈ m.c, 0 < amount m s i →
      mG E (L.gas s) [.scalar t, .scalar (p * molFrac m s i)] [] = .ok [some (y s)]) :
    x = ∑ s ∈ m.c.toFinset, holds E S L m s i * y s := by
  obtain ⟨g, g1, g2⟩ := free_internal hU hn hi sT sP (r := iG E L m varg kw)
    (φ := fun G t => (G.g t).map (fun r => r.1)) rfl hx ht hp
  rw [g2, Finset.sum_mul]
  refine Finset.sum_congr rfl fun s hs => ?_
  have hs' : s ∈ m.c := by simpa using hs
  unfold holds
  rw [place_within hi]
  rcases (hq s hs').eq_or_lt with h0 | h0
  · rw [← h0]; simp
  · have := own_value hU (hm s hs') (hv s hs').1 (hv s hs').2 (q := .g) (hy s hs' h0)
    have hg := g1 s hs'
    simp only [value, Gas.gI, Option.bind_some] at this
    cases hh : (L.gas s).g (toKelvin S.T.name t) with
    | none => rw [hh] at hg; cases hg
    | some z =>
      rw [hh] at this hg
      simp only [Option.map_some, Option.some.injEq, inUnits, internal] at this hg
      unfold logPart
      rw [if_neg (not_le.mpr h0), ← this, ← hg]
      have e : p * molFrac m s i * size (Units.pressure E.a) S.p / (L.gas s).pref =
          p * size (Units.pressure E.a) S.p * (amount m s i / kmols m i) / (L.gas s).pref := by
        unfold molFrac
        rw [place_within hi]; ring
      rw [e]
      have := ms_ne hU (hm s hs').ne'
      field_simp

/-- **C81, partial.** Helmholtz energy, in the same way, each constituent at its partial
pressure. -/
theorem C81_helmholtz_partial (E : Env) (S : Sys) (hU : Uses E S) (L : Lib σ) (m : Mix σ)
    (hm : Weighs L m) (hn : m.c.Nodup) (varg : List Arr) (kw : KwM) (i : List Nat)
    (hi : Within i m.shape) (hq : ∀ s ∈ m.c, 0 ≤ amount m s i) (x t p : ℝ) (y : σ → ℝ)
    (sT : HasShape (iT E L m varg kw) m.shape) (sP : HasShape (iP E L m varg kw) m.shape)
    (hx : Shows (iF E L m varg kw) i x) (ht : Shows (iT E L m varg kw) i t)
    (hp : Shows (iP E L m varg kw) i p) (hv : ValidAt S L m t)
    (hy : ∀ s ∈ m.c, 0 < amount m s i →
      mF E (L.gas s) [.scalar t, .scalar (p * molFrac m s i)] [] = .ok [some (y s)]) :
    x = ∑ s ∈ m.c.toFinset, holds E S L m s i * y s := by
  obtain ⟨g, g1, g2⟩ := free_internal hU hn hi sT sP (r := iF E L m varg kw)
    (φ := fun G t => (G.f t).map (fun r => r.1)) rfl hx ht hp
  rw [g2, Finset.sum_mul]
  refine Finset.sum_congr rfl fun s hs => ?_
  have hs' : s ∈ m.c := by simpa using hs
  unfold holds
  rw [place_within hi]
  rcases (hq s hs').eq_or_lt with h0 | h0
  · rw [← h0]; simp
  · have := own_value hU (hm s hs') (hv s hs').1 (hv s hs').2 (q := .f) (hy s hs' h0)
    have hg := g1 s hs'
    simp only [value, Gas.fI, Option.bind_some] at this
    cases hh : (L.gas s).f (toKelvin S.T.name t) with
    | none => rw [hh] at hg; cases hg
    | some z =>
      rw [hh] at this hg
      simp only [Option.map_some, Option.some.injEq, inUnits, internal] at this hg
      unfold logPart
      rw [if_neg (not_le.mpr h0), ← this, ← hg]
      have e : p * molFrac m s i * size (Units.pressure E.a) S.p / (L.gas s).pref =
          p * size (Units.pressure E.a) S.p * (amount m s i / kmols m i) / (L.gas s).pref := by
        unfold molFrac
        rw [place_within hi]; ring
      rw [e]
      have := ms_ne hU (hm s hs').ne'
      field_simp

end PyroMat.Igt.Props
