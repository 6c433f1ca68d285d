import Verif.If97.Calls
import Verif.Gas.PropsConst

/-!
# Steam: the calls (C60, C61, C66, C67)

Temperatures and pressures are those of the caller; `kelvin S` and `bar E.a S` give them in K and bar.
-/

set_option linter.unusedSimpArgs false

namespace PyroMat.If97.Props

open PyroMat PyroMat.Units PyroMat.Units.Props PyroMat.Gas PyroMat.Gas.Spec
open PyroMat.Units.Spec hiding kelvin
open PyroMat.Gas.Props PyroMat.Mp.Spec PyroMat.Mp.Props PyroMat.If97 PyroMat.If97.Spec

section
variable {E : Env} {S : Sys} {W : Water}

/-! ## C60: range -/

theorem element_single (W : Water) (q : Q) (a b : Bool) (T p : ℝ) :
    element W q a b T p (-1) = (single W q T p).map some := by
  unfold element
  rw [if_pos (by norm_num)]

theorem states_eq (hU : Uses E S) (hmw : W.mw ≠ 0) (q : Q) (T p : Val ℝ) {ts ps : List ℝ}
    (hb : broadcast (Val.elems T) (Val.elems p) = .ok (ts, ps)) (hne : ts ≠ []) :
    method E W q (some T) (some p) none =
      ((ts.zip ps).mapM (fun a => (single W q (kelvin S a.1) (bar E.a S a.2)).map some)).map
        (scaleBy (factor E S W q)) := by
  rw [method_eq hU hmw q (some T) (some p) none (nditer_pairs hb hne)]
  congr 1
  generalize ts.zip ps = l
  induction l with
  | nil => rfl
  | cons a l ih =>
    rw [List.map_cons, List.mapM_cons, List.mapM_cons, ih]
    simp only [element_single]

/-- **C60.** A call with temperatures and pressures returns, with a value for every state, exactly when
every state lies in the range of the formulation; otherwise it raises the parameter error. -/
theorem C60_range (hU : Uses E S) (hd : GoodData W) (hmw : W.mw ≠ 0) (q : Q) (T p : Val ℝ)
    {ts ps : List ℝ} (hb : broadcast (Val.elems T) (Val.elems p) = .ok (ts, ps)) (hne : ts ≠ []) :
    ((∀ a ∈ ts.zip ps, Valid (kelvin S a.1) (bar E.a S a.2)) →
      ∃ vs : List ℝ, method E W q (some T) (some p) none = .ok (vs.map some) ∧ vs.length = (ts.zip ps).length) ∧
    ((∃ a ∈ ts.zip ps, ¬ Valid (kelvin S a.1) (bar E.a S a.2)) →
      method E W q (some T) (some p) none = .error .param) := by
  rw [states_eq hU hmw q T p hb hne]
  generalize ts.zip ps = l
  constructor
  · intro h
    have : ∃ vs : List ℝ, l.mapM (fun a => (single W q (kelvin S a.1) (bar E.a S a.2)).map some) =
        .ok (vs.map some) ∧ vs.length = l.length := by
      induction l with
      | nil => exact ⟨[], rfl, rfl⟩
      | cons a l ih =>
        obtain ⟨vs, h1, h2⟩ := ih (fun a ha => h a (List.mem_cons_of_mem _ ha))
        obtain ⟨v, hv⟩ := single_valid hd q (h a List.mem_cons_self)
        refine ⟨v :: vs, ?_, by simp [h2]⟩
        rw [List.mapM_cons, h1, hv]; rfl
    obtain ⟨vs, h1, h2⟩ := this
    refine ⟨vs.map (· * factor E S W q), ?_, by simpa using h2⟩
    rw [h1]
    simp [Except.map, scaleBy, Function.comp_def]
  · intro h
    cases hm : l.mapM (fun a => (single W q (kelvin S a.1) (bar E.a S a.2)).map some) with
    | ok r =>
      obtain ⟨a, ha, hna⟩ := h
      have := mapM_ok hm
      obtain ⟨i, hi, rfl⟩ := List.getElem_of_mem ha
      have h2 := this.get (i := i) hi (by rw [← this.length_eq]; exact hi)
      simp only [List.get_eq_getElem] at h2
      rw [single_invalid q hna] at h2
      cases h2
    | error e =>
      obtain ⟨a, ha, hea⟩ := mapM_error_of hm
      by_cases hv : Valid (kelvin S a.1) (bar E.a S a.2)
      · obtain ⟨v, hv⟩ := single_valid hd q hv
        rw [hv] at hea; cases hea
      · rw [single_invalid q hv] at hea
        cases hea
        rfl

/-- **C60.** The limits reported by `Tlim` and `plim` are those of the calls: the upper limit of the
temperature at a pressure and of the pressure at a temperature, together with non-negative pressure,
are the range of the formulation. -/
theorem C60_limits (hU : Uses E S) (t p : ℝ) :
    ∃ tlo thi plo phi, mTlim E (some (.scalar p)) = .ok (tlo, [thi]) ∧
      mPlim E W (some (.scalar t)) = .ok (plo, [phi]) ∧
      kelvin S tlo = 273.15 ∧ bar E.a S plo = W.pt ∧
      (Valid (kelvin S t) (bar E.a S p) ↔ 0 ≤ p ∧ p ≤ phi ∧ t ≤ thi) := by
  have hps := ps_pos hU
  have hlt : ∀ a b : ℝ, bar E.a S a ≤ bar E.a S b ↔ a ≤ b := by
    intro a b
    unfold bar
    rw [div_le_div_iff_of_pos_right (by norm_num), mul_le_mul_iff_of_pos_right hps]
  have hk : ∀ x, kelvin S (fromKelvin S.T.name x) = x := fun x => to_from S.T x
  refine ⟨fromKelvin S.T.name 273.15, if bar E.a S p > 500 then fromKelvin S.T.name 1073.15 else
      fromKelvin S.T.name 2273.15, W.pt * (1e5 / size (Units.pressure E.a) S.p),
    if kelvin S t > 1073.15 then 500 * (1e5 / size (Units.pressure E.a) S.p) else
      1000 * (1e5 / size (Units.pressure E.a) S.p), ?_, ?_, hk _, bar_from hU _, ?_⟩
  · simp only [mTlim, orDefault, Val.elems, List.mapM_cons, List.mapM_nil, toBar_eq hU, scalarOf_tscale hU]
    rfl
  · simp only [mPlim, orDefault, Val.elems, List.mapM_cons, List.mapM_nil, toK_eq hU, fromBar_eq hU]
    rfl
  · have e0 : (0 : ℝ) ≤ bar E.a S p ↔ 0 ≤ p := by
      rw [← hlt 0 p]; simp [bar]
    have e1 : ∀ x, t ≤ fromKelvin S.T.name x ↔ kelvin S t ≤ x := by
      intro x; rw [← kelvin_le (E := E) hU, hk]
    have e2 : ∀ x, p ≤ x * (1e5 / size (Units.pressure E.a) S.p) ↔ bar E.a S p ≤ x := by
      intro x; rw [← hlt, bar_from hU]
    unfold Valid
    rw [e0]
    by_cases h1 : bar E.a S p > 500 <;> by_cases h2 : kelvin S t > 1073.15 <;>
      simp only [h1, h2, if_true, if_false, e1, e2] <;>
      constructor <;> intro h <;> refine ⟨h.1, ?_⟩
    · rcases h.2 with h | h <;> constructor <;> linarith [h.1, h.2]
    · exfalso; linarith [h.2.1]
    · rcases h.2 with h | h
      · exact ⟨h.2, h.1⟩
      · exfalso; linarith [h.2]
    · exact Or.inl ⟨h.2.2, h.2.1⟩
    · rcases h.2 with h | h
      · exfalso; linarith [h.1]
      · exact ⟨h.2, h.1⟩
    · exact Or.inr ⟨h.2.2, h.2.1⟩
    · constructor <;> linarith
    · exact Or.inl ⟨by linarith, by linarith⟩

/-- **C60 disagreement.** The lower limits of `Tlim` and `plim` are not limits of the calls: a temperature
below 273.15 K, or a pressure of at least zero below the triple-point pressure, gets a value. -/
theorem C60_lower_defect (hU : Uses E S) (hd : GoodData W) (hmw : W.mw ≠ 0) (q : Q) (t p : ℝ)
    (h0 : 0 ≤ bar E.a S p) (h1 : bar E.a S p ≤ 500) (h2 : kelvin S t < 273.15 ∨ bar E.a S p < W.pt ∧
      kelvin S t ≤ 2273.15) :
    ∃ v, method E W q (some (.scalar t)) (some (.scalar p)) none = .ok [some v] := by
  obtain ⟨vs, h3, h4⟩ := (C60_range hU hd hmw q (.scalar t) (.scalar p) (ts := [t]) (ps := [p]) rfl (by simp)).1
    (by
      intro a ha
      simp at ha
      subst ha
      refine ⟨h0, ?_⟩
      rcases h2 with h2 | h2
      · exact Or.inl ⟨by linarith, by linarith⟩
      · exact Or.inr ⟨h2.2, h1⟩)
  simp at h4
  match vs, h4 with
  | [v], _ => exact ⟨v, h3⟩

/-! ## C61: the saturation calls -/

theorem any_lt (l : List ℝ) (c : ℝ) : (l.any (fun t => decide (t < c))) = true ↔ ∃ t ∈ l, t < c := by
  simp [List.any_eq_true]

theorem any_gt (l : List ℝ) (c : ℝ) : (l.any (fun t => decide (t > c))) = true ↔ ∃ t ∈ l, c < t := by
  simp [List.any_eq_true]

theorem mPs_eq (hU : Uses E S) (T : Val ℝ) :
    mPs E W (some T) = if ∃ t ∈ Val.elems T, kelvin S t < W.Tt ∨ W.Tc < kelvin S t then .error .param
      else .ok ((Val.elems T).map (fun t => (ps W (kelvin S t)).map
        (fun p => p * (1e5 / size (Units.pressure E.a) S.p)))) := by
  unfold mPs
  have : (orDefault E.c.defT (some T)).mapM (toK E) = .ok ((Val.elems T).map (kelvin S)) := by
    rw [mapM_congr (g := fun t => .ok (kelvin S t)) (fun t _ => toK_eq hU t), mapM_pure_map]; rfl
  rw [this, exOk]
  by_cases h1 : ∃ t ∈ (Val.elems T).map (kelvin S), t < W.Tt
  · rw [if_pos ((any_lt _ _).mpr h1), if_pos]
    obtain ⟨t, ht, hl⟩ := h1
    obtain ⟨u, hu, rfl⟩ := List.mem_map.mp ht
    exact ⟨u, hu, Or.inl hl⟩
  · rw [if_neg (fun h => h1 ((any_lt _ _).mp h))]
    by_cases h2 : ∃ t ∈ (Val.elems T).map (kelvin S), W.Tc < t
    · rw [if_pos ((any_gt _ _).mpr h2), if_pos]
      obtain ⟨t, ht, hl⟩ := h2
      obtain ⟨u, hu, rfl⟩ := List.mem_map.mp ht
      exact ⟨u, hu, Or.inr hl⟩
    · rw [if_neg (fun h => h2 ((any_gt _ _).mp h)), if_neg]
      · unfold convNan
        rw [mapM_congr (g := fun x => .ok (x.map (fun p => p * (1e5 / size (Units.pressure E.a) S.p)))),
          mapM_pure_map]
        · rw [List.map_map, List.map_map]; rfl
        · intro x _
          cases x with
          | none => rfl
          | some x => simp only [fromBar_eq hU]; rfl
      · rintro ⟨t, ht, hl | hl⟩
        · exact h1 ⟨_, List.mem_map.mpr ⟨t, ht, rfl⟩, hl⟩
        · exact h2 ⟨_, List.mem_map.mpr ⟨t, ht, rfl⟩, hl⟩

theorem mTs_eq (hU : Uses E S) (p : Val ℝ) :
    mTs E W (some p) = if ∃ x ∈ Val.elems p, bar E.a S x < W.pt ∨ W.pc < bar E.a S x then .error .param
      else .ok ((Val.elems p).map (fun x => (Ts W (bar E.a S x)).map (fromKelvin S.T.name))) := by
  unfold mTs
  have : (orDefault E.c.defp (some p)).mapM (fun p =>
      scalarOf ((Units.pressure E.a).call E.c.str (.scalar p) none (some "bar") none false)) =
      .ok ((Val.elems p).map (bar E.a S)) := by
    rw [mapM_congr (g := fun t => .ok (bar E.a S t)) (fun t _ => toBar_eq hU t), mapM_pure_map]; rfl
  rw [this, exOk]
  by_cases h1 : ∃ t ∈ (Val.elems p).map (bar E.a S), t < W.pt
  · rw [if_pos ((any_lt _ _).mpr h1), if_pos]
    obtain ⟨t, ht, hl⟩ := h1
    obtain ⟨u, hu, rfl⟩ := List.mem_map.mp ht
    exact ⟨u, hu, Or.inl hl⟩
  · rw [if_neg (fun h => h1 ((any_lt _ _).mp h))]
    by_cases h2 : ∃ t ∈ (Val.elems p).map (bar E.a S), W.pc < t
    · rw [if_pos ((any_gt _ _).mpr h2), if_pos]
      obtain ⟨t, ht, hl⟩ := h2
      obtain ⟨u, hu, rfl⟩ := List.mem_map.mp ht
      exact ⟨u, hu, Or.inr hl⟩
    · rw [if_neg (fun h => h2 ((any_gt _ _).mp h)), if_neg]
      · rw [convNan_T hU false 1, List.map_map, List.map_map]
        rfl
      · rintro ⟨t, ht, hl | hl⟩
        · exact h1 ⟨_, List.mem_map.mpr ⟨t, ht, rfl⟩, hl⟩
        · exact h2 ⟨_, List.mem_map.mpr ⟨t, ht, rfl⟩, hl⟩

/-- **C61.** `ps` answers exactly between the triple and the critical temperature, `Ts` exactly between the
triple and the critical pressure; otherwise they raise the parameter error. -/
theorem C61_range (hU : Uses E S) (v : Val ℝ) :
    ((∃ out, mPs E W (some v) = .ok out) ↔ ∀ t ∈ Val.elems v, W.Tt ≤ kelvin S t ∧ kelvin S t ≤ W.Tc) ∧
    ((∃ out, mTs E W (some v) = .ok out) ↔ ∀ p ∈ Val.elems v, W.pt ≤ bar E.a S p ∧ bar E.a S p ≤ W.pc) ∧
    (∀ e, mPs E W (some v) = .error e → e = .param) ∧ (∀ e, mTs E W (some v) = .error e → e = .param) := by
  rw [mPs_eq hU, mTs_eq hU]
  refine ⟨?_, ?_, ?_, ?_⟩
  · split_ifs with h
    · refine ⟨fun ⟨_, h⟩ => (by cases h), fun h' => ?_⟩
      obtain ⟨t, ht, h | h⟩ := h
      · linarith [(h' t ht).1]
      · linarith [(h' t ht).2]
    · refine ⟨fun _ t ht => ?_, fun _ => ⟨_, rfl⟩⟩
      push Not at h
      exact h t ht
  · split_ifs with h
    · refine ⟨fun ⟨_, h⟩ => (by cases h), fun h' => ?_⟩
      obtain ⟨t, ht, h | h⟩ := h
      · linarith [(h' t ht).1]
      · linarith [(h' t ht).2]
    · refine ⟨fun _ t ht => ?_, fun _ => ⟨_, rfl⟩⟩
      push Not at h
      exact h t ht
  · intro e h; split_ifs at h; cases h; rfl
  · intro e h; split_ifs at h; cases h; rfl

/-- **C61.** `Ts` undoes `ps`: when `ps` answers it gives a number for every temperature, and if `Ts`
answers for these pressures it returns the temperatures.  The conditions on the coefficients hold for
those of the report (`iapws_line`). -/
theorem C61_Ts_ps (hU : Uses E S) {lo hi : ℝ} (hs : SatLine W lo hi) (hlo : lo ≤ W.Tt) (hhi : W.Tc ≤ hi)
    (T : Val ℝ) {out : List Nan} (h : mPs E W (some T) = .ok out) :
    ∃ vs : List ℝ, out = vs.map some ∧ vs.length = (Val.elems T).length ∧
      ∀ out', mTs E W (some (.arr vs)) = .ok out' → out' = (Val.elems T).map some := by
  have hr := ((C61_range hU (W := W) T).1.mp ⟨out, h⟩)
  rw [mPs_eq hU] at h
  split_ifs at h with hc
  cases h
  have hp : ∀ t ∈ Val.elems T, ∃ p, ps W (kelvin S t) = some p ∧ Ts W p = some (kelvin S t) :=
    fun t ht => line_T hs (le_trans hlo (hr t ht).1) (le_trans (hr t ht).2 hhi)
  clear hc hr
  generalize Val.elems T = l at *
  have : ∃ vs : List ℝ, l.map (fun t => (ps W (kelvin S t)).map
        (fun p => p * (1e5 / size (Units.pressure E.a) S.p))) = vs.map some ∧ vs.length = l.length ∧
      vs.map (fun x => (Ts W (bar E.a S x)).map (fromKelvin S.T.name)) = l.map some := by
    induction l with
    | nil => exact ⟨[], rfl, rfl, rfl⟩
    | cons t l ih =>
      obtain ⟨vs, h1, h2, h3⟩ := ih (fun t ht => hp t (List.mem_cons_of_mem _ ht))
      obtain ⟨p, e1, e2⟩ := hp t List.mem_cons_self
      refine ⟨p * (1e5 / size (Units.pressure E.a) S.p) :: vs, ?_, by simp [h2], ?_⟩
      · rw [List.map_cons, h1, e1]; rfl
      · rw [List.map_cons, h3, bar_from hU, e2]
        simp [kelvin, from_to]
  obtain ⟨vs, h1, h2, h3⟩ := this
  refine ⟨vs, h1, h2, fun out' h' => ?_⟩
  rw [mTs_eq hU] at h'
  split_ifs at h' with hc
  cases h'
  exact h3

/-- **C61.** `ps` undoes `Ts`, likewise, for pressures on the line. -/
theorem C61_ps_Ts (hU : Uses E S) {lo hi p0 p1 : ℝ} (hs : SatLine W lo hi) (e0 : ps W lo = some p0)
    (e1 : ps W hi = some p1) (hlo : p0 ≤ W.pt) (hhi : W.pc ≤ p1)
    (p : Val ℝ) {out : List Nan} (h : mTs E W (some p) = .ok out) :
    ∃ vs : List ℝ, out = vs.map some ∧ vs.length = (Val.elems p).length ∧
      ∀ out', mPs E W (some (.arr vs)) = .ok out' → out' = (Val.elems p).map some := by
  have hr := ((C61_range hU (W := W) p).2.1.mp ⟨out, h⟩)
  rw [mTs_eq hU] at h
  split_ifs at h with hc
  cases h
  have hp : ∀ x ∈ Val.elems p, ∃ T, Ts W (bar E.a S x) = some T ∧ ps W T = some (bar E.a S x) :=
    fun x hx => by
      obtain ⟨T, -, -, h1, h2⟩ := line_p hs e0 e1 (le_trans hlo (hr x hx).1) (le_trans (hr x hx).2 hhi)
      exact ⟨T, h1, h2⟩
  clear hc hr
  generalize Val.elems p = l at *
  have : ∃ vs : List ℝ, l.map (fun x => (Ts W (bar E.a S x)).map (fromKelvin S.T.name)) = vs.map some ∧
      vs.length = l.length ∧ vs.map (fun t => (ps W (kelvin S t)).map
        (fun p => p * (1e5 / size (Units.pressure E.a) S.p))) = l.map some := by
    induction l with
    | nil => exact ⟨[], rfl, rfl, rfl⟩
    | cons t l ih =>
      obtain ⟨vs, h1, h2, h3⟩ := ih (fun t ht => hp t (List.mem_cons_of_mem _ ht))
      obtain ⟨T, e1, e2⟩ := hp t List.mem_cons_self
      refine ⟨fromKelvin S.T.name T :: vs, ?_, by simp [h2], ?_⟩
      · rw [List.map_cons, h1, e1]; rfl
      · rw [List.map_cons, h3, show kelvin S (fromKelvin S.T.name T) = T from to_from S.T T, e2]
        simp [from_bar hU]
  obtain ⟨vs, h1, h2, h3⟩ := this
  refine ⟨vs, h1, h2, fun out' h' => ?_⟩
  rw [mPs_eq hU] at h'
  split_ifs at h' with hc
  cases h'
  exact h3

end

end PyroMat.If97.Props
