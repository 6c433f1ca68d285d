import Mathlib.Analysis.SpecialFunctions.Log.Deriv
import Mathlib.Tactic.FieldSimp
import Mathlib.Tactic.Ring
import Verif.Gas.Spec

/-!
# C31-C33 (inner routines): derivative identities and the piecewise ranges
-/

set_option linter.unusedSimpArgs false

namespace PyroMat.Gas.Props

open PyroMat PyroMat.Gas PyroMat.Gas.Spec Filter Topology

/-! ## Piecewise ranges -/

theorem lim_eq {Tlim : List ℝ} {i : Nat} (h : i < Tlim.length) : lim Tlim i = Tlim[i] := by
  simp [lim, h]

theorem lim_lt {Tlim : List ℝ} (hs : Tlim.Pairwise (· < ·)) {i j : Nat} (hij : i < j)
    (hj : j < Tlim.length) : lim Tlim i < lim Tlim j := by
  rw [lim_eq (hij.trans hj), lim_eq hj]
  exact List.pairwise_iff_getElem.mp hs i j _ _ hij

theorem lim_le {Tlim : List ℝ} (hs : Tlim.Pairwise (· < ·)) {i j : Nat} (hij : i ≤ j)
    (hj : j < Tlim.length) : lim Tlim i ≤ lim Tlim j := by
  rcases hij.lt_or_eq with h | h
  · exact (lim_lt hs h hj).le
  · rw [h]

/-- C33.  For strictly ascending limits `T_0 < ... < T_n` (`n ≥ 1`), every temperature between
the first and the last is selected by exactly one piece, one whose limits enclose it, and a
temperature outside by none. -/
theorem C33_partition (Tlim : List ℝ) (hs : Tlim.Pairwise (· < ·)) (hlen : 2 ≤ Tlim.length)
    (T : ℝ) :
    (Tlim.headD 0 ≤ T → T ≤ Tlim.getLastD 0 →
      ∃! i, i + 1 < Tlim.length ∧ crange Tlim T i) ∧
    (T < Tlim.headD 0 ∨ Tlim.getLastD 0 < T →
      ∀ i, i + 1 < Tlim.length → ¬ crange Tlim T i) ∧
    (∀ i lo hi, Tlim[i]? = some lo → Tlim[i + 1]? = some hi → crange Tlim T i →
      lo ≤ T ∧ T ≤ hi) := by
  have h0 : Tlim.headD 0 = lim Tlim 0 := by
    cases Tlim with
    | nil => simp at hlen
    | cons a l => simp [lim]
  have hl : Tlim.getLastD 0 = lim Tlim (Tlim.length - 1) := by
    rw [lim_eq (by omega)]
    rw [List.getLastD_eq_getLast?, List.getLast?_eq_getElem?]
    rw [List.getElem?_eq_getElem (by omega)]; rfl
  have hup : ∀ i, i + 1 < Tlim.length → crange Tlim T i → lim Tlim i ≤ T ∧ T ≤ lim Tlim (i+1) := by
    intro i hi h
    unfold crange at h
    split at h
    · exact h
    · exact ⟨h.1, h.2.le⟩
  refine ⟨fun hlo hhi => ?_, fun hout i hi hc => ?_, fun i lo hi h1 h2 hc => ?_⟩
  · -- existence: the greatest index with limit below T
    classical
    let P : Nat → Prop := fun i => lim Tlim i ≤ T
    have hP0 : P 0 := by simpa [P, ← h0] using hlo
    let m := Nat.findGreatest P (Tlim.length - 2)
    have hm : P m := Nat.findGreatest_spec (P := P) (Nat.zero_le _) hP0
    have hmle : m ≤ Tlim.length - 2 := Nat.findGreatest_le _
    have hmc : crange Tlim T m := by
      unfold crange
      split
      · rename_i heq
        refine ⟨hm, ?_⟩
        have : m + 1 = Tlim.length - 1 := by omega
        rw [this, ← hl]; exact hhi
      · rename_i hne
        refine ⟨hm, ?_⟩
        by_contra hcon
        have hlt : m < m + 1 := Nat.lt_succ_self m
        have := Nat.findGreatest_is_greatest (P := P) (n := Tlim.length - 2) hlt (by omega)
        exact this (not_lt.mp hcon)
    refine ⟨m, ⟨by omega, hmc⟩, ?_⟩
    rintro j ⟨hj, hjc⟩
    by_contra hne
    rcases Nat.lt_or_gt_of_ne hne with h | h
    · -- j < m : T < lim (j+1) ≤ lim m ≤ T
      have hnl : j + 2 ≠ Tlim.length := by omega
      simp only [crange, if_neg hnl] at hjc
      exact absurd (hjc.2.trans_le (lim_le hs (by omega : j + 1 ≤ m) (by omega)))
        (not_lt.mpr hm)
    · have hnl : m + 2 ≠ Tlim.length := by omega
      simp only [crange, if_neg hnl] at hmc
      exact absurd (hmc.2.trans_le (lim_le hs (by omega : m + 1 ≤ j) (by omega)))
        (not_lt.mpr (hup j hj hjc).1)
  · obtain ⟨hb, hc'⟩ := hup i hi hc
    rcases hout with h | h
    · rw [h0] at h
      exact absurd (h.trans_le (lim_le hs (Nat.zero_le i) (by omega))) (not_lt.mpr hb)
    · rw [hl] at h
      exact absurd ((lim_le hs (by omega : i + 1 ≤ Tlim.length - 1) (by omega)).trans_lt h)
        (not_lt.mpr hc')
  · have hi' : i + 1 < Tlim.length := by
      by_contra hcon
      rw [List.getElem?_eq_none (by omega)] at h2
      exact absurd h2 (by simp)
    obtain ⟨hb, hc'⟩ := hup i hi' hc
    rw [List.getElem?_eq_getElem (by omega)] at h1 h2
    rw [lim_eq (by omega)] at hb
    rw [lim_eq (by omega)] at hc'
    simp only [Option.some.injEq] at h1 h2
    rw [← h1, ← h2]; exact ⟨hb, hc'⟩

/-- Limits in the style of the shipped N2 entry. -/
example : ([100, 500, 2000, 6000] : List ℝ).Pairwise (· < ·) ∧
    2 ≤ ([100, 500, 2000, 6000] : List ℝ).length := by
  constructor
  · simp; norm_num
  · simp

open Classical in
theorem foldl_unique {β : Type} (P : Nat → Prop) (f : Nat → Option β) (i : Nat) (l : List Nat)
    (hu : ∀ j ∈ l, P j → j = i) (init : Option β) :
    l.foldl (fun out j => if P j then f j else out) init
      = if (∃ j ∈ l, P j) then f i else init := by
  induction l generalizing init with
  | nil => simp
  | cons a l ih =>
    simp only [List.foldl_cons]
    rw [ih (fun j hj => hu j (List.mem_cons_of_mem _ hj))]
    by_cases h1 : ∃ j ∈ l, P j
    · rw [if_pos h1, if_pos (by obtain ⟨j, hj, hp⟩ := h1; exact ⟨j, List.mem_cons_of_mem _ hj, hp⟩)]
    · rw [if_neg h1]
      by_cases h2 : P a
      · rw [if_pos h2, if_pos ⟨a, List.mem_cons_self, h2⟩, hu a List.mem_cons_self h2]
      · rw [if_neg h2, if_neg]
        rintro ⟨j, hj, hp⟩
        rcases List.mem_cons.mp hj with rfl | hj
        · exact h2 hp
        · exact h1 ⟨j, hj, hp⟩

/-- The piecewise evaluation with the piece known. -/
theorem piecewise_of {α : Type} (D : Data) (hw : WellFormed D) (f : Coef → ℝ → α) (T : ℝ)
    (i : Nat) (hi : i + 1 < D.Tlim.length) (hc : crange D.Tlim T i) (c : Coef)
    (hC : D.C[i]? = some c) : piecewise D.Tlim D.C f T = some (f c T) := by
  have hlen : 2 ≤ D.Tlim.length := by omega
  have hP := C33_partition D.Tlim hw.ascending hlen T
  have hin : D.Tlim.headD 0 ≤ T ∧ T ≤ D.Tlim.getLastD 0 := by
    by_contra hcon
    have : T < D.Tlim.headD 0 ∨ D.Tlim.getLastD 0 < T := by
      rcases not_and_or.mp hcon with h | h
      · exact Or.inl (not_le.mp h)
      · exact Or.inr (not_le.mp h)
    exact hP.2.1 this i hi hc
  obtain ⟨m, -, hm⟩ := hP.1 hin.1 hin.2
  have hu : ∀ j ∈ List.range (D.Tlim.length - 1), crange D.Tlim T j → j = i := by
    intro j hj hcj
    rw [List.mem_range] at hj
    rw [hm j ⟨by omega, hcj⟩, hm i ⟨hi, hc⟩]
  unfold piecewise
  rw [foldl_unique (crange D.Tlim T) (fun i => (D.C[i]?).map (fun c => f c T)) i _ hu,
    if_pos ⟨i, List.mem_range.mpr (by omega), hc⟩, hC]
  rfl

/-- C33, evaluation: a temperature between the outermost limits is evaluated with the coefficient
row of a piece whose limits enclose it - the same row for every property - and a temperature
outside gives the out-of-bounds marker. -/
theorem C33_evaluation (D : Data) (hw : WellFormed D) (T : ℝ) :
    (D.Tlim.headD 0 ≤ T → T ≤ D.Tlim.getLastD 0 →
      ∃ (i : Nat) (lo hi : ℝ) (c : Coef), D.Tlim[i]? = some lo ∧ D.Tlim[i + 1]? = some hi ∧ lo ≤ T ∧ T ≤ hi ∧
        D.C[i]? = some c ∧ ∀ (α : Type) (f : Coef → ℝ → α), piecewise D.Tlim D.C f T = some (f c T)) ∧
    (T < D.Tlim.headD 0 ∨ D.Tlim.getLastD 0 < T →
      ∀ (α : Type) (f : Coef → ℝ → α), piecewise D.Tlim D.C f T = none) := by
  have hlen : 2 ≤ D.Tlim.length := by
    rw [hw.rows]
    have := List.length_pos_of_ne_nil hw.nonempty
    omega
  have hP := C33_partition D.Tlim hw.ascending hlen T
  refine ⟨fun h1 h2 => ?_, fun hout α f => ?_⟩
  · obtain ⟨i, ⟨hi, hc⟩, -⟩ := hP.1 h1 h2
    have hci : i < D.C.length := by have := hw.rows; omega
    have ha : D.Tlim[i]? = some (D.Tlim[i]'(by omega)) := List.getElem?_eq_getElem _
    have hb : D.Tlim[i+1]? = some (D.Tlim[i+1]'(by omega)) := List.getElem?_eq_getElem _
    have := hP.2.2 i _ _ ha hb hc
    exact ⟨i, _, _, D.C[i], ha, hb, this.1, this.2, List.getElem?_eq_getElem hci,
      fun α f => piecewise_of D hw f T i hi hc _ (List.getElem?_eq_getElem hci)⟩
  · have hno := hP.2.1 hout
    unfold piecewise
    rw [foldl_unique (crange D.Tlim T) (fun i => (D.C[i]?).map (fun c => f c T)) 0 _
      (fun j hj hc => absurd hc (hno j (by rw [List.mem_range] at hj; omega))), if_neg]
    rintro ⟨j, hj, hc⟩
    exact hno j (by rw [List.mem_range] at hj; omega) hc

/-- A two-piece entry. -/
def exampleData : Data where
  Tlim := [100, 500, 2000]
  C := [⟨28.98641, 1.853978, -9.647459, 16.63537, 0.000117, -8.671914, 226.4168⟩,
        ⟨19.50583, 19.88705, -8.598535, 1.369784, 0.527601, -4.935202, 212.39⟩]
  mw := 28.01348
  pref := 1e5

theorem exampleData_wf : WellFormed exampleData := by
  constructor
  · simp [exampleData]; norm_num
  · simp [exampleData]
  · simp [exampleData]
  · simp [exampleData]
  · norm_num [exampleData]
  · norm_num [exampleData]

/-! ## Shomate derivatives -/

theorem hasDeriv_t (T : ℝ) : HasDerivAt (fun x : ℝ => x / 1000) (1 / 1000) T :=
  (hasDerivAt_id T).div_const 1000

theorem sho_h_deriv (C : Coef) {T : ℝ} (hT : T ≠ 0) : HasDerivAt (Sho.h C) (Sho.cp C T) T := by
  have ht := hasDeriv_t T
  have hne : T / 1000 ≠ 0 := by positivity
  have h3 := (((ht.mul_const C.c3).div_const 4).const_add (C.c2 / 3))
  have h2 := ((ht.mul h3).const_add (C.c1 / 2))
  have h1 := ((ht.mul h2).const_add C.c0)
  have h0 := (((ht.mul h1).const_add C.c5).sub ((hasDerivAt_const T C.c4).div ht hne)).mul_const 1000
  refine h0.congr_deriv ?_
  simp only [Sho.cp, Pi.mul_apply]
  field_simp
  ring

theorem sho_s_deriv (C : Coef) {T : ℝ} (hT : T ≠ 0) : HasDerivAt (Sho.s C) (Sho.cp C T / T) T := by
  have ht := hasDeriv_t T
  have hne : T / 1000 ≠ 0 := by positivity
  have h3 := (((ht.mul_const C.c3).div_const 3).const_add (C.c2 / 2))
  have h2 := ((ht.mul h3).const_add C.c1)
  have hl := ((ht.log hne).const_mul C.c0).const_add C.c6
  have hd : (2 * (T / 1000) * (T / 1000)) ≠ 0 := by positivity
  have hq := ((hasDerivAt_const T C.c4).div ((ht.const_mul 2).mul ht) hd)
  refine ((hl.add (ht.mul h2)).sub hq).congr_deriv ?_
  simp only [Sho.cp, Pi.mul_apply]
  field_simp
  ring

theorem sho_sT (C : Coef) {T : ℝ} (hT : T ≠ 0) : Sho.sT C T = Sho.cp C T / T := by
  simp only [Sho.sT, Sho.cp]
  field_simp
  ring

theorem sho_g (C : Coef) {T : ℝ} (hT : T ≠ 0) : Sho.g C T = Sho.h C T - T * Sho.s C T := by
  simp only [Sho.g, Sho.h, Sho.s]
  field_simp
  ring

theorem sho_gT (C : Coef) {T : ℝ} (hT : T ≠ 0) : Sho.gT C T = - Sho.s C T := by
  simp only [Sho.gT, Sho.s]
  field_simp
  ring

/-! ## NASA polynomial derivatives -/

theorem nasa_cp_eq (C : Coef) (T : ℝ) :
    Nasa.cp C T = Ru * (C.c0 + C.c1 * T + C.c2 * T ^ 2 + C.c3 * T ^ 3 + C.c4 * T ^ 4) := by
  simp only [Nasa.cp, List.foldl, Coef.at]; ring

theorem nasa_h_eq (C : Coef) (T : ℝ) :
    Nasa.h C T = Ru * (C.c5 + C.c0 * T + C.c1 / 2 * T ^ 2 + C.c2 / 3 * T ^ 3 + C.c3 / 4 * T ^ 4
      + C.c4 / 5 * T ^ 5) := by
  simp only [Nasa.h, Nasa.hLoop, Nasa.hStep, List.foldl, Coef.at]; ring

theorem nasa_hT_eq (C : Coef) (T : ℝ) : Nasa.hT C T = Nasa.cp C T := by
  rw [nasa_cp_eq]
  simp only [Nasa.hT, Nasa.hLoop, Nasa.hStep, List.foldl, Coef.at]; ring

theorem nasa_s_eq (C : Coef) (T : ℝ) :
    Nasa.s C T = Ru * (C.c6 + C.c0 * Real.log T + C.c1 * T + C.c2 / 2 * T ^ 2 + C.c3 / 3 * T ^ 3
      + C.c4 / 4 * T ^ 4) := by
  simp only [Nasa.s, Nasa.sLoop, Nasa.sStep, List.foldl, Coef.at]; ring

theorem nasa_sT_eq (C : Coef) {T : ℝ} (hT : T ≠ 0) : Nasa.sT C T = Nasa.cp C T / T := by
  rw [nasa_cp_eq]
  simp only [Nasa.sT, Nasa.sLoop, Nasa.sStep, List.foldl, Coef.at]
  field_simp
  ring

theorem nasa_h_deriv (C : Coef) (T : ℝ) : HasDerivAt (Nasa.h C) (Nasa.cp C T) T := by
  have hfun : Nasa.h C = fun T => Ru * (C.c5 + C.c0 * T + C.c1 / 2 * T ^ 2 + C.c2 / 3 * T ^ 3
      + C.c3 / 4 * T ^ 4 + C.c4 / 5 * T ^ 5) := funext (nasa_h_eq C)
  rw [hfun, nasa_cp_eq]
  have hi := hasDerivAt_id' T
  refine ((((((hi.const_mul C.c0).const_add C.c5).add ((hi.pow 2).const_mul (C.c1 / 2))).add
    ((hi.pow 3).const_mul (C.c2 / 3))).add ((hi.pow 4).const_mul (C.c3 / 4))).add
    ((hi.pow 5).const_mul (C.c4 / 5))).const_mul Ru |>.congr_deriv ?_
  push_cast
  ring

theorem nasa_s_deriv (C : Coef) {T : ℝ} (hT : T ≠ 0) :
    HasDerivAt (Nasa.s C) (Nasa.cp C T / T) T := by
  have hfun : Nasa.s C = fun T => Ru * (C.c6 + C.c0 * Real.log T + C.c1 * T + C.c2 / 2 * T ^ 2
      + C.c3 / 3 * T ^ 3 + C.c4 / 4 * T ^ 4) := funext (nasa_s_eq C)
  rw [hfun, nasa_cp_eq]
  have hi := hasDerivAt_id' T
  refine ((((((Real.hasDerivAt_log hT).const_mul C.c0).const_add C.c6).add
    (hi.const_mul C.c1)).add ((hi.pow 2).const_mul (C.c2 / 2))).add
    ((hi.pow 3).const_mul (C.c3 / 3))).add ((hi.pow 4).const_mul (C.c4 / 4)) |>.const_mul Ru
    |>.congr_deriv ?_
  push_cast
  field_simp

theorem nasa_g (C : Coef) (T : ℝ) : Nasa.g C T = Nasa.h C T - T * Nasa.s C T := by
  rw [nasa_h_eq, nasa_s_eq]
  simp only [Nasa.g]
  ring

theorem nasa_gT (C : Coef) (T : ℝ) : Nasa.gT C T = - Nasa.s C T := by
  rw [nasa_s_eq]
  simp only [Nasa.gT]
  ring

/-! ## Both classes, inside a piece -/

theorem pos_of_inside {D : Data} (hw : WellFormed D) {T : ℝ} (h : InsidePiece D T) : 0 < T := by
  obtain ⟨i, lo, hi, h1, -, h3, -⟩ := h
  exact (hw.pos lo (List.mem_of_getElem? h1)).trans h3

/-- Near a point inside a piece the same coefficient row is used. -/
theorem eventually_row {D : Data} (hw : WellFormed D) {T : ℝ} (h : InsidePiece D T) :
    ∃ c ∈ D.C, ∀ᶠ x in 𝓝 T, 0 < x ∧ ∀ (α : Type) (f : Coef → ℝ → α),
      piecewise D.Tlim D.C f x = some (f c x) := by
  have hpos := pos_of_inside hw h
  obtain ⟨i, lo, hi, h1, h2, h3, h4⟩ := h
  have hi2 : i + 1 < D.Tlim.length := by
    by_contra hcon
    rw [List.getElem?_eq_none (by omega)] at h2
    exact absurd h2 (by simp)
  have hci : i < D.C.length := by have := hw.rows; omega
  refine ⟨D.C[i], List.getElem_mem hci, ?_⟩
  filter_upwards [Ioo_mem_nhds h3 h4, lt_mem_nhds hpos] with x hx hx0
  refine ⟨hx0, fun α f => piecewise_of D hw f x i hi2 ?_ _ (List.getElem?_eq_getElem hci)⟩
  have e1 : lim D.Tlim i = lo := by simp [lim, h1]
  have e2 : lim D.Tlim (i + 1) = hi := by simp [lim, h2]
  unfold crange
  rw [e1, e2]
  split
  · exact ⟨hx.1.le, hx.2.le⟩
  · exact ⟨hx.1.le, hx.2⟩

theorem smooth_ig (D : Data) (hw : WellFormed D) (T : ℝ) (h : InsidePiece D T) :
    Smooth (ig D) T := by
  obtain ⟨c, -, hc⟩ := eventually_row hw h
  have hT := (pos_of_inside hw h).ne'
  refine ⟨Sho.h c, Sho.s c, Sho.cp c, ?_, sho_h_deriv c hT, sho_s_deriv c hT⟩
  filter_upwards [hc] with x hx
  have hx0 : x ≠ 0 := hx.1.ne'
  refine ⟨?_, ?_, ?_, ?_⟩
  · simp [ig, hx.2, Sho.hT, Sho.cp]
  · simp [ig, hx.2]
  · simp [ig, hx.2, sho_sT c hx0]
  · simp [ig, hx.2, sho_g c hx0]

theorem smooth_ig2 (D : Data) (hw : WellFormed D) (T : ℝ) (h : InsidePiece D T) :
    Smooth (ig2 D) T := by
  obtain ⟨c, -, hc⟩ := eventually_row hw h
  have hT := (pos_of_inside hw h).ne'
  refine ⟨Nasa.h c, Nasa.s c, Nasa.cp c, ?_, nasa_h_deriv c T, nasa_s_deriv c hT⟩
  filter_upwards [hc] with x hx
  have hx0 : x ≠ 0 := hx.1.ne'
  refine ⟨?_, ?_, ?_, ?_⟩
  · simp [ig2, hx.2, nasa_hT_eq]
  · simp [ig2, hx.2]
  · simp [ig2, hx.2, nasa_sT_eq c hx0]
  · simp [ig2, hx.2, nasa_g c]

example : InsidePiece exampleData 300 :=
  ⟨0, 100, 500, rfl, rfl, by norm_num, by norm_num⟩

end PyroMat.Gas.Props
