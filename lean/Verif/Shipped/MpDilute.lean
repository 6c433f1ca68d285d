import Verif.Mp.DiluteCv
import Verif.Shipped.MpFluid

/-!
# The Helmholtz data of the shipped multi-phase substances at vanishing density
-/

set_option linter.unusedSimpArgs false

namespace PyroMat.Shipped

open PyroMat PyroMat.Gas PyroMat.Mp PyroMat.Mp.Spec PyroMat.Mp.Props PyroMat.Shipped.Data Filter Topology

/-- Every term with a coefficient has a positive power of the density. -/
def dilute2 (g : G2) : Bool :=
  decide (g.prey.e ≤ 20) && decide (g.posty.e ≤ 20) &&
    g.terms.all fun t => decide (t.2.2.m = 0) || decide (0 < sc20 g.prey * (t.2.1 : Int) + sc20 g.posty)

/-- What the limit needs. -/
def okDilute (f : MpFile) : Bool :=
  f.ar.coef0.all (fun gs => gs.all dilute2) && f.ar.coef1.all (fun r => decide (0 ≤ (cof r 1).m)) &&
    f.ar.coef2.all (fun r => decide ((cof r 4).e ≤ 20) && decide (10 ^ 14 < sc20 (cof r 4)))

theorem dilute_ok : shippedMp.all okDilute = true := by decide +kernel

theorem diluteData {f : MpFile} (hf : f ∈ shippedMp) : DiluteData f.ar.group := by
  have h := List.all_eq_true.mp dilute_ok f hf
  simp only [okDilute, Bool.and_eq_true] at h
  obtain ⟨⟨h1, h2⟩, h3⟩ := h
  refine ⟨?_, ?_, ?_⟩
  · intro gs hgs q hq
    simp only [ArFile.group, List.mem_map] at hgs
    obtain ⟨gs, hgs, rfl⟩ := hgs
    obtain ⟨g, hg, rfl⟩ := List.mem_map.mp hq
    have := List.all_eq_true.mp (List.all_eq_true.mp h1 gs hgs) g hg
    simp only [dilute2, Bool.and_eq_true, decide_eq_true_eq] at this
    obtain ⟨⟨e1, e2⟩, h⟩ := this
    intro t ht
    obtain ⟨u, hu, rfl⟩ := List.mem_map.mp ht
    have := List.all_eq_true.mp h u hu
    simp only [Bool.or_eq_true, decide_eq_true_eq] at this
    refine this.imp (fun h0 => ?_) fun h0 => ?_
    · simp [Dec.val, h0]
    · show 0 < g.prey.val * (u.2.1 : ℝ) + g.posty.val
      rw [sc20_val e1, sc20_val e2]
      have : (0 : ℝ) < sc20 g.prey * (u.2.1 : ℝ) + sc20 g.posty := by exact_mod_cast h0
      have e : (sc20 g.prey : ℝ) / 10 ^ 20 * (u.2.1 : ℝ) + sc20 g.posty / 10 ^ 20
          = (sc20 g.prey * (u.2.1 : ℝ) + sc20 g.posty) / 10 ^ 20 := by ring
      rw [e]
      positivity
  · intro r hr
    simp only [ArFile.group, List.mem_map] at hr
    obtain ⟨q, hq, rfl⟩ := hr
    have := List.all_eq_true.mp h2 q hq
    simp only [decide_eq_true_eq] at this
    exact div_nonneg (by exact_mod_cast this) (by positivity)
  · intro r hr
    simp only [ArFile.group, List.mem_map] at hr
    obtain ⟨q, hq, rfl⟩ := hr
    have := List.all_eq_true.mp h3 q hq
    simp only [Bool.and_eq_true, decide_eq_true_eq] at this
    show _ < (cof q 4).val
    rw [sc20_val this.1, lt_div_iff₀ (by positivity)]
    have h : (10 ^ 14 : ℝ) < sc20 (cof q 4) := by exact_mod_cast this.2
    refine lt_of_le_of_lt ?_ h
    norm_num

theorem diluteFluid {f : MpFile} (hf : f ∈ shippedMp) :
    DiluteFluid f.R.val f.ao.Tscale.val f.ao.dscale.val f.ar.dscale.val f.ao.group f.ar.group :=
  let h := fluidOk hf
  ⟨h.R, h.To, h.dso, h.dsr, h.ao0, h.ao1, h.ar, diluteData hf⟩

/-! ## The heat capacity at vanishing density -/

/-- Coefficients of Einstein terms are not negative, and only methane has Gaussian terms without a power of the
density. -/
theorem capData_ok : shippedMp.all (fun f => f.ao.coef1.all (fun r => decide (0 ≤ r.2.m)) &&
    (decide (f.id = "mp.CH4") || f.ar.coef1.all fun r => decide ((cof r 1).m ≠ 0))) = true := by decide +kernel

theorem ar0_zero (g : ARgroup) (h : ∀ r ∈ g.coef1, r.d ≠ 0) (x : ℝ) : (ar0 g x).pxx = 0 := by
  unfold ar0
  revert h
  induction g.coef1 with
  | nil => intro _; rfl
  | cons r l ih =>
    intro h
    have e := ih fun q hq => h q (by simp [hq])
    rw [List.map_cons, List.foldr_cons, P3.add]
    dsimp only
    rw [e, gauss0, if_neg (h r (by simp)), add_zero]

theorem val_ne {d : Dec} (h : d.m ≠ 0) : d.val ≠ 0 := div_ne_zero (by exact_mod_cast h) (by positivity)

theorem cap_poly {f : MpFile} (hf : f ∈ shippedMp) {x : ℝ} (hx : 0 < x) :
    f.ao.group.logt.getD 0 - f.ao.group.tlogt.getD 0 * x
        + ((f.ao.group.coef0.getD []).map fun q => (q.terms.map (capTerm q x)).sum).sum
      ≤ -(x * x * (phiF f.ao.group x).pxx) := by
  have h := List.all_eq_true.mp capData_ok f hf
  simp only [Bool.and_eq_true] at h
  have k := fluidOk hf
  refine phiF_cap _ k.ao0 k.ao1 (fun r hr => ?_) hx
  simp only [AoFile.group, List.mem_map] at hr
  obtain ⟨q, hq, rfl⟩ := hr
  have := List.all_eq_true.mp h.1 q hq
  simp only [decide_eq_true_eq] at this
  exact div_nonneg (by exact_mod_cast this) (by positivity)

theorem cap_ar {f : MpFile} (hf : f ∈ shippedMp) (h4 : f.id ≠ "mp.CH4") (x : ℝ) : (ar0 f.ar.group x).pxx = 0 := by
  have h := List.all_eq_true.mp capData_ok f hf
  simp only [Bool.and_eq_true, Bool.or_eq_true, decide_eq_true_eq] at h
  refine ar0_zero _ (fun r hr => ?_) x
  simp only [ArFile.group, List.mem_map] at hr
  obtain ⟨q, hq, rfl⟩ := hr
  have := List.all_eq_true.mp (h.2.resolve_left h4) q hq
  simp only [decide_eq_true_eq] at this
  exact val_ne this

theorem n_val (m e : Nat) : (Dec.n m e).val = -(m : ℝ) / 10 ^ e := by
  show ((-(m : Int) : Int) : ℝ) / 10 ^ e = _
  push_cast
  rfl

theorem p_val (m e : Nat) : (Dec.p m e).val = (m : ℝ) / 10 ^ e := by
  show (((m : Int) : Int) : ℝ) / 10 ^ e = _
  push_cast
  rfl

theorem cap_C2H2F4 {x : ℝ} (h : 0 < x) (h2 : x ≤ 4) :
    2 ≤ C2H2F4.ao.group.logt.getD 0 - C2H2F4.ao.group.tlogt.getD 0 * x
        + ((C2H2F4.ao.group.coef0.getD []).map fun q => (q.terms.map (capTerm q x)).sum).sum := by
  simp [C2H2F4, AoFile.group, G1.group, capTerm, n_val, p_val]
  norm_num
  have h4 : (4 : ℝ) ^ (-(1 / 2) : ℝ) = 1 / 2 := by
    rw [Real.rpow_neg (by norm_num), ← Real.sqrt_eq_rpow, show (4 : ℝ) = 2 ^ 2 by norm_num, Real.sqrt_sq (by norm_num)]
    norm_num
  have h1 : (1 / 2 : ℝ) ≤ x ^ (-(1 / 2) : ℝ) := by
    have hz : (-(1 / 2) : ℝ) ≤ 0 := by norm_num
    exact h4.symm.le.trans (Real.rpow_le_rpow_of_nonpos h h2 hz)
  have h3 : 0 < x ^ (-(3 / 4) : ℝ) := Real.rpow_pos_of_pos h _
  linarith

theorem cap_N2 {x : ℝ} (h : 1 / 10 ≤ x) :
    2 ≤ N2.ao.group.logt.getD 0 - N2.ao.group.tlogt.getD 0 * x
        + ((N2.ao.group.coef0.getD []).map fun q => (q.terms.map (capTerm q x)).sum).sum := by
  simp [N2, AoFile.group, G1.group, capTerm, n_val, p_val]
  norm_num
  have h0 : 0 < x := by linarith
  have h3 : (x ^ 3)⁻¹ ≤ 1000 := by
    rw [inv_le_comm₀ (by positivity) (by norm_num)]
    calc (1000 : ℝ)⁻¹ = (1 / 10) ^ 3 := by norm_num
      _ ≤ x ^ 3 := by gcongr
  have h1 : 0 < x ^ (-1 : ℝ) := Real.rpow_pos_of_pos h0 _
  have h2' : 0 < (x ^ 2)⁻¹ := by positivity
  linarith

theorem cap_O2 {x : ℝ} (h : 1 / 2 ≤ x) (h2 : x ≤ 3) :
    2 ≤ O2.ao.group.logt.getD 0 - O2.ao.group.tlogt.getD 0 * x
        + ((O2.ao.group.coef0.getD []).map fun q => (q.terms.map (capTerm q x)).sum).sum := by
  simp [O2, AoFile.group, G1.group, capTerm, n_val, p_val]
  norm_num
  have h0 : 0 < x := by linarith
  have h3 : x ^ 3 ≤ 27 := by
    calc x ^ 3 ≤ 3 ^ 3 := by gcongr
      _ = 27 := by norm_num
  have h1 : x ^ (-1 : ℝ) ≤ 2 := by
    rw [Real.rpow_neg_one, inv_le_comm₀ h0 (by norm_num)]
    linarith
  have h4 : 0 < (x ^ 2)⁻¹ := by positivity
  have h5 : 0 < (x ^ 3)⁻¹ := by positivity
  have h6 : 0 < x ^ 2 := by positivity
  linarith

theorem cap_CO2 {x : ℝ} :
    2 ≤ CO2.ao.group.logt.getD 0 - CO2.ao.group.tlogt.getD 0 * x
        + ((CO2.ao.group.coef0.getD []).map fun q => (q.terms.map (capTerm q x)).sum).sum := by
  simp [CO2, AoFile.group, G1.group, capTerm, Dec.val, Dec.p]
  norm_num

theorem cap_H2O {x : ℝ} :
    2 ≤ H2O.ao.group.logt.getD 0 - H2O.ao.group.tlogt.getD 0 * x
        + ((H2O.ao.group.coef0.getD []).map fun q => (q.terms.map (capTerm q x)).sum).sum := by
  simp [H2O, AoFile.group, G1.group, capTerm, Dec.val, Dec.p]
  norm_num

theorem cap_CH4 {x : ℝ} :
    3 ≤ CH4.ao.group.logt.getD 0 - CH4.ao.group.tlogt.getD 0 * x
        + ((CH4.ao.group.coef0.getD []).map fun q => (q.terms.map (capTerm q x)).sum).sum := by
  simp [CH4, AoFile.group, G1.group, capTerm, Dec.val, Dec.p]
  norm_num

theorem cap_C3H2F41 {x : ℝ} :
    2 ≤ C3H2F41.ao.group.logt.getD 0 - C3H2F41.ao.group.tlogt.getD 0 * x
        + ((C3H2F41.ao.group.coef0.getD []).map fun q => (q.terms.map (capTerm q x)).sum).sum := by
  simp [C3H2F41, AoFile.group, G1.group, capTerm, Dec.val, Dec.p]
  norm_num

/-- The Gaussian terms of methane without a power of the density. -/
def gaussRow (r : List Dec) : Bool :=
  decide ((cof r 1).m ≠ 0) ||
    (decide ((cof r 0).e = 0) && decide (0 ≤ (cof r 0).m) && decide ((cof r 0).m ≤ 2) &&
      decide ((cof r 2).e = 0) && decide ((cof r 2).m = 250) && decide ((cof r 3).e = 0) && decide ((cof r 3).m = 40) &&
      decide ((cof r 4).e = 2) && decide ((cof r 4).m = 111) && decide ((cof r 5).e = 0) && decide ((cof r 5).m = 1) &&
      decide ((cof r 6).e = 9 ∨ (cof r 6).e = 8) && decide (|(cof r 6).m| ≤ 10000000000))

theorem gaussRows_ok : CH4.ar.coef1.all gaussRow = true ∧ CH4.ar.coef1.length ≤ 40 := by decide +kernel

theorem exp_neg_forty : Real.exp (-40) ≤ 1 / 10 ^ 12 := by
  rw [Real.exp_neg, ← one_div]
  refine one_div_le_one_div_of_le (by norm_num) ?_
  have h : (2 : ℝ) ^ 40 ≤ Real.exp 1 ^ 40 := pow_le_pow_left₀ (by norm_num) (by linarith [Real.add_one_lt_exp (x := 1) (by norm_num)]) 40
  rw [← Real.exp_nat_mul] at h
  norm_num at h ⊢
  linarith

theorem gaussRow_cap {r : List Dec} (hr : gaussRow r = true) {x : ℝ} (h : 0 < x) (h2 : x ≤ 3) :
    -(1 / 40) ≤ -(x * x * (gauss0 (row1 r) x).pxx) := by
  by_cases h0 : (row1 r).d = 0
  · have hm : (cof r 1).m = 0 := by
      by_contra hm
      exact val_ne hm h0
    simp only [gaussRow, hm, ne_eq, not_true_eq_false, decide_false, Bool.false_or, Bool.and_eq_true, decide_eq_true_eq] at hr
    obtain ⟨⟨⟨⟨⟨⟨⟨⟨⟨⟨⟨⟨a1, a2⟩, a3⟩, a4⟩, a5⟩, a6⟩, a7⟩, a8⟩, a9⟩, a10⟩, a11⟩, a12⟩, a13⟩ := hr
    obtain ⟨k, hk⟩ := Int.eq_ofNat_of_zero_le a2
    have e0 : (row1 r).t = (k : ℝ) := by simp [row1, Dec.val, a1, hk]
    have eb : (row1 r).b = 250 := by simp [row1, Dec.val, a4, a5]
    have ea : (row1 r).a = 40 := by simp [row1, Dec.val, a6, a7]
    have eg : (row1 r).gam = 111 / 100 := by simp [row1, Dec.val, a8, a9]; norm_num
    have ee : (row1 r).ep = 1 := by simp [row1, Dec.val, a10, a11]
    have ec : |(row1 r).c| ≤ 100 := by
      have h13 : |((cof r 6).m : ℝ)| ≤ 10000000000 := by exact_mod_cast a13
      show |((cof r 6).m : ℝ) / 10 ^ (cof r 6).e| ≤ 100
      rw [abs_div, div_le_iff₀ (by positivity)]
      rcases a12 with e | e <;> rw [e] <;> norm_num <;> linarith
    have := gauss0_cap (row1 r) k e0 (by omega) (by rw [ea]; norm_num) (by rw [eb]; norm_num) h h2
      (by rw [eg, abs_le]; constructor <;> linarith)
    refine le_trans ?_ this
    rw [ea, eb, ee, neg_le_neg_iff]
    have hE := exp_neg_forty
    rw [show (-(40 * 1 ^ 2) : ℝ) = -40 by norm_num]
    calc Real.exp (-40) * (|(row1 r).c| * (3000 * (1 + 250) ^ 2)) ≤ 1 / 10 ^ 12 * (100 * (3000 * (1 + 250) ^ 2)) := by gcongr
      _ ≤ 1 / 40 := by norm_num
  · rw [gauss0, if_neg h0]
    norm_num

theorem cap_gauss {x : ℝ} (h : 0 < x) (h2 : x ≤ 3) : -1 ≤ -(x * x * (ar0 CH4.ar.group x).pxx) := by
  obtain ⟨h1, hl⟩ := gaussRows_ok
  have key : ∀ l : List (List Dec), l.all gaussRow = true →
      -(1 / 40 * (l.length : ℝ)) ≤ -(x * x * (((l.map row1).map fun r => gauss0 r x).foldr P3.add ⟨0, 0, 0⟩).pxx) := by
    intro l hl
    induction l with
    | nil => simp
    | cons r l ih =>
      rw [List.all_cons, Bool.and_eq_true] at hl
      have a := gaussRow_cap hl.1 h h2
      have b := ih hl.2
      simp only [List.map_cons, List.foldr_cons, P3.add, List.length_cons]
      push_cast
      linarith
  have := key _ h1
  refine le_trans ?_ this
  have : (CH4.ar.coef1.length : ℝ) ≤ 40 := by exact_mod_cast hl
  linarith

/-- At every temperature within the limits, the heat capacity at constant volume of a shipped substance at
vanishing density is at least twice the gas constant. -/
theorem cap_shipped {f : MpFile} (hf : f ∈ shippedMp) {T : ℝ} (hlo : f.Tlim.1.val ≤ T) (hhi : T ≤ f.Tlim.2.val) :
    2 ≤ -(f.ao.Tscale.val / T * (f.ao.Tscale.val / T) * (idealF f.ao.group f.ar.group (f.ao.Tscale.val / T)).pxx) := by
  have h0 : 0 < T := (facts hf).Tlo.trans_le hlo
  have hx : 0 < f.ao.Tscale.val / T := div_pos (fluidOk hf).To h0
  set x := f.ao.Tscale.val / T with ex
  have e : -(x * x * (idealF f.ao.group f.ar.group x).pxx)
      = -(x * x * (phiF f.ao.group x).pxx) + -(x * x * (ar0 f.ar.group x).pxx) := by
    simp only [idealF, P3.add]; ring
  rw [e]
  have hp := cap_poly hf hx
  by_cases h4 : f.id = "mp.CH4"
  · have : f = CH4 := by
      simp only [shippedMp, List.mem_cons, List.not_mem_nil, or_false] at hf
      rcases hf with rfl | rfl | rfl | rfl | rfl | rfl | rfl <;> first | rfl | exact absurd h4 (by decide)
    subst this
    have b := cap_gauss hx (by
      rw [ex, div_le_iff₀ h0]
      norm_num [CH4, Dec.val, Dec.p] at hlo ⊢
      linarith)
    have a := cap_CH4 (x := x)
    linarith
  · rw [cap_ar hf h4, mul_zero, neg_zero, add_zero]
    refine le_trans ?_ hp
    simp only [shippedMp, List.mem_cons, List.not_mem_nil, or_false] at hf
    rcases hf with rfl | rfl | rfl | rfl | rfl | rfl | rfl
    · refine cap_C2H2F4 hx ?_
      rw [ex, div_le_iff₀ h0]
      norm_num [C2H2F4, Dec.val, Dec.p] at hlo ⊢
      linarith
    · exact cap_C3H2F41
    · exact absurd rfl h4
    · exact cap_CO2
    · exact cap_H2O
    · refine cap_N2 ?_
      rw [ex, le_div_iff₀ h0]
      norm_num [N2, Dec.val, Dec.p] at hhi ⊢
      linarith
    · refine cap_O2 ?_ ?_
      · rw [ex, le_div_iff₀ h0]
        norm_num [O2, Dec.val, Dec.p] at hhi ⊢
        linarith
      · rw [ex, div_le_iff₀ h0]
        norm_num [O2, Dec.val, Dec.p] at hlo ⊢
        linarith

end PyroMat.Shipped
