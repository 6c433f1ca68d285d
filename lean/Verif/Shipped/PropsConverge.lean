import Verif.Gas.PropsSettle
import Verif.Shipped.Newton
import Verif.Shipped.PropsRound
import Verif.Shipped.SpecConverge

/-!
# C107: when temperatures are found from enthalpies and internal energies
-/

set_option linter.unusedSimpArgs false

namespace PyroMat.Shipped.Props

open PyroMat PyroMat.Units PyroMat.Units.Spec PyroMat.Units.Props PyroMat.Gas PyroMat.Gas.Spec
  PyroMat.Gas.Props PyroMat.Shipped PyroMat.Shipped.Spec PyroMat.Shipped.Data

theorem both_spec (fs : List File) (bs : List (Nat × Nat)) (h : checkAll fs bs = true) (h' : checkFs fs bs = true) :
    ∀ f ∈ fs, ∃ b, check f b = true ∧ checkF f b = true := by
  induction fs generalizing bs with
  | nil => simp
  | cons g gs ih =>
    cases bs with
    | nil => simp [checkAll] at h
    | cons b bs =>
      simp only [checkAll, checkFs, Bool.and_eq_true] at h h'
      intro f hf
      rcases List.mem_cons.mp hf with rfl | hf
      · exact ⟨b, h.1, h'.1⟩
      · exact ih bs h.2 h'.2 f hf

/-- Every file passes both checks, with the same bounds. -/
theorem shipped_flat : ∀ f ∈ shipped, ∃ b, check f b = true ∧ checkF f b = true := by
  intro f hf
  simp only [shipped, List.mem_flatten, List.mem_cons, List.not_mem_nil, or_false] at hf
  obtain ⟨l, hl, hf⟩ := hf
  rcases hl with rfl | rfl | rfl | rfl | rfl | rfl | rfl | rfl | rfl | rfl | rfl | rfl | rfl | rfl | rfl | rfl | rfl | rfl | rfl | rfl | rfl | rfl | rfl | rfl | rfl | rfl | rfl | rfl | rfl | rfl | rfl | rfl | rfl | rfl | rfl | rfl | rfl | rfl | rfl | rfl | rfl | rfl | rfl | rfl | rfl | rfl | rfl | rfl | rfl | rfl | rfl | rfl | rfl | rfl | rfl | rfl | rfl | rfl | rfl | rfl | rfl | rfl
  · exact both_spec _ _ checked1 flat1 f hf
  · exact both_spec _ _ checked2 flat2 f hf
  · exact both_spec _ _ checked3 flat3 f hf
  · exact both_spec _ _ checked4 flat4 f hf
  · exact both_spec _ _ checked5 flat5 f hf
  · exact both_spec _ _ checked6 flat6 f hf
  · exact both_spec _ _ checked7 flat7 f hf
  · exact both_spec _ _ checked8 flat8 f hf
  · exact both_spec _ _ checked9 flat9 f hf
  · exact both_spec _ _ checked10 flat10 f hf
  · exact both_spec _ _ checked11 flat11 f hf
  · exact both_spec _ _ checked12 flat12 f hf
  · exact both_spec _ _ checked13 flat13 f hf
  · exact both_spec _ _ checked14 flat14 f hf
  · exact both_spec _ _ checked15 flat15 f hf
  · exact both_spec _ _ checked16 flat16 f hf
  · exact both_spec _ _ checked17 flat17 f hf
  · exact both_spec _ _ checked18 flat18 f hf
  · exact both_spec _ _ checked19 flat19 f hf
  · exact both_spec _ _ checked20 flat20 f hf
  · exact both_spec _ _ checked21 flat21 f hf
  · exact both_spec _ _ checked22 flat22 f hf
  · exact both_spec _ _ checked23 flat23 f hf
  · exact both_spec _ _ checked24 flat24 f hf
  · exact both_spec _ _ checked25 flat25 f hf
  · exact both_spec _ _ checked26 flat26 f hf
  · exact both_spec _ _ checked27 flat27 f hf
  · exact both_spec _ _ checked28 flat28 f hf
  · exact both_spec _ _ checked29 flat29 f hf
  · exact both_spec _ _ checked30 flat30 f hf
  · exact both_spec _ _ checked31 flat31 f hf
  · exact both_spec _ _ checked32 flat32 f hf
  · exact both_spec _ _ checked33 flat33 f hf
  · exact both_spec _ _ checked34 flat34 f hf
  · exact both_spec _ _ checked35 flat35 f hf
  · exact both_spec _ _ checked36 flat36 f hf
  · exact both_spec _ _ checked37 flat37 f hf
  · exact both_spec _ _ checked38 flat38 f hf
  · exact both_spec _ _ checked39 flat39 f hf
  · exact both_spec _ _ checked40 flat40 f hf
  · exact both_spec _ _ checked41 flat41 f hf
  · exact both_spec _ _ checked42 flat42 f hf
  · exact both_spec _ _ checked43 flat43 f hf
  · exact both_spec _ _ checked44 flat44 f hf
  · exact both_spec _ _ checked45 flat45 f hf
  · exact both_spec _ _ checked46 flat46 f hf
  · exact both_spec _ _ checked47 flat47 f hf
  · exact both_spec _ _ checked48 flat48 f hf
  · exact both_spec _ _ checked49 flat49 f hf
  · exact both_spec _ _ checked50 flat50 f hf
  · exact both_spec _ _ checked51 flat51 f hf
  · exact both_spec _ _ checked52 flat52 f hf
  · exact both_spec _ _ checked53 flat53 f hf
  · exact both_spec _ _ checked54 flat54 f hf
  · exact both_spec _ _ checked55 flat55 f hf
  · exact both_spec _ _ checked56 flat56 f hf
  · exact both_spec _ _ checked57 flat57 f hf
  · exact both_spec _ _ checked58 flat58 f hf
  · exact both_spec _ _ checked59 flat59 f hf
  · exact both_spec _ _ checked60 flat60 f hf
  · exact both_spec _ _ checked61 flat61 f hf
  · exact both_spec _ _ checked62 flat62 f hf

/-- The inversion of one value settles. -/
theorem settles {f : File} {b : Nat × Nat} (h : check f b = true) (hF : checkF f b = true) (hid : f.id ≠ "ig.Rb") (l μ : ℝ)
    (hl0 : 0 ≤ l) (hl1 : l ≤ Ru) (hμ : 1.33 * Ru ≤ μ)
    (hcp : ∀ T c, f.gas.Tlo ≤ T → T ≤ f.gas.Thi → f.gas.cp T = some c → μ ≤ c - l)
    (hmod : ∀ T T' c c', f.gas.Tlo ≤ T → T ≤ f.gas.Thi → f.gas.Tlo ≤ T' → T' ≤ f.gas.Thi → f.gas.cp T = some c →
      f.gas.cp T' = some c' → 3 * (c - l) ≤ 5 * (c' - l))
    (r y : ℝ) (hr1 : f.gas.Tlo ≤ r) (hr2 : r ≤ f.gas.Thi) (hfar : ∀ t ∈ f.Tlim, 50 ≤ |r - t.val|)
    (hy : (lowered f.gas l r).map (·.1) = some y) (hy0 : 0.001 ≤ |y|) :
    ∃ t, iter1 [(lowered f.gas l, y)] (0.5 * (f.gas.Tlo + f.gas.Thi)) f.gas.Tlo f.gas.Thi = .ok ([some t], false) ∧
      f.gas.Tlo ≤ t ∧ t ≤ f.gas.Thi ∧ μ * |t - r| ≤ 1.34e-6 * |y| := by
  unfold lowered at hy
  cases hh : f.gas.h r with
  | none => simp [hh] at hy
  | some v =>
    obtain ⟨hr, cr⟩ := v
    simp only [hh, Option.map_some, Option.some.injEq] at hy
    have D := draws h hF hid l μ hl0 hl1 hμ hcp hmod r hr cr hr1 hr2 hfar hh
    rw [hy] at D
    have hw := width h hF
    have hR := Shipped.Ru_pos
    have hμ0 : 0 < μ := lt_of_lt_of_le (by positivity) hμ
    obtain ⟨t, h1, h2, h3, h4⟩ := D.settles (by norm_num) (by norm_num) (by norm_num) (by norm_num)
      (by positivity) hy0 (0.5 * (f.gas.Tlo + f.gas.Thi)) (by linarith) (by linarith)
      (by rw [abs_le]; constructor <;> linarith)
    refine ⟨t, h1, h2, h3, ?_⟩
    have := abs_nonneg y
    norm_num at h4 ⊢
    linarith

/-- What the taken values are inside. -/
theorem taken {E : Env} {S : Sys} (hU : Uses E S) {f : File} (hmw : 0 < f.gas.mw) {x t0 : ℝ} {q : Quantity}
    {l : ℝ} (hq : ∀ T p d, value E.a S f.gas q (some T) p d
      = ((lowered f.gas l T).map (·.1)).map (inUnits E.a S f.gas.mw .energy)) (h : Taken E S f q x t0) :
    f.gas.Tlo ≤ toKelvin S.T.name t0 ∧ toKelvin S.T.name t0 ≤ f.gas.Thi ∧
      (lowered f.gas l (toKelvin S.T.name t0)).map (·.1) = some (internal E.a S f.gas.mw .energy x) ∧
      0.001 ≤ |internal E.a S f.gas.mw .energy x| ∧
      |x| = |internal E.a S f.gas.mw .energy x| * inUnits E.a S f.gas.mw .energy 1 := by
  obtain ⟨⟨p0, h0⟩, -, hx⟩ := h
  have hk : Kind.energy ≠ .temperature := by simp
  have hp := energy_pos hU hmw
  have r0 : f.gas.Tlo ≤ toKelvin S.T.name t0 ∧ toKelvin S.T.name t0 ≤ f.gas.Thi := by
    by_contra hc
    have : toKelvin S.T.name t0 < f.gas.Tlo ∨ f.gas.Thi < toKelvin S.T.name t0 := by
      by_contra hc'
      push Not at hc'
      exact hc hc'
    have := (C34_limits E S hU f.gas hmw.ne' q t0 p0).mpr this
    rw [h0] at this
    cases this
  have e : |x| = |internal E.a S f.gas.mw .energy x| * inUnits E.a S f.gas.mw .energy 1 := by
    rw [← abs_of_pos hp, ← abs_mul, inUnits_mul E.a S _ hk, inUnits_internal hU hmw.ne']
  refine ⟨r0.1, r0.2, ?_, ?_, e⟩
  · have hm := method_Tp hU hmw.ne' t0 p0 r0.1 r0.2 q
    rw [h0, hq] at hm
    simp only [Except.ok.injEq, List.cons.injEq, and_true] at hm
    cases hl : (lowered f.gas l (toKelvin S.T.name t0)).map (·.1) with
    | none => simp [hl] at hm
    | some y =>
      rw [hl, Option.map_some, Option.some.injEq] at hm
      rw [hm, internal_inUnits hU hmw.ne']
  · rw [e, ← inUnits_mul E.a S _ hk] at hx
    exact le_of_mul_le_mul_right hx hp

/-- Calls with an enthalpy or an internal energy. -/
theorem converges {f : File} (hf : f ∈ shipped) (hid : f.id ≠ "ig.Rb") {E : Env} {S : Sys} (hU : Uses E S)
    {varg : List (Val ℝ)} {kw : Kw} {a b : String} {va vb : Val ℝ} (ha : a = "h" ∨ a = "e") (h : Supplies varg kw a va b vb)
    (qe qc : Quantity) (l μ : ℝ) (hl0 : 0 ≤ l) (hl1 : l ≤ Ru) (hμ : μ = 2.33 * Ru - l)
    (hqe : ∀ T p d, value E.a S f.gas qe (some T) p d
      = ((lowered f.gas l T).map (·.1)).map (inUnits E.a S f.gas.mw .energy))
    (hqc : ∀ T p d, value E.a S f.gas qc (some T) p d
      = ((f.gas.cp T).map (· - l)).map (inUnits E.a S f.gas.mw .entropy))
    (hT : tempOf f.gas (stdOf E S f.gas.mw [(a, va), (b, vb)]) = (iter1
      (((Val.elems va).map (internal E.a S f.gas.mw .energy)).map (fun y => (lowered f.gas l, y)))
      (0.5 * (f.gas.Tlo + f.gas.Thi)) f.gas.Tlo f.gas.Thi) >>= fun r => .ok (some ⟨r.1, false, r.2⟩))
    (hM : Moderate E f qc) (hx : ∀ x ∈ Val.elems va, ∃ t0, Taken E S f qe x t0)
    (hlen : (Val.elems va).length = (Val.elems vb).length ∨ (Val.elems va).length = 1 ∨ (Val.elems vb).length = 1)
    (hva : Val.elems va ≠ []) (hvb : Val.elems vb ≠ []) :
    ∃ Ts R, mT E f.gas varg kw = .ok Ts ∧ Ts.length = max (Val.elems va).length (Val.elems vb).length ∧
      Silent E f.gas varg kw ∧ mR E f.gas = .ok R ∧ 0 < R ∧
      ∀ i < Ts.length, ∃ x t, nth (Val.elems va) i = some x ∧ Ts[i]? = some (some t) ∧
        ∀ t0, Taken E S f qe x t0 → μ / Ru * R * |t - t0| ≤ 1.34e-6 * |x| := by
  obtain ⟨bd, hb, hF⟩ := shipped_flat f hf
  have hmw := gas_mw_pos hb
  have hR0 : 0 < Ru := Shipped.Ru_pos
  have hk : Kind.energy ≠ .temperature := by simp
  have hk' : Kind.entropy ≠ .temperature := by simp
  have hp := energy_pos hU hmw
  have hs := entropy_pos hU hmw
  have n1 : (233 : ℝ) ≤ bd.1 := by exact_mod_cast (check_nums hb).1
  have hcp : ∀ T c, f.gas.Tlo ≤ T → T ≤ f.gas.Thi → f.gas.cp T = some c → μ ≤ c - l := by
    intro T c h1 h2 h3
    obtain ⟨c', e1, e2, -⟩ := cp_bounds hb T h1 h2
    rw [h3] at e1; cases e1
    have : 2.33 * Ru ≤ (bd.1 : ℝ) / 100 * Ru := mul_le_mul_of_nonneg_right (by norm_num; linarith) hR0.le
    rw [hμ]; linarith
  have hmod : ∀ T T' c c', f.gas.Tlo ≤ T → T ≤ f.gas.Thi → f.gas.Tlo ≤ T' → T' ≤ f.gas.Thi → f.gas.cp T = some c →
      f.gas.cp T' = some c' → 3 * (c - l) ≤ 5 * (c' - l) := by
    intro T T' c c' h1 h2 h3 h4 h5 h6
    have m1 := method_Tp hU hmw.ne' (fromKelvin S.T.name T) 0 (by rw [to_from]; exact h1) (by rw [to_from]; exact h2) qc
    have m2 := method_Tp hU hmw.ne' (fromKelvin S.T.name T') 0 (by rw [to_from]; exact h3) (by rw [to_from]; exact h4) qc
    rw [to_from, hqc, h5] at m1
    rw [to_from, hqc, h6] at m2
    have := hM _ _ _ _ _ m1 m2
    rw [← inUnits_mul E.a S _ hk' (c - l), ← inUnits_mul E.a S _ hk' (c' - l)] at this
    have : (3 * (c - l)) * inUnits E.a S f.gas.mw .entropy 1 ≤ (5 * (c' - l)) * inUnits E.a S f.gas.mw .entropy 1 := by linarith
    exact le_of_mul_le_mul_right this hs
  have hμ' : 1.33 * Ru ≤ μ := by rw [hμ]; norm_num; linarith
  -- each element settles
  have one : ∀ x t0, Taken E S f qe x t0 → ∃ t, iter1 [(lowered f.gas l, internal E.a S f.gas.mw .energy x)]
      (0.5 * (f.gas.Tlo + f.gas.Thi)) f.gas.Tlo f.gas.Thi = .ok ([some t], false) ∧
      f.gas.Tlo ≤ t ∧ t ≤ f.gas.Thi ∧ μ * |t - toKelvin S.T.name t0| ≤ 1.34e-6 * |internal E.a S f.gas.mw .energy x| := by
    intro x t0 ht
    obtain ⟨k1, k2, k3, k4, -⟩ := taken hU hmw hqe ht
    exact settles hb hF hid l μ hl0 hl1 hμ' hcp hmod _ _ k1 k2 ht.2.1 k3 k4
  obtain ⟨ts, hts, htl, htr⟩ := iter1_all (f := lowered f.gas l) (x0 := 0.5 * (f.gas.Tlo + f.gas.Thi)) (lo := f.gas.Tlo)
    (hi := f.gas.Thi) ((Val.elems va).map (internal E.a S f.gas.mw .energy)) (by
      intro y hy
      obtain ⟨x, hxm, rfl⟩ := List.mem_map.mp hy
      obtain ⟨t0, ht0⟩ := hx x hxm
      obtain ⟨t, g1, g2, g3, -⟩ := one x t0 ht0
      exact ⟨t, g1, g2, g3⟩)
  rw [List.length_map] at htl
  rw [hts, exOk] at hT
  obtain ⟨st, hst, hstl⟩ := settled_ok hU hmw.ne' ha h ts hT htr (by rw [htl]; exact hlen)
    (by intro hc; rw [hc] at htl; exact hva (List.length_eq_zero_iff.mp htl.symm)) hvb
  have hg := good_of_pair hU hmw.ne' h hst
  obtain ⟨Ts, w1, w2, w3⟩ := method_rows hU hmw.ne' (by rw [supplies_count h]; decide) hst hg .T
  obtain ⟨T, st0, n, hT', hS, h1, h2, h3, hw0, -⟩ := argparse_solved hU hmw.ne' h hst
  rw [hT] at hT'
  simp only [Except.ok.injEq] at hT'
  refine ⟨Ts, _, w1, by rw [w2, hstl, htl], ?_, mR_eq hU hmw.ne', ?_, ?_⟩
  · intro st' hst'
    rw [hst] at hst'
    cases hst'
    rw [hw0]
    exact hS.Tw _ hT'.symm
  · rw [← inUnits_mul E.a S _ hk']; exact mul_pos hR0 hs
  · intro i hi
    have hin : i < n := by
      have : st.T.length = n := by rw [h1, List.length_map, hS.lenT]
      omega
    obtain ⟨v, hv1, hv2⟩ := hS.T _ hT'.symm i hin
    dsimp only at hv1
    obtain ⟨x, hxn⟩ := nth_exists (ys := Val.elems va) (by rw [List.length_map, htl]) hv1
    have hy : nth ((Val.elems va).map (internal E.a S f.gas.mw .energy)) i = some (internal E.a S f.gas.mw .energy x) := by
      rw [nth_map, hxn]; rfl
    obtain ⟨v', w, hv', hit, hw⟩ := iter1_nth hts hy
    rw [hv1] at hv'; cases hv'
    obtain ⟨t0, ht0⟩ := hx x (nth_mem hxn)
    obtain ⟨t, g1, g2, g3, -⟩ := one x t0 ht0
    rw [hit] at g1
    simp only [Except.ok.injEq, Prod.mk.injEq, List.cons.injEq, and_true] at g1
    obtain ⟨rfl, -⟩ := g1
    obtain ⟨T', p', d', hrow⟩ := hg.exists_row (i := i) (by omega)
    have hval := w3 i T' p' d' hrow
    have hTr := hrow.1
    rw [h1, List.getElem?_map, hv2] at hTr
    simp only [Option.map_some, Option.some.injEq, in_range_keep g2 g3] at hTr
    subst hTr
    refine ⟨x, _, hxn, hval, ?_⟩
    intro t1 ht1
    obtain ⟨t', k1, -, -, k4⟩ := one x t1 ht1
    rw [hit] at k1
    simp only [Except.ok.injEq, Prod.mk.injEq, List.cons.injEq, and_true, Option.some.injEq] at k1
    obtain ⟨rfl, -⟩ := k1
    obtain ⟨-, -, -, -, k5⟩ := taken hU hmw hqe ht1
    have hpos : 0 ≤ inUnits E.a S f.gas.mw .entropy Ru := by
      rw [← inUnits_mul E.a S _ hk']; exact (mul_pos hR0 hs).le
    have eT : toKelvin S.T.name (inUnits E.a S f.gas.mw .temperature t) = t := to_from S.T t
    have e1 : inUnits E.a S f.gas.mw .entropy Ru * |inUnits E.a S f.gas.mw .temperature t - t1|
        = Ru * |t - toKelvin S.T.name t1| * inUnits E.a S f.gas.mw .energy 1 := by
      rw [← abs_of_nonneg hpos, ← abs_mul, energy_of_difference, eT, ← inUnits_mul E.a S _ hk, abs_mul, abs_mul,
        abs_of_pos hR0, abs_of_pos hp]
    rw [mul_assoc, e1, k5, ← mul_assoc, ← mul_assoc, ← mul_assoc, div_mul_cancel₀ _ hR0.ne']
    exact mul_le_mul_of_nonneg_right k4 hp.le

/-- C107, from enthalpies.  For every shipped gas but `ig.Rb` whose `cp()` varies by at most a factor of 5/3, and in every
unit system: when each enthalpy given is what `h()` returns at some temperature at least 50 K away from all limits of the
file (and not within a joule per kilomole of zero), the call succeeds, prints no warning, and returns that temperature
within 1.34 parts in a million of the enthalpy, divided by `2.33 R`.  Missing for the full claim: gases with more variable
heat capacities, and temperatures near a limit. -/
theorem C107_from_enthalpy_partial (f : File) (hf : f ∈ shipped) (hid : f.id ≠ "ig.Rb") (E : Env) (S : Sys) (hU : Uses E S)
    (hM : Moderate E f .cp) (varg : List (Val ℝ)) (kw : Kw) (b : String) (vh vb : Val ℝ) (h : Supplies varg kw "h" vh b vb)
    (hx : ∀ x ∈ Val.elems vh, ∃ t0, Taken E S f .h x t0)
    (hlen : (Val.elems vh).length = (Val.elems vb).length ∨ (Val.elems vh).length = 1 ∨ (Val.elems vb).length = 1)
    (hvh : Val.elems vh ≠ []) (hvb : Val.elems vb ≠ []) :
    ∃ Ts R, mT E f.gas varg kw = .ok Ts ∧ Ts.length = max (Val.elems vh).length (Val.elems vb).length ∧
      Silent E f.gas varg kw ∧ mR E f.gas = .ok R ∧ 0 < R ∧
      ∀ i < Ts.length, ∃ x t, nth (Val.elems vh) i = some x ∧ Ts[i]? = some (some t) ∧
        ∀ t0, Taken E S f .h x t0 → 2.33 * R * |t - t0| ≤ 1.34e-6 * |x| := by
  have hne : "h" ≠ b := by simpa using h.ok.distinct
  have hb := h.ok.one_of_Teh "h" (by simp) b (by simp) (by simp)
  have hbe : b ≠ "e" := by rintro rfl; exact absurd (hb (by simp)) (by decide)
  have he : (stdOf E S f.gas.mw [("h", vh), (b, vb)]).e = none :=
    (stdArg_of E S f.gas.mw vh vb hne).2.2 "e" (by decide) hbe.symm
  have hh : (stdOf E S f.gas.mw [("h", vh), (b, vb)]).h
      = some ⟨(Val.elems vh).map (internal E.a S f.gas.mw (kindOf "h")), vh.isArr && isInternal S "h"⟩ :=
    (stdArg_of E S f.gas.mw vh vb hne).1
  have hR0 : Ru ≠ 0 := Shipped.Ru_pos.ne'
  have := converges hf hid hU (Or.inl rfl) h .h .cp 0 (2.33 * Ru) le_rfl Shipped.Ru_pos.le (by ring)
    (by intro T p d; rw [lowered_h]; simp only [value, Gas.hI, Option.bind_some])
    (by intro T p d; simp only [value, Gas.cpI, Option.bind_some, sub_zero, Option.map_id'])
    (by unfold tempOf; rw [he, hh, lowered_h]; rfl) hM hx hlen hvh hvb
  simpa only [mul_div_cancel_right₀ _ hR0] using this

/-- C107, from internal energies: as from enthalpies, with `cv()` for `cp()` and `1.33 R` for `2.33 R`. -/
theorem C107_from_energy_partial (f : File) (hf : f ∈ shipped) (hid : f.id ≠ "ig.Rb") (E : Env) (S : Sys) (hU : Uses E S)
    (hM : Moderate E f .cv) (varg : List (Val ℝ)) (kw : Kw) (b : String) (ve vb : Val ℝ) (h : Supplies varg kw "e" ve b vb)
    (hx : ∀ x ∈ Val.elems ve, ∃ t0, Taken E S f .e x t0)
    (hlen : (Val.elems ve).length = (Val.elems vb).length ∨ (Val.elems ve).length = 1 ∨ (Val.elems vb).length = 1)
    (hve : Val.elems ve ≠ []) (hvb : Val.elems vb ≠ []) :
    ∃ Ts R, mT E f.gas varg kw = .ok Ts ∧ Ts.length = max (Val.elems ve).length (Val.elems vb).length ∧
      Silent E f.gas varg kw ∧ mR E f.gas = .ok R ∧ 0 < R ∧
      ∀ i < Ts.length, ∃ x t, nth (Val.elems ve) i = some x ∧ Ts[i]? = some (some t) ∧
        ∀ t0, Taken E S f .e x t0 → 1.33 * R * |t - t0| ≤ 1.34e-6 * |x| := by
  have hne : "e" ≠ b := by simpa using h.ok.distinct
  have he : (stdOf E S f.gas.mw [("e", ve), (b, vb)]).e
      = some ⟨(Val.elems ve).map (internal E.a S f.gas.mw (kindOf "e")), ve.isArr && isInternal S "e"⟩ :=
    (stdArg_of E S f.gas.mw ve vb hne).1
  have hR0 : Ru ≠ 0 := Shipped.Ru_pos.ne'
  have := converges hf hid hU (Or.inr rfl) h .e .cv Ru (1.33 * Ru) Shipped.Ru_pos.le le_rfl (by ring)
    (by intro T p d; rw [lowered_e]; simp only [value, Gas.eI, Gas.e, Option.bind_some, Option.map_map]; rfl)
    (by intro T p d; simp only [value, Gas.cvI, Option.bind_some])
    (by unfold tempOf; rw [he, lowered_e]; rfl) hM hx hlen hve hvb
  simpa only [mul_div_cancel_right₀ _ hR0] using this

end PyroMat.Shipped.Props
