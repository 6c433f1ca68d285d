import Verif.Mp.PropsConstants
import Verif.Shipped.PropsMp

/-!
# Critical and triple points of the shipped multi-phase substances (C102)
-/

set_option linter.unusedSimpArgs false

namespace PyroMat.Shipped.Props

open PyroMat PyroMat.Units PyroMat.Units.Spec PyroMat.Units.Props PyroMat.Gas PyroMat.Gas.Spec PyroMat.Mp
  PyroMat.Mp.Spec PyroMat.Mp.Props PyroMat.Shipped PyroMat.Shipped.Data
open PyroMat.Gas.Props (exOk)

theorem dsv_at {f : MpFile} (hf : f ∈ shippedMp) : f.sub.dsv f.Tc.val = f.dsv.scale.val := by
  have F := facts hf
  have hc : 0 < f.Tc.val := F.Tt.trans F.Tc
  obtain ⟨k, -, e⟩ := dsv_eq hf f.Tc.val le_rfl
  rw [e, div_self hc.ne', sub_self, sumT_zero F.dsv0]
  simp

theorem dsl_at {f : MpFile} (hf : f ∈ shippedMp) :
    f.dsl.fn = 2 ∧ f.sub.dsl f.Tc.val = f.dsl.scale.val ∨
      f.dsl.fn = 1 ∧ f.sub.dsl f.Tc.val = f.dsl.scale.val * (const f.dsl.coef / 10 ^ 20) := by
  have F := facts hf
  have hc : 0 < f.Tc.val := F.Tt.trans F.Tc
  have e : f.sub.dsl f.Tc.val = _ := satVal_eq F.dsl f.Tc.val
  have hx : 1 - f.Tc.val / f.Tc.val = 0 := by rw [div_self hc.ne', sub_self]
  rw [e]
  rcases F.dslfn with ⟨e1, e2, e3⟩ | ⟨e1, e3⟩
  · refine Or.inl ⟨e1, ?_⟩
    rw [e1]
    simp only [satAt]
    rw [hx, poly1At_flat _ F.dsl.ok le_rfl, sumT_zero e2]
    simp
  · refine Or.inr ⟨e1, ?_⟩
    rw [e1]
    simp only [satAt]
    rw [hx, poly1At_flat _ F.dsl.ok le_rfl, sumT_at_zero]
    have hb := (curves f hf).basics
    simp only [basics, okSat, Bool.and_eq_true] at hb
    exact hb.1.1.1.1.1.1.1.1.1.1.1.1.1.1.1.2.2

/-- The scales of the saturation curves against the critical point of the file. -/
theorem critical_scales {f : MpFile} (hf : f ∈ shippedMp) :
    |f.ps.scale.val - f.pc.val| ≤ 1e-3 * f.pc.val ∧ |f.dsv.scale.val - f.dc.val| ≤ 0.021 * f.dc.val ∧
      |f.dsl.scale.val - f.dc.val| ≤ 0.021 * f.dc.val ∧
      |f.dsl.scale.val * (const f.dsl.coef / 10 ^ 20) - f.dc.val| ≤ 0.021 * f.dc.val ∨ f.dsl.fn = 2 ∧
      |f.ps.scale.val - f.pc.val| ≤ 1e-3 * f.pc.val ∧ |f.dsv.scale.val - f.dc.val| ≤ 0.021 * f.dc.val ∧
      |f.dsl.scale.val - f.dc.val| ≤ 0.021 * f.dc.val := by
  have k1 : const C2H2F4.dsl.coef = 102007874015748050000 := by decide +kernel
  have k2 : const C3H2F41.dsl.coef = 100000000000000000000 := by decide +kernel
  have k5 : const H2O.dsl.coef = 100000000000000000000 := by decide +kernel
  have k7 : const O2.dsl.coef = 100000000000000000000 := by decide +kernel
  simp only [shippedMp, List.mem_cons, List.not_mem_nil, or_false] at hf
  rcases hf with rfl | rfl | rfl | rfl | rfl | rfl | rfl
  · left; rw [k1]; norm_num [C2H2F4, Dec.val, Dec.p, abs_le]
  · left; rw [k2]; norm_num [C3H2F41, Dec.val, Dec.p, abs_le]
  · right; norm_num [CH4, Dec.val, Dec.p, abs_le]
  · right; norm_num [CO2, Dec.val, Dec.p, abs_le]
  · left; rw [k5]; norm_num [H2O, Dec.val, Dec.p, abs_le]
  · right; norm_num [N2, Dec.val, Dec.p, abs_le]
  · left; rw [k7]; norm_num [O2, Dec.val, Dec.p, abs_le]

theorem limits_order {f : MpFile} (hf : f ∈ shippedMp) :
    f.Tlim.1.val ≤ f.Tt.val ∧ f.Tc.val ≤ f.Tlim.2.val ∧ f.plim.1.val ≤ f.pt.val ∧ f.pt.val < f.pc.val ∧
      f.pc.val ≤ f.plim.2.val ∧ 0 < f.pt.val ∧ 0 < f.dc.val := by
  simp only [shippedMp, List.mem_cons, List.not_mem_nil, or_false] at hf
  rcases hf with rfl | rfl | rfl | rfl | rfl | rfl | rfl <;>
    norm_num [C2H2F4, C3H2F41, CH4, CO2, H2O, N2, O2, Dec.val, Dec.p]

theorem near_scale {E : Env} {U : Sys} (hU : Uses E U) {mw : ℝ} (hmw : 0 < mw) {k : Kind}
    (hk : k = .density ∨ k = .pressure) {x y r : ℝ} (h : |x - y| ≤ r * y) :
    |inUnitsKg E.a U mw k x - inUnitsKg E.a U mw k y| ≤ r * inUnitsKg E.a U mw k y := by
  have hk' : k ≠ .temperature := by rcases hk with rfl | rfl <;> simp
  have hp := kg_pos hU hmw hk
  rw [← inUnitsKg_mul _ _ _ hk', ← inUnitsKg_mul (x := y) _ _ _ hk', ← sub_mul, abs_mul, abs_of_pos hp, ← mul_assoc]
  exact mul_le_mul_of_nonneg_right h hp.le

/-- **C102**, shipped substances.  In any unit system, for each of the seven multi-phase substances that
come with the package: the reported triple point is below the reported critical point, both are within
the reported limits of temperature and pressure, and at the reported critical temperature the saturation
methods answer with the critical point: `ps` with the reported critical pressure within 0.1 % and `ds`
with the reported critical density within 2.1 %, for the liquid and for the vapor. -/
theorem C102_shipped (f : MpFile) (hf : f ∈ shippedMp) (E : Env) (U : Sys) (hU : Uses E U) (S : Sol) :
    ∃ tt pt tc pc dc t0 t1 p0 p1 y l v,
      mpTriple E f.sub = .ok (tt, pt) ∧ mpCritical E f.sub f.dc.val = .ok (tc, pc, dc) ∧
      mpTlim E f.sub = .ok [some t0, some t1] ∧ mpPlim E f.sub = .ok [some p0, some p1] ∧
      t0 ≤ tt ∧ tt < tc ∧ tc ≤ t1 ∧ p0 ≤ pt ∧ pt < pc ∧ pc ≤ p1 ∧ 0 < pt ∧ 0 < dc ∧
      satPs E f.sub (some (.scalar tc)) = .ok [some y] ∧
      satDs E f.sub S (some (.scalar tc)) none = .ok ([some l], [some v]) ∧
      |y - pc| ≤ 1e-3 * pc ∧ |l - dc| ≤ 0.021 * dc ∧ |v - dc| ≤ 0.021 * dc := by
  have F := facts hf
  have hmw : 0 < f.sub.mw := F.mw
  have kT : ∀ x, toKelvin U.T.name (inUnitsKg E.a U f.sub.mw .temperature x) = x :=
    fun x => internalKg_inUnitsKg hU hmw.ne' .temperature x
  have hT : ∀ x y, inUnitsKg E.a U f.sub.mw .temperature x ≤ inUnitsKg E.a U f.sub.mw .temperature y ↔ x ≤ y := by
    intro x y; rw [← toKelvin_le U.T, kT, kT]
  have hP : ∀ {x y}, x ≤ y → inUnitsKg E.a U f.sub.mw .pressure x ≤ inUnitsKg E.a U f.sub.mw .pressure y := by
    intro x y h
    rcases h.lt_or_eq with h | rfl
    · exact (kg_lt hU hmw (Or.inr rfl) h).le
    · rfl
  obtain ⟨o1, o2, o3, o4, o5, o6, o7⟩ := limits_order hf
  have hd : InDomeT U f.sub (inUnitsKg E.a U f.sub.mw .temperature f.sub.Tc) := by
    unfold InDomeT
    rw [kT]
    exact ⟨F.Tc.le, le_rfl⟩
  obtain ⟨a1, a2⟩ := C55_answers_T E U hU f.sub hmw.ne' S (.scalar (inUnitsKg E.a U f.sub.mw .temperature f.sub.Tc))
    (by simpa [Val.elems] using hd)
  have hl : |f.sub.dsl f.sub.Tc - f.dc.val| ≤ 0.021 * f.dc.val := by
    show |f.sub.dsl f.Tc.val - f.dc.val| ≤ _
    rcases dsl_at hf with ⟨e, h⟩ | ⟨e, h⟩ <;> rw [h] <;> rcases critical_scales hf with c | c
    · exact c.2.2.1
    · exact c.2.2.2
    · exact c.2.2.2
    · exact absurd (e.symm.trans c.1) (by decide)
  have hv : |f.sub.dsv f.sub.Tc - f.dc.val| ≤ 0.021 * f.dc.val := by
    show |f.sub.dsv f.Tc.val - f.dc.val| ≤ _
    rw [dsv_at hf]
    rcases critical_scales hf with c | c
    · exact c.2.1
    · exact c.2.2.1
  have hp : |f.sub.ps f.sub.Tc - f.sub.pc| ≤ 1e-3 * f.sub.pc := by
    show |f.sub.ps f.Tc.val - f.pc.val| ≤ 1e-3 * f.pc.val
    rw [ps_critical hf]
    rcases critical_scales hf with c | c
    · exact c.1
    · exact c.2.1
  have b1 := a2 .ds
  simp only [Val.elems, List.map_cons, List.map_nil, kT] at a1 b1
  have c1 : mpTriple E f.sub = .ok (inUnitsKg E.a U f.sub.mw .temperature f.sub.Tt,
      inUnitsKg E.a U f.sub.mw .pressure f.sub.pt) := by
    rw [mpTriple, convOne_temperature hU f.sub.mw, exOk, convOne_pressure hU f.sub.mw, exOk]
  have c2 : mpCritical E f.sub f.dc.val = .ok (inUnitsKg E.a U f.sub.mw .temperature f.sub.Tc,
      inUnitsKg E.a U f.sub.mw .pressure f.sub.pc, inUnitsKg E.a U f.sub.mw .density f.dc.val) := by
    rw [mpCritical, convOne_temperature hU f.sub.mw, exOk, convOne_pressure hU f.sub.mw, exOk,
      convOne_density hU hmw.ne', exOk]
  have c3 : mpTlim E f.sub = .ok [some (inUnitsKg E.a U f.sub.mw .temperature f.sub.Tlo),
      some (inUnitsKg E.a U f.sub.mw .temperature f.sub.Thi)] := by
    rw [mpTlim, convOut_temperature hU f.sub.mw]; rfl
  have c4 : mpPlim E f.sub = .ok [some (inUnitsKg E.a U f.sub.mw .pressure f.sub.plo),
      some (inUnitsKg E.a U f.sub.mw .pressure f.sub.phi)] := by
    rw [mpPlim, convOut_pressure hU f.sub.mw]; rfl
  refine ⟨_, _, _, _, _, _, _, _, _, _, _, _, c1, c2, c3, c4,
    (hT _ _).mpr o1, lt_of_not_ge (fun h => not_lt.mpr ((hT _ _).mp h) F.Tc), (hT _ _).mpr o2, hP o3,
    kg_lt hU hmw (Or.inr rfl) o4, hP o5, kg_pos' hU hmw (Or.inr rfl) o6, kg_pos' hU hmw (Or.inl rfl) o7,
    a1, b1, near_scale hU hmw (Or.inr rfl) hp, near_scale hU hmw (Or.inl rfl) hl, near_scale hU hmw (Or.inl rfl) hv⟩

/-- The theorem applies to water in the default units. -/
example : ∃ tc pc dc, mpCritical PyroMat.Gas.Props.fullEnv H2O.sub H2O.dc.val = .ok (tc, pc, dc) := by
  obtain ⟨_, _, tc, pc, dc, _, _, _, _, _, _, _, _, h, _⟩ := C102_shipped H2O (by simp [shippedMp])
    PyroMat.Gas.Props.fullEnv PyroMat.Gas.Props.exampleSys PyroMat.Gas.Props.fullEnv_uses (codeSol H2O.sub)
  exact ⟨tc, pc, dc, h⟩

end PyroMat.Shipped.Props
