import Verif.Shipped.PropsGas

/-!
# C96: temperatures recovered from enthalpies and internal energies
-/

set_option linter.unusedSimpArgs false

namespace PyroMat.Shipped.Props

open PyroMat PyroMat.Units PyroMat.Units.Spec PyroMat.Units.Props PyroMat.Gas PyroMat.Gas.Spec
  PyroMat.Gas.Props PyroMat.Shipped

/-- The energy a gas constant times a difference of temperatures stands for. -/
theorem energy_of_difference (E : Env) (S : Sys) (mw t t0 : ℝ) :
    inUnits E.a S mw .entropy Ru * (t - t0)
      = inUnits E.a S mw .energy (Ru * (toKelvin S.T.name t - toKelvin S.T.name t0)) := by
  obtain ⟨c, hc⟩ := toKelvin_affine S.T
  simp only [inUnits, hc]
  ring

theorem energy_pos {E : Env} {S : Sys} (hU : Uses E S) {mw : ℝ} (hmw : 0 < mw) :
    0 < inUnits E.a S mw .energy 1 := by
  have h := entropy_pos hU hmw
  have e : inUnits E.a S mw .entropy 1 = inUnits E.a S mw .energy 1 * (size Units.temperature S.T.name / 1.8) := by
    simp only [inUnits]
  rw [e] at h
  have : 0 ≤ size (Units.temperature : Conv ℝ) S.T.name / 1.8 := by
    cases S.T <;> simp [Scale.name, size, temperature, List.lookup, const_q, const_k] <;> norm_num
  rcases lt_trichotomy 0 (inUnits E.a S mw .energy 1) with h' | h' | h'
  · exact h'
  · rw [← h'] at h; simp at h
  · exact absurd h (not_lt.mpr (mul_nonpos_of_nonpos_of_nonneg h'.le this))

/-- C96, temperatures from enthalpies.  For every shipped gas and in every unit system: when the enthalpy given
is what `h()` returns at the temperature `t0`, and the call prints no warning, the temperature returned is `t0`
but for 8 parts in a million of the enthalpy and two steps between pieces of the fit (60 kJ/kmol; 600 for
`ig.Rb`), divided by `2.33 R`. -/
theorem C96_temperature_from_enthalpy (f : File) (hf : f ∈ shipped) (E : Env) (S : Sys) (hU : Uses E S)
    (varg : List (Val ℝ)) (kw : Kw) (b : String) (vh vb : Val ℝ) (h : Supplies varg kw "h" vh b vb)
    (hq : Silent E f.gas varg kw) (i : Nat) (t : ℝ) (ht : Gives E f.gas varg kw .T i t)
    (t0 p0 x : ℝ) (hx : nth (Val.elems vh) i = some x)
    (h0 : mH E f.gas [.scalar t0, .scalar p0] [] = .ok [some x]) :
    ∃ R, mR E f.gas = .ok R ∧ 0 < R ∧
      2.33 * R * |t - t0| ≤ 8e-6 * |x| + 2 * |inUnits E.a S f.gas.mw .energy (if f.id = "ig.Rb" then 300 else 30)| := by
  obtain ⟨bd, hb⟩ := shipped_checked f hf
  have hmw := gas_mw_pos hb
  have hR0 : 0 < Ru := Shipped.Ru_pos
  have hk : Kind.energy ≠ .temperature := by simp
  have hk' : Kind.entropy ≠ .temperature := by simp
  have hp := energy_pos hU hmw
  -- the temperature the enthalpy was taken at
  have r0 : f.gas.Tlo ≤ toKelvin S.T.name t0 ∧ toKelvin S.T.name t0 ≤ f.gas.Thi := by
    by_contra hc
    have : toKelvin S.T.name t0 < f.gas.Tlo ∨ f.gas.Thi < toKelvin S.T.name t0 := by
      by_contra hc'
      push Not at hc'
      exact hc hc'
    have := (C34_limits E S hU f.gas hmw.ne' .h t0 p0).mpr this
    rw [show method .h E f.gas [.scalar t0, .scalar p0] [] = mH E f.gas [.scalar t0, .scalar p0] [] from rfl, h0] at this
    cases this
  have hm0 := method_Tp hU hmw.ne' t0 p0 r0.1 r0.2 .h
  rw [show method .h E f.gas [.scalar t0, .scalar p0] [] = mH E f.gas [.scalar t0, .scalar p0] [] from rfl, h0] at hm0
  simp only [value, Except.ok.injEq, List.cons.injEq, and_true] at hm0
  -- the state the call gives
  obtain ⟨Ts, hTs, hti⟩ := ht
  obtain ⟨st, T, P, D', hst, hg, hr, hval, hall⟩ := same_row hU hmw.ne' h hTs hti
  have vT := hval .T _ _ hTs hti
  obtain ⟨hs, hhs, hlen⟩ := hall .h
  have hi : i < hs.length := by
    rw [hlen]
    exact (List.getElem?_eq_some_iff.mp hti).1
  obtain ⟨x', y, hx', hy, hacc⟩ := C96_given_enthalpy f hf E S hU varg kw b vh vb h hq hs hhs i hi
  rw [hx] at hx'; cases hx'
  have vh' := hval .h _ _ hhs hy
  simp only [value] at vT vh'
  cases T with
  | none => simp at vT
  | some T0 =>
    obtain ⟨r1, r2⟩ := hg.range T0 (List.mem_of_getElem? hr.1)
    obtain ⟨z, z', c, c', g1, g2, g3, -⟩ := lipschitz hb T0 (toKelvin S.T.name t0) r1 r2 r0.1 r0.2
    simp only [Gas.hI, g1, g2, Option.map_some, Option.bind_some, Option.some.injEq] at vT vh' hm0
    have eT : toKelvin S.T.name t = T0 := by
      rw [vT]; exact to_from S.T T0
    refine ⟨_, mR_eq hU hmw.ne', ?_, ?_⟩
    · rw [← inUnits_mul E.a S _ hk']; exact mul_pos hR0 (entropy_pos hU hmw)
    · have e1 : inUnits E.a S f.gas.mw .entropy Ru * |t - t0|
          = Ru * |T0 - toKelvin S.T.name t0| * inUnits E.a S f.gas.mw .energy 1 := by
        have hpos : 0 ≤ inUnits E.a S f.gas.mw .entropy Ru := by
          rw [← inUnits_mul E.a S _ hk']; exact (mul_pos hR0 (entropy_pos hU hmw)).le
        rw [← abs_of_nonneg hpos, ← abs_mul, energy_of_difference, eT, ← inUnits_mul E.a S _ hk, abs_mul, abs_mul,
          abs_of_pos hR0, abs_of_pos hp]
      have e2 : |y - x| = |z - z'| * inUnits E.a S f.gas.mw .energy 1 := by
        rw [vh', hm0, ← inUnits_mul E.a S _ hk z, ← inUnits_mul E.a S _ hk z', ← sub_mul, abs_mul, abs_of_pos hp]
      have hj : ((jumps f.cls f.Tlim f.C : ℕ) : ℝ) * inUnits E.a S f.gas.mw .energy 1
          ≤ |inUnits E.a S f.gas.mw .energy (if f.id = "ig.Rb" then 300 else 30)| := by
        have := jumps_le hb E S
        rwa [← inUnits_mul E.a S _ hk, abs_of_nonneg (mul_nonneg (Nat.cast_nonneg _) hp.le)] at this
      have n1 : (233 : ℝ) ≤ bd.1 := by exact_mod_cast (check_nums hb).1
      have l1 : 2.33 * (Ru * |T0 - toKelvin S.T.name t0|) ≤ |z - z'| + (jumps f.cls f.Tlim f.C : ℕ) := by
        have : 2.33 * (Ru * |T0 - toKelvin S.T.name t0|) ≤ (bd.1 : ℝ) / 100 * Ru * |T0 - toKelvin S.T.name t0| := by
          rw [mul_assoc]
          refine mul_le_mul_of_nonneg_right ?_ (by positivity)
          norm_num; linarith
        linarith
      have l2 := mul_le_mul_of_nonneg_right l1 hp.le
      rw [add_mul, ← e2] at l2
      rw [mul_assoc, e1]
      linarith

/-- Internal energies at two temperatures. -/
theorem e_apart {f : File} {b : Nat × Nat} (hb : check f b = true) (x x' : ℝ) (h1 : f.gas.Tlo ≤ x) (h2 : x ≤ f.gas.Thi)
    (h3 : f.gas.Tlo ≤ x') (h4 : x' ≤ f.gas.Thi) :
    ∃ y y', (f.gas.h x).map (fun r => r.1 - Ru * x) = some y ∧ (f.gas.h x').map (fun r => r.1 - Ru * x') = some y' ∧
      1.33 * (Ru * |x - x'|) - (jumps f.cls f.Tlim f.C : ℕ) ≤ |y - y'| := by
  have hR0 : 0 < Ru := Shipped.Ru_pos
  have n1 : (233 : ℝ) ≤ b.1 := by exact_mod_cast (check_nums hb).1
  rcases le_total x x' with hl | hl
  · obtain ⟨a, c, ka, kc, e1, e2, l, -⟩ := h_growth hb x x' h1 hl h4
    refine ⟨a - Ru * x, c - Ru * x', by simp [e1], by simp [e2], ?_⟩
    rw [abs_sub_comm x, abs_of_nonneg (sub_nonneg.mpr hl), abs_sub_comm (a - _)]
    refine le_trans ?_ (le_abs_self _)
    have : 2.33 * Ru * (x' - x) ≤ (b.1 : ℝ) / 100 * Ru * (x' - x) :=
      mul_le_mul_of_nonneg_right (mul_le_mul_of_nonneg_right (by norm_num; linarith) hR0.le) (by linarith)
    norm_num at this ⊢
    linarith
  · obtain ⟨a, c, ka, kc, e1, e2, l, -⟩ := h_growth hb x' x h3 hl h2
    refine ⟨c - Ru * x, a - Ru * x', by simp [e2], by simp [e1], ?_⟩
    rw [abs_of_nonneg (sub_nonneg.mpr hl)]
    refine le_trans ?_ (le_abs_self _)
    have : 2.33 * Ru * (x - x') ≤ (b.1 : ℝ) / 100 * Ru * (x - x') :=
      mul_le_mul_of_nonneg_right (mul_le_mul_of_nonneg_right (by norm_num; linarith) hR0.le) (by linarith)
    norm_num at this ⊢
    linarith

/-- C96, temperatures from internal energies.  For every shipped gas and in every unit system: when the internal energy
given is what `e()` returns at the temperature `t0`, and the call prints no warning, the temperature returned is `t0`
but for 10 parts in a million of the energy and two steps between pieces of the fit (60 kJ/kmol; 600 for
`ig.Rb`), divided by `1.33 R`. -/
theorem C96_temperature_from_energy (f : File) (hf : f ∈ shipped) (E : Env) (S : Sys) (hU : Uses E S)
    (varg : List (Val ℝ)) (kw : Kw) (b : String) (ve vb : Val ℝ) (h : Supplies varg kw "e" ve b vb)
    (hq : Silent E f.gas varg kw) (i : Nat) (t : ℝ) (ht : Gives E f.gas varg kw .T i t)
    (t0 p0 x : ℝ) (hx : nth (Val.elems ve) i = some x)
    (h0 : mE E f.gas [.scalar t0, .scalar p0] [] = .ok [some x]) :
    ∃ R, mR E f.gas = .ok R ∧ 0 < R ∧
      1.33 * R * |t - t0| ≤ 1e-5 * |x| + 2 * |inUnits E.a S f.gas.mw .energy (if f.id = "ig.Rb" then 300 else 30)| := by
  obtain ⟨bd, hb⟩ := shipped_checked f hf
  have hmw := gas_mw_pos hb
  have hR0 : 0 < Ru := Shipped.Ru_pos
  have hk : Kind.energy ≠ .temperature := by simp
  have hk' : Kind.entropy ≠ .temperature := by simp
  have hp := energy_pos hU hmw
  -- the temperature the enthalpy was taken at
  have r0 : f.gas.Tlo ≤ toKelvin S.T.name t0 ∧ toKelvin S.T.name t0 ≤ f.gas.Thi := by
    by_contra hc
    have : toKelvin S.T.name t0 < f.gas.Tlo ∨ f.gas.Thi < toKelvin S.T.name t0 := by
      by_contra hc'
      push Not at hc'
      exact hc hc'
    have := (C34_limits E S hU f.gas hmw.ne' .e t0 p0).mpr this
    rw [show method .e E f.gas [.scalar t0, .scalar p0] [] = mE E f.gas [.scalar t0, .scalar p0] [] from rfl, h0] at this
    cases this
  have hm0 := method_Tp hU hmw.ne' t0 p0 r0.1 r0.2 .e
  rw [show method .e E f.gas [.scalar t0, .scalar p0] [] = mE E f.gas [.scalar t0, .scalar p0] [] from rfl, h0] at hm0
  simp only [value, Except.ok.injEq, List.cons.injEq, and_true] at hm0
  -- the state the call gives
  obtain ⟨Ts, hTs, hti⟩ := ht
  obtain ⟨st, T, P, D', hst, hg, hr, hval, hall⟩ := same_row hU hmw.ne' h hTs hti
  have vT := hval .T _ _ hTs hti
  obtain ⟨hs, hhs, hlen⟩ := hall .e
  have hi : i < hs.length := by
    rw [hlen]
    exact (List.getElem?_eq_some_iff.mp hti).1
  obtain ⟨x', y, hx', hy, hacc⟩ := C96_given_energy f hf E S hU varg kw b ve vb h hq hs hhs i hi
  rw [hx] at hx'; cases hx'
  have vh' := hval .e _ _ hhs hy
  simp only [value] at vT vh'
  cases T with
  | none => simp at vT
  | some T0 =>
    obtain ⟨r1, r2⟩ := hg.range T0 (List.mem_of_getElem? hr.1)
    obtain ⟨z, z', g1, g2, g3⟩ := e_apart hb T0 (toKelvin S.T.name t0) r1 r2 r0.1 r0.2
    simp only [Gas.eI, g1, g2, Option.map_some, Option.bind_some, Option.some.injEq] at vT vh' hm0
    have eT : toKelvin S.T.name t = T0 := by
      rw [vT]; exact to_from S.T T0
    refine ⟨_, mR_eq hU hmw.ne', ?_, ?_⟩
    · rw [← inUnits_mul E.a S _ hk']; exact mul_pos hR0 (entropy_pos hU hmw)
    · have e1 : inUnits E.a S f.gas.mw .entropy Ru * |t - t0|
          = Ru * |T0 - toKelvin S.T.name t0| * inUnits E.a S f.gas.mw .energy 1 := by
        have hpos : 0 ≤ inUnits E.a S f.gas.mw .entropy Ru := by
          rw [← inUnits_mul E.a S _ hk']; exact (mul_pos hR0 (entropy_pos hU hmw)).le
        rw [← abs_of_nonneg hpos, ← abs_mul, energy_of_difference, eT, ← inUnits_mul E.a S _ hk, abs_mul, abs_mul,
          abs_of_pos hR0, abs_of_pos hp]
      have e2 : |y - x| = |z - z'| * inUnits E.a S f.gas.mw .energy 1 := by
        rw [vh', hm0, ← inUnits_mul E.a S _ hk z, ← inUnits_mul E.a S _ hk z', ← sub_mul, abs_mul, abs_of_pos hp]
      have hj : ((jumps f.cls f.Tlim f.C : ℕ) : ℝ) * inUnits E.a S f.gas.mw .energy 1
          ≤ |inUnits E.a S f.gas.mw .energy (if f.id = "ig.Rb" then 300 else 30)| := by
        have := jumps_le hb E S
        rwa [← inUnits_mul E.a S _ hk, abs_of_nonneg (mul_nonneg (Nat.cast_nonneg _) hp.le)] at this
      have l1 : 1.33 * (Ru * |T0 - toKelvin S.T.name t0|) ≤ |z - z'| + (jumps f.cls f.Tlim f.C : ℕ) := by
        linarith
      have l2 := mul_le_mul_of_nonneg_right l1 hp.le
      rw [add_mul, ← e2] at l2
      rw [mul_assoc, e1]
      linarith

end PyroMat.Shipped.Props
