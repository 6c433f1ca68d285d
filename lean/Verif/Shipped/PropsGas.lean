import Verif.Gas.PropsCalls
import Verif.Gas.PropsInverse
import Verif.Shipped.Regular

/-!
# C94, C95, C96: the ideal gases that come with the package

`shipped` (in `All.lean`) lists the 982 data files; `f.gas` is the object made from the file `f`.
-/

set_option linter.unusedSimpArgs false

namespace PyroMat.Shipped.Props

open PyroMat PyroMat.Units PyroMat.Units.Spec PyroMat.Units.Props PyroMat.Gas PyroMat.Gas.Spec
  PyroMat.Gas.Props PyroMat.Shipped

/-! ## C94 -/

/-- C94, usable data.  Every shipped file has ascending positive temperature limits, one row of
coefficients per piece, and a positive molecular weight and reference pressure - what C31-C36 ask of
a gas. -/
theorem C94_usable (f : File) (hf : f ∈ shipped) : WellFormed f.data := by
  obtain ⟨b, hb⟩ := shipped_checked f hf
  exact wellFormed hb

/-- C94, range.  Every property method of every shipped gas, at any temperature and pressure in any
unit system, returns a number when the temperature is within the limits of the file, both included,
and raises a parameter error when it is not. -/
theorem C94_range (f : File) (hf : f ∈ shipped) (E : Env) (S : Sys) (hU : Uses E S) (q : Quantity)
    (t p : ℝ) (lo hi : Dec) (hlo : f.Tlim.head? = some lo) (hhi : f.Tlim.getLast? = some hi) :
    (lo.val ≤ toKelvin S.T.name t → toKelvin S.T.name t ≤ hi.val →
      ∃ y, method q E f.gas [.scalar t, .scalar p] [] = .ok [some y]) ∧
    (toKelvin S.T.name t < lo.val ∨ hi.val < toKelvin S.T.name t →
      method q E f.gas [.scalar t, .scalar p] [] = .error .param) := by
  obtain ⟨b, hb⟩ := shipped_checked f hf
  have hmw := (gas_mw_pos hb).ne'
  have e1 : f.gas.Tlo = lo.val := by
    rw [gas_Tlo]
    simp only [File.data, List.headD_eq_head?_getD, List.head?_map, hlo, Option.map_some,
      Option.getD_some]
  have e2 : f.gas.Thi = hi.val := by
    rw [gas_Thi]
    simp only [File.data, List.getLastD_eq_getLast?, List.getLast?_map, hhi, Option.map_some,
      Option.getD_some]
  constructor
  · intro h1 h2
    rw [← e1] at h1
    rw [← e2] at h2
    have hm := method_Tp hU hmw t p h1 h2 q
    obtain ⟨h0, s0, c0, sT0, gT0, k1, k2, k3, k4⟩ := gas_coherent hb _ h1 h2
    cases q <;>
      simp only [value, Gas.hI, Gas.eI, Gas.sI, Gas.gI, Gas.fI, Gas.f, Gas.cpI, Gas.cvI, Gas.gamI,
        k1, k2, k3, k4, Option.map_some, Option.bind_some] at hm <;>
      exact ⟨_, hm⟩
  · intro h
    rw [← e1, ← e2] at h
    exact (C34_limits E S hU f.gas hmw q t p).mpr h

/-- Files whose lowest temperature is above 298.15 K. -/
def hot : List File := shipped.filter fun f => Nat.blt 298150 (mK (f.Tlim.headD ⟨0, 0⟩))

theorem hot_length : hot.length = 475 := by decide +kernel

theorem shipped_length : shipped.length = 982 := by decide +kernel

/-- **C94 disagreement.**  Calling a property method with no arguments asks for the default state,
298.15 K as shipped.  For 475 of the 982 shipped gases - hydrogen sulfide `ig.H2S`, sulfur dioxide
`ig.O2S`, hydrogen chloride `ig.HCl` among them - 298.15 K is outside the temperature limits of the
file (mostly 300 K) and every such call raises a parameter error, in every unit system. -/
theorem C94_default_defect : ∃ l : List File, l.Sublist shipped ∧ l.length = 475 ∧
    shipped.length = 982 ∧ (∀ n ∈ ["ig.H2S", "ig.O2S", "ig.HCl"], ∃ f ∈ l, f.id = n) ∧
    ∀ f ∈ l, ∀ (E : Env) (S : Sys), Uses E S → E.c.defT = 298.15 → E.c.str "def_T_unit" = .ok "K" →
      ∀ q, method q E f.gas [] [] = .error .param := by
  refine ⟨hot, List.filter_sublist, hot_length, shipped_length, ?_, ?_⟩
  · have h : (["ig.H2S", "ig.O2S", "ig.HCl"].all fun n => hot.any fun f => f.id == n) = true := by
      decide +kernel
    intro n hn
    have := List.all_eq_true.mp h n hn
    obtain ⟨f, hf, he⟩ := List.any_eq_true.mp this
    exact ⟨f, hf, by simpa using he⟩
  · intro f hf E S hU hT hu q
    obtain ⟨hf, hh⟩ := List.mem_filter.mp hf
    obtain ⟨b, hb⟩ := shipped_checked f hf
    have hmw := (gas_mw_pos hb).ne'
    obtain ⟨s, u, hs, -, -, e, -⟩ := C29_defaults E S hU f.gas
    rw [hu] at hs
    have hs : s.name = "K" := (Except.ok.inj hs).symm
    refine method_error hU hmw (by simp) ?_ q
    rw [e]
    refine argparse_Tp_out hU hmw _ _ (Or.inl ?_)
    have e2 : toKelvin S.T.name (fromKelvin S.T.name (toKelvin s.name E.c.defT)) = 298.15 := by
      have := internal_inUnits hU hmw .temperature (toKelvin s.name E.c.defT)
      simp only [internal, inUnits] at this
      rw [this, hs, hT]
      simp [toKelvin]
    rw [e2, gas_Tlo]
    have hok := walk_ok _ _ _ _ _ (check_walk hb)
    cases hl : f.Tlim with
    | nil =>
      have := walk_length _ _ _ _ _ (check_walk hb)
      rw [hl] at this; simp at this
    | cons t ts =>
      rw [hl] at hh
      simp only [List.headD_cons, Nat.blt, Nat.ble_eq] at hh
      have hv := (mK_val (hok t (by simp [hl]))).1
      have : (298151 : ℝ) ≤ (mK t : ℕ) := by exact_mod_cast hh
      simp only [File.data, hl, List.map_cons, List.headD_cons]
      rw [hv] at this
      norm_num
      linarith

/-! ## C95 -/

/-- C95, heat capacities.  For every shipped gas, in every unit system and for every accepted pair of
properties, wherever the call gives a temperature, `cp` is at least `2.33 R`, `cv` at least `1.33 R`
- positive both - and the specific heat ratio is above 1 and at most 1.752. -/
theorem C95_heat_capacities (f : File) (hf : f ∈ shipped) (E : Env) (S : Sys) (hU : Uses E S)
    (varg : List (Val ℝ)) (kw : Kw) (a b : String) (va vb : Val ℝ) (h : Supplies varg kw a va b vb)
    (i : Nat) (t : ℝ) (ht : Gives E f.gas varg kw .T i t) :
    ∃ R cp cv gam, mR E f.gas = .ok R ∧ Gives E f.gas varg kw .cp i cp ∧
      Gives E f.gas varg kw .cv i cv ∧ Gives E f.gas varg kw .gam i gam ∧
      0 < R ∧ 2.33 * R ≤ cp ∧ 1.33 * R ≤ cv ∧ 1 < gam ∧ gam ≤ 1.752 := by
  obtain ⟨bd, hb⟩ := shipped_checked f hf
  have hmw := gas_mw_pos hb
  have hR0 : 0 < Ru := Shipped.Ru_pos
  obtain ⟨Ts, hTs, hti⟩ := ht
  obtain ⟨st, T, P, D, hst, hg, hr, hval, hall⟩ := same_row hU hmw.ne' h hTs hti
  have hcnt : varg.length + kw.length ≠ 1 := by rw [supplies_count h]; decide
  have vT := hval .T _ _ hTs hti
  simp only [value] at vT
  cases T with
  | none => simp at vT
  | some T0 =>
    obtain ⟨r1, r2⟩ := hg.range T0 (List.mem_of_getElem? hr.1)
    obtain ⟨cp, k, l, -⟩ := cp_bounds hb T0 r1 r2
    have h233 : (233 : ℝ) ≤ bd.1 := by exact_mod_cast (check_nums hb).1
    have l' : 2.33 * Ru ≤ cp := by
      refine le_trans ?_ l
      exact mul_le_mul_of_nonneg_right (by norm_num; linarith) hR0.le
    have gives : ∀ q y, value E.a S f.gas q (some T0) P D = some y → Gives E f.gas varg kw q i y := by
      intro q y hy
      obtain ⟨xs, m1, m2, m3⟩ := method_rows hU hmw.ne' hcnt hst hg q
      exact ⟨xs, m1, by rw [m3 i _ _ _ hr, hy]⟩
    have hne : Kind.entropy ≠ .temperature := by simp
    have hp := entropy_pos hU hmw
    refine ⟨_, inUnits E.a S f.gas.mw .entropy cp, inUnits E.a S f.gas.mw .entropy (cp - Ru),
      cp / (cp - Ru), mR_eq hU hmw.ne', gives .cp _ (by simp [value, Gas.cpI, k]),
      gives .cv _ (by simp [value, Gas.cvI, k]), gives .gam _ (by simp [value, Gas.gamI, k]), ?_, ?_, ?_, ?_, ?_⟩
    · rw [← inUnits_mul E.a S _ hne]; positivity
    · rw [← inUnits_mul E.a S _ hne Ru, ← inUnits_mul E.a S _ hne cp, ← mul_assoc]
      exact mul_le_mul_of_nonneg_right l' hp.le
    · rw [← inUnits_mul E.a S _ hne Ru, ← inUnits_mul E.a S _ hne (cp - Ru), ← mul_assoc]
      exact mul_le_mul_of_nonneg_right (by linarith) hp.le
    · rw [lt_div_iff₀ (by linarith)]; linarith
    · rw [div_le_iff₀ (by linarith)]
      norm_num at l' ⊢
      linarith

/-- C95, growth.  The enthalpy of every shipped gas rises with temperature by at least `2.33 R` per
kelvin, except for falls at the limits between pieces that come to less than 30 kJ/kmol in all (300
for `ig.Rb`). -/
theorem C95_growth (f : File) (hf : f ∈ shipped) (x y : ℝ) (h1 : f.gas.Tlo ≤ x) (hxy : x ≤ y)
    (h2 : y ≤ f.gas.Thi) : ∃ hx hy cx cy, f.gas.h x = some (hx, cx) ∧ f.gas.h y = some (hy, cy) ∧
      2.33 * Ru * (y - x) - (if f.id = "ig.Rb" then 300 else 30) ≤ hy - hx := by
  obtain ⟨b, hb⟩ := shipped_checked f hf
  have hR0 : 0 < Ru := Shipped.Ru_pos
  obtain ⟨hx, hy, cx, cy, e1, e2, l, -⟩ := h_growth hb x y h1 hxy h2
  refine ⟨hx, hy, cx, cy, e1, e2, ?_⟩
  obtain ⟨n1, -, -, n4⟩ := check_nums hb
  have h233 : (233 : ℝ) ≤ b.1 := by exact_mod_cast n1
  have hj : ((jumps f.cls f.Tlim f.C : ℕ) : ℝ) ≤ (if f.id = "ig.Rb" then 300 else 30) := by
    split at n4
    · rename_i hc; rw [if_pos hc]; exact_mod_cast n4
    · rename_i hc; rw [if_neg hc]; exact_mod_cast n4
  have : 2.33 * Ru * (y - x) ≤ (b.1 : ℝ) / 100 * Ru * (y - x) := by
    refine mul_le_mul_of_nonneg_right (mul_le_mul_of_nonneg_right ?_ hR0.le) (by linarith)
    norm_num; linarith
  linarith

/-! ## C96 -/

theorem jumps_le {f : File} {b : Nat × Nat} (hb : check f b = true) (E : Env) (S : Sys) :
    |inUnits E.a S f.gas.mw .energy (jumps f.cls f.Tlim f.C : ℕ)|
      ≤ |inUnits E.a S f.gas.mw .energy (if f.id = "ig.Rb" then 300 else 30)| := by
  have n4 := (check_nums hb).2.2.2
  have hj : ((jumps f.cls f.Tlim f.C : ℕ) : ℝ) ≤ (if f.id = "ig.Rb" then 300 else 30) := by
    split at n4
    · rename_i hc; rw [if_pos hc]; exact_mod_cast n4
    · rename_i hc; rw [if_neg hc]; exact_mod_cast n4
  have hk : Kind.energy ≠ .temperature := by simp
  rw [← inUnits_mul E.a S _ hk, ← inUnits_mul E.a S _ hk (if f.id = "ig.Rb" then 300 else 30), abs_mul, abs_mul]
  refine mul_le_mul_of_nonneg_right ?_ (abs_nonneg _)
  rw [abs_of_nonneg (Nat.cast_nonneg _)]
  exact hj.trans (le_abs_self _)

/-- C96, given enthalpy.  For every shipped gas, in every unit system: when a call with an enthalpy
prints no warning, `h()` returns the enthalpy given within 8 parts in a million plus the size of the
steps between the pieces of the fit (30 kJ/kmol; 300 for `ig.Rb`). -/
theorem C96_given_enthalpy (f : File) (hf : f ∈ shipped) (E : Env) (S : Sys) (hU : Uses E S)
    (varg : List (Val ℝ)) (kw : Kw) (b : String) (vh vb : Val ℝ) (h : Supplies varg kw "h" vh b vb)
    (hq : Silent E f.gas varg kw) (hs : List Nan) (hhs : mH E f.gas varg kw = .ok hs) (i : Nat)
    (hi : i < hs.length) : ∃ x y, nth (Val.elems vh) i = some x ∧ hs[i]? = some (some y) ∧
      |y - x| ≤ 8e-6 * |x| + |inUnits E.a S f.gas.mw .energy (if f.id = "ig.Rb" then 300 else 30)| := by
  obtain ⟨bd, hb⟩ := shipped_checked f hf
  have hmw := gas_mw_pos hb
  have hR0 : 0 < Ru := Shipped.Ru_pos
  obtain ⟨x, y, e1, e2, e3⟩ := C30_given_enthalpy E S hU f.gas hmw.ne' (limits_le hb) _ _ _
    (regular_h hb) varg kw b vh vb h hq hs hhs i hi
  refine ⟨x, y, e1, e2, e3.trans (add_le_add ?_ (jumps_le hb E S))⟩
  refine mul_le_mul_of_nonneg_right ?_ (abs_nonneg _)
  obtain ⟨n1, n2, -, -⟩ := check_nums hb
  have n1 : (233 : ℝ) ≤ bd.1 := by exact_mod_cast n1
  have n2 : (bd.2 : ℝ) ≤ 7 * bd.1 := by exact_mod_cast n2
  have : (bd.2 : ℝ) / 100 * Ru / ((bd.1 : ℝ) / 100 * Ru) ≤ 7 := by
    rw [div_le_iff₀ (by have : (0 : ℝ) < bd.1 := by linarith
                        positivity)]
    nlinarith
  norm_num
  linarith

/-- C96, given internal energy.  The same with 10 parts in a million. -/
theorem C96_given_energy (f : File) (hf : f ∈ shipped) (E : Env) (S : Sys) (hU : Uses E S)
    (varg : List (Val ℝ)) (kw : Kw) (b : String) (ve vb : Val ℝ) (h : Supplies varg kw "e" ve b vb)
    (hq : Silent E f.gas varg kw) (es : List Nan) (hes : mE E f.gas varg kw = .ok es) (i : Nat)
    (hi : i < es.length) : ∃ x y, nth (Val.elems ve) i = some x ∧ es[i]? = some (some y) ∧
      |y - x| ≤ 1e-5 * |x| + |inUnits E.a S f.gas.mw .energy (if f.id = "ig.Rb" then 300 else 30)| := by
  obtain ⟨bd, hb⟩ := shipped_checked f hf
  have hmw := gas_mw_pos hb
  have hR0 : 0 < Ru := Shipped.Ru_pos
  obtain ⟨x, y, e1, e2, e3⟩ := C30_given_energy E S hU f.gas hmw.ne' (limits_le hb) _ _ _
    (regular_e hb) varg kw b ve vb h hq es hes i hi
  refine ⟨x, y, e1, e2, e3.trans (add_le_add ?_ (jumps_le hb E S))⟩
  refine mul_le_mul_of_nonneg_right ?_ (abs_nonneg _)
  obtain ⟨n1, -, n3, -⟩ := check_nums hb
  have n1 : (233 : ℝ) ≤ bd.1 := by exact_mod_cast n1
  have n3 : (bd.2 : ℝ) + 800 ≤ 9 * bd.1 := by exact_mod_cast n3
  have : ((bd.2 : ℝ) - 100) / 100 * Ru / (((bd.1 : ℝ) - 100) / 100 * Ru) ≤ 9 := by
    rw [div_le_iff₀ (by have : (0 : ℝ) < (bd.1 : ℝ) - 100 := by linarith
                        positivity)]
    nlinarith
  norm_num
  linarith

end PyroMat.Shipped.Props
