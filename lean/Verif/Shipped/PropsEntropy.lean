import Verif.Shipped.EntropyGrowth
import Verif.Shipped.PropsRound

/-!
# C103: the entropy of the shipped ideal gases
-/

set_option linter.unusedSimpArgs false

namespace PyroMat.Shipped

open PyroMat PyroMat.Units PyroMat.Units.Spec PyroMat.Units.Props PyroMat.Gas PyroMat.Gas.Spec
  PyroMat.Gas.Props

variable {f : File} {b : Nat × Nat}

/-- Entropies at two temperatures. -/
theorem s_apart (hf : f ∈ shipped) (h : check f b = true) (x x' : ℝ) (h1 : f.gas.Tlo ≤ x) (h2 : x ≤ f.gas.Thi)
    (h3 : f.gas.Tlo ≤ x') (h4 : x' ≤ f.gas.Thi) :
    ∃ y y' c c', f.gas.s x = some (y, c) ∧ f.gas.s x' = some (y', c') ∧
      (b.1 : ℝ) / 100 * Ru * |Real.log x - Real.log x'| - 0.08 ≤ |y - y'| ∧
      |y - y'| ≤ (b.2 : ℝ) / 100 * Ru * |Real.log x - Real.log x'| + 0.08 ∧
      |y - Ru * Real.log x - (y' - Ru * Real.log x')|
        ≤ ((b.2 : ℝ) - 100) / 100 * Ru * |Real.log x - Real.log x'| + 0.08 := by
  have hb := b_le h
  have h233 : (233 : ℝ) ≤ b.1 := by exact_mod_cast (check_nums h).1
  have hR : 0 < Ru := Shipped.Ru_pos
  have key : ∀ x y : ℝ, f.gas.Tlo ≤ x → x ≤ y → y ≤ f.gas.Thi →
      ∃ hx hy cx cy, f.gas.s x = some (hx, cx) ∧ f.gas.s y = some (hy, cy) ∧
        (b.1 : ℝ) / 100 * Ru * |Real.log y - Real.log x| - 0.08 ≤ |hy - hx| ∧
        |hy - hx| ≤ (b.2 : ℝ) / 100 * Ru * |Real.log y - Real.log x| + 0.08 ∧
        |hy - Ru * Real.log y - (hx - Ru * Real.log x)|
          ≤ ((b.2 : ℝ) - 100) / 100 * Ru * |Real.log y - Real.log x| + 0.08 := by
    intro x y g1 g2 g3
    obtain ⟨hx, hy, cx, cy, e1, e2, l, u⟩ := s_growth hf h x y g1 g2 g3
    have x0 : 0 < x := by linarith [(s_size hf h x g1 (g2.trans g3)).1]
    have hyx : 0 ≤ Real.log y - Real.log x := by linarith [Real.log_le_log x0 g2]
    have q : 0 ≤ Ru * (Real.log y - Real.log x) := by positivity
    refine ⟨hx, hy, cx, cy, e1, e2, ?_, ?_, ?_⟩
    · rw [abs_of_nonneg hyx]; exact l.trans (le_abs_self _)
    · rw [abs_of_nonneg hyx, abs_le]
      refine ⟨?_, u⟩
      nlinarith
    · rw [abs_of_nonneg hyx, abs_le]
      constructor <;> nlinarith
  rcases le_total x x' with hxx | hxx
  · obtain ⟨y, y', c, c', e1, e2, l, u, v⟩ := key x x' h1 hxx h4
    refine ⟨y, y', c, c', e1, e2, ?_, ?_, ?_⟩
    · rw [abs_sub_comm (Real.log x), abs_sub_comm y y']; exact l
    · rw [abs_sub_comm (Real.log x), abs_sub_comm y y']; exact u
    · rw [abs_sub_comm (Real.log x), abs_sub_comm]; exact v
  · obtain ⟨y', y, c', c, e1, e2, l, u, v⟩ := key x' x h3 hxx h2
    exact ⟨y, y', c, c', e2, e1, l, u, v⟩

theorem lo_le (hf : f ∈ shipped) (h : check f b = true) : 200 ≤ f.gas.Tlo :=
  (s_size hf h f.gas.Tlo le_rfl (limits_le h)).1

theorem regular_s (hf : f ∈ shipped) (h : check f b = true) :
    LogRegular f.gas.s f.gas.Tlo f.gas.Thi ((b.1 : ℝ) / 100 * Ru) ((b.2 : ℝ) / 100 * Ru) 0.08 13000 where
  lo_pos := by linarith [lo_le hf h]
  m_pos := by
    have : (233 : ℝ) ≤ b.1 := by exact_mod_cast (check_nums h).1
    have hR : 0 < Ru := Shipped.Ru_pos
    have : (0 : ℝ) < b.1 := by linarith
    positivity
  M_nonneg := by
    have hR : 0 < Ru := Shipped.Ru_pos
    positivity
  J_nonneg := by norm_num
  slope := by
    intro x h1 h2
    obtain ⟨q1, -, s, cp, e, hs, l, -⟩ := s_size hf h x h1 h2
    have x0 : 0 < x := by linarith
    exact ⟨_, _, e, (div_le_div_of_nonneg_right l x0.le).trans (le_abs_self _), hs⟩
  lipschitz := by
    intro x x' y y' h1 h2 h3 h4 e1 e2
    obtain ⟨z, z', c, c', g1, g2, -, hl, -⟩ := s_apart hf h x x' h1 h2 h3 h4
    rw [g1] at e1
    rw [g2] at e2
    simp only [Option.map_some, Option.some.injEq] at e1 e2
    rw [← e1, ← e2]
    exact hl

/-- The reference pressures of the shipped files are between 0.1 and 10 bar. -/
def prefOk (f : File) : Bool :=
  match f.pref with
  | none => true
  | some d => Nat.ble (10 ^ 4 * 10 ^ d.e) d.m.toNat && Nat.ble d.m.toNat (10 ^ 6 * 10 ^ d.e)

theorem shipped_prefOk : (shipped.all prefOk) = true := by decide +kernel

theorem gas_pref (f : File) : f.gas.pref = 1e5 ∨ f.gas.pref = f.data.pref := by
  unfold File.gas
  cases f.cls
  · exact Or.inl rfl
  · exact Or.inr rfl

theorem pref_bounds (hf : f ∈ shipped) : 10 ^ 4 ≤ f.gas.pref ∧ f.gas.pref ≤ 10 ^ 6 := by
  have h := List.all_eq_true.mp shipped_prefOk f hf
  rcases gas_pref f with e | e
  · rw [e]; constructor <;> norm_num
  rw [e]
  simp only [prefOk, File.data] at h ⊢
  cases hp : f.pref with
  | none => constructor <;> norm_num
  | some d =>
    rw [hp] at h
    simp only [Bool.and_eq_true] at h
    have h1 := Nat.le_of_ble_eq_true h.1
    have h2 := Nat.le_of_ble_eq_true h.2
    have p : 0 < d.m.toNat := lt_of_lt_of_le (by positivity) h1
    have hm : ((d.m.toNat : ℕ) : ℝ) = (d.m : ℝ) := by
      have : (d.m.toNat : ℤ) = d.m := Int.toNat_of_nonneg (by omega)
      exact_mod_cast this
    have h1 : ((10 ^ 4 * 10 ^ d.e : ℕ) : ℝ) ≤ (d.m.toNat : ℕ) := by exact_mod_cast h1
    have h2 : ((d.m.toNat : ℕ) : ℝ) ≤ ((10 ^ 6 * 10 ^ d.e : ℕ) : ℝ) := by exact_mod_cast h2
    rw [hm] at h1 h2
    push_cast at h1 h2
    simp only [Option.map_some, Option.getD_some, Dec.val]
    rw [le_div_iff₀ (by positivity), div_le_iff₀ (by positivity)]
    norm_num at h1 h2 ⊢
    exact ⟨h1, h2⟩

theorem regular_sd (hf : f ∈ shipped) (h : check f b = true) (d : ℝ) (d1 : 1e-30 ≤ d) (d2 : d ≤ 1e30) :
    LogRegular (f.gas.sditer d) f.gas.Tlo f.gas.Thi (((b.1 : ℝ) - 100) / 100 * Ru) (((b.2 : ℝ) - 100) / 100 * Ru)
      0.08 14000 where
  lo_pos := by linarith [lo_le hf h]
  m_pos := by
    have : (233 : ℝ) ≤ b.1 := by exact_mod_cast (check_nums h).1
    have hR : 0 < Ru := Shipped.Ru_pos
    have : (0 : ℝ) < (b.1 : ℝ) - 100 := by linarith
    positivity
  M_nonneg := by
    have hb := b_le h
    have : (233 : ℝ) ≤ b.1 := by exact_mod_cast (check_nums h).1
    have hR : 0 < Ru := Shipped.Ru_pos
    have : (0 : ℝ) < (b.2 : ℝ) - 100 := by linarith
    positivity
  J_nonneg := by norm_num
  slope := by
    intro x h1 h2
    obtain ⟨q1, q2, s, cp, e, hs, l, -⟩ := s_size hf h x h1 h2
    have x0 : 0 < x := by linarith
    have d0 : 0 < d := lt_of_lt_of_le (by norm_num) d1
    obtain ⟨p1, p2⟩ := pref_bounds hf
    have p0 : 0 < f.gas.pref := lt_of_lt_of_le (by norm_num) p1
    refine ⟨_, _, by simp only [Gas.sditer, e, Option.map_some]; rfl, ?_, ?_⟩
    · refine le_trans ?_ (le_abs_self _)
      rw [← sub_div]
      exact div_le_div_of_nonneg_right (by linarith) x0.le
    · have hR : 0 < Ru := Shipped.Ru_pos
      have e2 : Real.log (d * (1000 * Ru) * x / f.gas.pref)
          = Real.log d + Real.log (1000 * Ru * x / f.gas.pref) := by
        rw [← Real.log_mul d0.ne' (by positivity)]
        congr 1
        ring
      have l1 : |Real.log (1000 * Ru * x / f.gas.pref)| ≤ 9 := by
        refine log_le_nine ?_ ?_
        · rw [le_div_iff₀ p0, Ru_val]
          norm_num at p2 ⊢
          linarith
        · rw [div_le_iff₀ p0, Ru_val]
          norm_num at p1 ⊢
          linarith
      have l2 : |Real.log d| ≤ 84 := by
        have u2 := Real.log_two_lt_d9
        rw [abs_le]
        constructor
        · have : Real.log (1 / (2 ^ 4) ^ 30) ≤ Real.log d := Real.log_le_log (by norm_num) (le_trans (by norm_num) d1)
          rw [Real.log_div (by norm_num) (by norm_num), Real.log_one, Real.log_pow, Real.log_pow] at this
          norm_num at this
          linarith
        · have : Real.log d ≤ Real.log ((2 ^ 4) ^ 30) := Real.log_le_log d0 (d2.trans (by norm_num))
          rw [Real.log_pow, Real.log_pow] at this
          norm_num at this
          linarith
      rw [e2]
      have t1 := abs_sub s (Ru * (Real.log d + Real.log (1000 * Ru * x / f.gas.pref)))
      have t2 := abs_add_le (Real.log d) (Real.log (1000 * Ru * x / f.gas.pref))
      rw [abs_mul, abs_of_pos hR] at t1
      have t3 : Ru * |Real.log d + Real.log (1000 * Ru * x / f.gas.pref)| ≤ 9 * 93 :=
        mul_le_mul (by rw [Ru_val]; norm_num) (by linarith) (abs_nonneg _) (by norm_num)
      linarith
  lipschitz := by
    intro x x' y y' h1 h2 h3 h4 e1 e2
    obtain ⟨z, z', c, c', g1, g2, -, -, hl⟩ := s_apart hf h x x' h1 h2 h3 h4
    have d0 : 0 < d := lt_of_lt_of_le (by norm_num) d1
    have p0 : 0 < f.gas.pref := lt_of_lt_of_le (by norm_num) (pref_bounds hf).1
    have hR : 0 < Ru := Shipped.Ru_pos
    have x0 : 0 < x := by linarith [lo_le hf h]
    have x0' : 0 < x' := by linarith [lo_le hf h]
    have sp : ∀ x : ℝ, 0 < x → Real.log (d * (1000 * Ru) * x / f.gas.pref)
        = Real.log (d * (1000 * Ru) / f.gas.pref) + Real.log x := by
      intro x hx
      rw [← Real.log_mul (by positivity) hx.ne']
      congr 1
      ring
    simp only [Gas.sditer, g1, g2, Option.map_some, Option.some.injEq] at e1 e2
    rw [← e1, ← e2, sp x x0, sp x' x0']
    refine le_trans (le_of_eq ?_) hl
    congr 1
    ring

theorem inverts_s (hf : f ∈ shipped) (h : check f b = true) :
    Inverts f.gas.s f.gas.Tlo f.gas.Thi 8.1 0.08 := by
  obtain ⟨n1, n2, -, -⟩ := check_nums h
  have n1 : (233 : ℝ) ≤ b.1 := by exact_mod_cast n1
  have n2 : (b.2 : ℝ) ≤ 7 * b.1 := by exact_mod_cast n2
  have hR : 0 < Ru := Shipped.Ru_pos
  have b0 : (0 : ℝ) < b.1 := by linarith
  intro y v hy
  obtain ⟨t, z, e1, e2, e3, e4, e5⟩ := inverts_log (limits_le h) (regular_s hf h) 0.001 (by norm_num) (by
    have : (2.33 : ℝ) * 8.31446261815324 ≤ (b.1 : ℝ) / 100 * Ru := by
      rw [Ru_val]; norm_num; linarith
    norm_num at this ⊢
    linarith) y v hy
  refine ⟨t, z, e1, e2, e3, e4, e5.trans (add_le_add (mul_le_mul_of_nonneg_right ?_ (by positivity)) le_rfl)⟩
  have : (b.2 : ℝ) / 100 * Ru / ((b.1 : ℝ) / 100 * Ru) ≤ 7 := by
    rw [div_le_iff₀ (by positivity)]
    nlinarith
  norm_num at this ⊢
  linarith

theorem inverts_sd (hf : f ∈ shipped) (h : check f b = true) (d : ℝ) (d1 : 1e-30 ≤ d) (d2 : d ≤ 1e30) :
    Inverts (f.gas.sditer d) f.gas.Tlo f.gas.Thi 10.1 0.08 := by
  obtain ⟨n1, -, n3, -⟩ := check_nums h
  have n1 : (233 : ℝ) ≤ b.1 := by exact_mod_cast n1
  have n3 : (b.2 : ℝ) + 800 ≤ 9 * b.1 := by exact_mod_cast n3
  have hR : 0 < Ru := Shipped.Ru_pos
  have b0 : (0 : ℝ) < (b.1 : ℝ) - 100 := by linarith
  intro y v hy
  obtain ⟨t, z, e1, e2, e3, e4, e5⟩ := inverts_log (limits_le h) (regular_sd hf h d d1 d2) 0.002 (by norm_num) (by
    have : (1.33 : ℝ) * 8.31446261815324 ≤ ((b.1 : ℝ) - 100) / 100 * Ru := by
      rw [Ru_val]; norm_num; linarith
    norm_num at this ⊢
    linarith) y v hy
  refine ⟨t, z, e1, e2, e3, e4, e5.trans (add_le_add (mul_le_mul_of_nonneg_right ?_ (by positivity)) le_rfl)⟩
  have : ((b.2 : ℝ) - 100) / 100 * Ru / (((b.1 : ℝ) - 100) / 100 * Ru) ≤ 9 := by
    rw [div_le_iff₀ (by positivity)]
    nlinarith
  norm_num at this ⊢
  linarith

namespace Props

/-- C103, growth.  For every shipped gas and in every unit system, the entropy at a fixed pressure rises with
temperature by at least `2.33 R` times the logarithm of the ratio of the absolute temperatures, except for falls
at the limits between pieces of the fit that come to less than 0.08 kJ/kmol/K in all. -/
theorem C103_growth (f : File) (hf : f ∈ shipped) (E : Env) (S : Sys) (hU : Uses E S) (t t' p : ℝ)
    (h1 : f.gas.Tlo ≤ toKelvin S.T.name t) (hl : toKelvin S.T.name t ≤ toKelvin S.T.name t')
    (h2 : toKelvin S.T.name t' ≤ f.gas.Thi) :
    ∃ R x x', mR E f.gas = .ok R ∧ 0 < R ∧ mS E f.gas [.scalar t, .scalar p] [] = .ok [some x] ∧
      mS E f.gas [.scalar t', .scalar p] [] = .ok [some x'] ∧
      2.33 * R * Real.log (toKelvin S.T.name t' / toKelvin S.T.name t) - |inUnits E.a S f.gas.mw .entropy 0.08|
        ≤ x' - x := by
  obtain ⟨bd, hb⟩ := shipped_checked f hf
  have hmw := gas_mw_pos hb
  have hR0 : 0 < Ru := Shipped.Ru_pos
  have hk : Kind.entropy ≠ .temperature := by simp
  have hp := entropy_pos hU hmw
  obtain ⟨s, s', c, c', e1, e2, l, -⟩ := s_growth hf hb _ _ h1 hl h2
  have m1 := method_Tp hU hmw.ne' t p h1 (hl.trans h2) .s
  have m2 := method_Tp hU hmw.ne' t' p (h1.trans hl) h2 .s
  simp only [value, Gas.sI, e1, e2, Option.bind_some, Option.map_some] at m1 m2
  refine ⟨_, _, _, mR_eq hU hmw.ne', ?_, m1, m2, ?_⟩
  · rw [← inUnits_mul E.a S _ hk]; exact mul_pos hR0 hp
  · have x0 : 0 < toKelvin S.T.name t := by linarith [lo_le hf hb]
    have x1 : 0 < toKelvin S.T.name t' := x0.trans_le hl
    have hlog := Real.log_le_log x0 hl
    have n1 : (233 : ℝ) ≤ bd.1 := by exact_mod_cast (check_nums hb).1
    rw [Real.log_div x1.ne' x0.ne', inUnits_sub E.a S _ hk, ← inUnits_mul E.a S _ hk Ru, ← inUnits_mul E.a S _ hk 0.08,
      abs_of_nonneg (mul_nonneg (by norm_num) hp.le)]
    have : 2.33 * Ru * (Real.log (toKelvin S.T.name t') - Real.log (toKelvin S.T.name t))
        ≤ (bd.1 : ℝ) / 100 * Ru * (Real.log (toKelvin S.T.name t') - Real.log (toKelvin S.T.name t)) := by
      refine mul_le_mul_of_nonneg_right (mul_le_mul_of_nonneg_right ?_ hR0.le) (by linarith)
      norm_num; linarith
    have key : 2.33 * Ru * (Real.log (toKelvin S.T.name t') - Real.log (toKelvin S.T.name t)) - 0.08 ≤ s' - s := by linarith
    have := mul_le_mul_of_nonneg_right key hp.le
    norm_num at this ⊢
    linarith

/-- C103, given entropy and pressure.  For every shipped gas, in every unit system: when a call with an entropy and
a pressure prints no warning, `s()` returns the entropy given within 8.1 parts in a million of the entropy
referred to the reference pressure, plus the steps between the pieces of the fit (0.08 kJ/kmol/K).  Not covered, as
in C30: one entropy with several pressures. -/
theorem C103_given_entropy_pressure_partial (f : File) (hf : f ∈ shipped) (E : Env) (S : Sys) (hU : Uses E S)
    (varg : List (Val ℝ)) (kw : Kw) (vs vp : Val ℝ) (h : Supplies varg kw "s" vs "p" vp)
    (hone : (Val.elems vs).length ≠ 1 ∨ (Val.elems vp).length ≤ 1)
    (hq : Silent E f.gas varg kw) (R : ℝ) (hRu : mR E f.gas = .ok R) (ss : List Nan)
    (hss : mS E f.gas varg kw = .ok ss) (i : Nat) (hi : i < ss.length) :
    ∃ x p y, nth (Val.elems vs) i = some x ∧ nth (Val.elems vp) i = some p ∧ ss[i]? = some (some y) ∧
      |y - x| ≤ 8.1e-6 * |x + R * Real.log (internal E.a S f.gas.mw .pressure p / f.gas.pref)|
        + |inUnits E.a S f.gas.mw .entropy 0.08| := by
  obtain ⟨bd, hb⟩ := shipped_checked f hf
  have hmw := gas_mw_pos hb
  obtain ⟨x, p, y, e1, e2, e3, e4⟩ := given_entropy_pressure E S hU f.gas hmw.ne' 8.1 0.08 (by norm_num)
    (inverts_s hf hb) varg kw vs vp h hone hq R hRu ss hss i hi
  refine ⟨x, p, y, e1, e2, e3, e4.trans (le_of_eq ?_)⟩
  norm_num

/-- C103, given entropy and density.  The same with 10.1 parts in a million of the entropy given, for densities
between `1e-30` and `1e30` kmol/m³. -/
theorem C103_given_entropy_density (f : File) (hf : f ∈ shipped) (E : Env) (S : Sys) (hU : Uses E S)
    (varg : List (Val ℝ)) (kw : Kw) (vs vd : Val ℝ) (h : Supplies varg kw "s" vs "d" vd)
    (hd : ∀ d ∈ Val.elems vd, 1e-30 ≤ internal E.a S f.gas.mw .density d ∧ internal E.a S f.gas.mw .density d ≤ 1e30)
    (hq : Silent E f.gas varg kw) (ss : List Nan)
    (hss : mS E f.gas varg kw = .ok ss) (i : Nat) (hi : i < ss.length) :
    ∃ x y, nth (Val.elems vs) i = some x ∧ ss[i]? = some (some y) ∧
      |y - x| ≤ 1.01e-5 * |x| + |inUnits E.a S f.gas.mw .entropy 0.08| := by
  obtain ⟨bd, hb⟩ := shipped_checked f hf
  have hmw := gas_mw_pos hb
  obtain ⟨x, y, e1, e2, e3⟩ := given_entropy_density E S hU f.gas hmw.ne' 10.1 0.08 (by norm_num)
    varg kw vs vd h (by
      intro d hd'
      obtain ⟨d0, hd0, rfl⟩ := List.mem_map.mp hd'
      exact inverts_sd hf hb _ (hd d0 hd0).1 (hd d0 hd0).2) hq ss hss i hi
  refine ⟨x, y, e1, e2, e3.trans (le_of_eq ?_)⟩
  norm_num

/-- C103, temperatures from entropies.  For every shipped gas and in every unit system: when the entropy given is what
`s()` returns at the temperature `t0` and the pressure given, and the call prints no warning, the temperature
returned is `t0` but for a factor whose logarithm, times `2.33 R`, is at most 8.1 parts in a million of the entropy
at the reference pressure and two steps between pieces of the fit (0.16 kJ/kmol/K). -/
theorem C103_temperature_from_entropy_partial (f : File) (hf : f ∈ shipped) (E : Env) (S : Sys) (hU : Uses E S)
    (varg : List (Val ℝ)) (kw : Kw) (vs vp : Val ℝ) (h : Supplies varg kw "s" vs "p" vp)
    (hone : (Val.elems vs).length ≠ 1 ∨ (Val.elems vp).length ≤ 1)
    (hq : Silent E f.gas varg kw) (i : Nat) (t : ℝ) (ht : Gives E f.gas varg kw .T i t)
    (t0 p0 x : ℝ) (hx : nth (Val.elems vs) i = some x) (hp0 : nth (Val.elems vp) i = some p0)
    (h0 : mS E f.gas [.scalar t0, .scalar p0] [] = .ok [some x]) :
    ∃ R, mR E f.gas = .ok R ∧ 0 < R ∧
      2.33 * R * |Real.log (toKelvin S.T.name t / toKelvin S.T.name t0)|
        ≤ 8.1e-6 * |x + R * Real.log (internal E.a S f.gas.mw .pressure p0 / f.gas.pref)|
          + 2 * |inUnits E.a S f.gas.mw .entropy 0.08| := by
  obtain ⟨bd, hb⟩ := shipped_checked f hf
  have hmw := gas_mw_pos hb
  have hR0 : 0 < Ru := Shipped.Ru_pos
  have hk : Kind.entropy ≠ .temperature := by simp
  have hp := entropy_pos hU hmw
  have r0 : f.gas.Tlo ≤ toKelvin S.T.name t0 ∧ toKelvin S.T.name t0 ≤ f.gas.Thi := by
    by_contra hc
    have : toKelvin S.T.name t0 < f.gas.Tlo ∨ f.gas.Thi < toKelvin S.T.name t0 := by
      by_contra hc'
      push Not at hc'
      exact hc hc'
    have := (C34_limits E S hU f.gas hmw.ne' .s t0 p0).mpr this
    rw [show method .s E f.gas [.scalar t0, .scalar p0] [] = mS E f.gas [.scalar t0, .scalar p0] [] from rfl, h0] at this
    cases this
  have hm0 := method_Tp hU hmw.ne' t0 p0 r0.1 r0.2 .s
  rw [show method .s E f.gas [.scalar t0, .scalar p0] [] = mS E f.gas [.scalar t0, .scalar p0] [] from rfl, h0] at hm0
  simp only [value, Except.ok.injEq, List.cons.injEq, and_true] at hm0
  obtain ⟨Ts, hTs, hti⟩ := ht
  obtain ⟨st, T, P, D', hst, hg, hr, hval, hall⟩ := same_row hU hmw.ne' h hTs hti
  have vT := hval .T _ _ hTs hti
  obtain ⟨ss, hss, hlen⟩ := hall .s
  have hi : i < ss.length := by
    rw [hlen]
    exact (List.getElem?_eq_some_iff.mp hti).1
  have hRu := mR_eq hU hmw.ne'
  obtain ⟨x', p', y, hx', hp', hy, hacc⟩ :=
    C103_given_entropy_pressure_partial f hf E S hU varg kw vs vp h hone hq _ hRu ss hss i hi
  rw [hx] at hx'; cases hx'
  rw [hp0] at hp'; cases hp'
  have vs' := hval .s _ _ hss hy
  simp only [value] at vT vs'
  cases T with
  | none => simp at vT
  | some T0 =>
    obtain ⟨r1, r2⟩ := hg.range T0 (List.mem_of_getElem? hr.1)
    obtain ⟨z, z', c, c', g1, g2, g3, -, -⟩ := s_apart hf hb T0 (toKelvin S.T.name t0) r1 r2 r0.1 r0.2
    -- the pressure of the state is the one given
    obtain ⟨ps, hps, hplen⟩ := hall .p
    have hpi : i < ps.length := by rw [hplen]; exact (List.getElem?_eq_some_iff.mp hti).1
    obtain ⟨p1, hp1, hp2⟩ := C30_given_pressure E S hU f.gas hmw.ne' varg kw "s" vp vs (supplies_symm h) ps hps i hpi
    rw [hp0] at hp1; cases hp1
    have vp' := hval .p _ _ hps hp2
    simp only [value] at vp'
    have eP : P = some (internal E.a S f.gas.mw .pressure p0) := by
      cases P with
      | none => simp at vp'
      | some P0 =>
        simp only [Option.map_some, Option.some.injEq] at vp'
        rw [vp', internal_inUnits hU hmw.ne']
    subst eP
    simp only [Gas.sI, g1, g2, Option.map_some, Option.bind_some, Option.some.injEq] at vT vs' hm0
    have eT : toKelvin S.T.name t = T0 := by
      rw [vT]; exact to_from S.T T0
    refine ⟨_, hRu, ?_, ?_⟩
    · rw [← inUnits_mul E.a S _ hk]; exact mul_pos hR0 hp
    · have x0 : 0 < T0 := by linarith [lo_le hf hb]
      have x1 : 0 < toKelvin S.T.name t0 := by linarith [lo_le hf hb]
      have e2 : |y - x| = |z - z'| * inUnits E.a S f.gas.mw .entropy 1 := by
        rw [vs', hm0, inUnits_sub E.a S _ hk, abs_mul, abs_of_pos hp]
        congr 2
        simp only [internal]
        ring
      have hj : 0.08 * inUnits E.a S f.gas.mw .entropy 1 = |inUnits E.a S f.gas.mw .entropy 0.08| := by
        rw [← inUnits_mul E.a S _ hk 0.08, abs_of_nonneg (mul_nonneg (by norm_num) hp.le)]
      have n1 : (233 : ℝ) ≤ bd.1 := by exact_mod_cast (check_nums hb).1
      rw [eT, Real.log_div x0.ne' x1.ne']
      have l1 : 2.33 * (Ru * |Real.log T0 - Real.log (toKelvin S.T.name t0)|) ≤ |z - z'| + 0.08 := by
        have : 2.33 * (Ru * |Real.log T0 - Real.log (toKelvin S.T.name t0)|)
            ≤ (bd.1 : ℝ) / 100 * Ru * |Real.log T0 - Real.log (toKelvin S.T.name t0)| := by
          rw [mul_assoc]
          refine mul_le_mul_of_nonneg_right ?_ (by positivity)
          norm_num; linarith
        linarith
      have l2 := mul_le_mul_of_nonneg_right l1 hp.le
      rw [add_mul, ← e2, hj] at l2
      have e3 : inUnits E.a S f.gas.mw .entropy Ru = Ru * inUnits E.a S f.gas.mw .entropy 1 :=
        (inUnits_mul E.a S _ hk Ru).symm
      rw [e3] at hacc ⊢
      have e4 : 2.33 * (Ru * inUnits E.a S f.gas.mw .entropy 1) * |Real.log T0 - Real.log (toKelvin S.T.name t0)|
          = 2.33 * (Ru * |Real.log T0 - Real.log (toKelvin S.T.name t0)|) * inUnits E.a S f.gas.mw .entropy 1 := by ring
      rw [e4]
      linarith

end Props

end PyroMat.Shipped
