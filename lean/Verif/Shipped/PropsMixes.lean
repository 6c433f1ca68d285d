import Verif.Gas.PropsMixture
import Verif.Shipped.Distinct
import Verif.Shipped.PropsGas

/-!
# C100: mixtures of the ideal gases that come with the package

The mixtures of class `igmix` in general, made of shipped gases, and the three that come with the package
(`/repo/src/pyromat/data/igmix/*.hpd`).
-/

set_option linter.unusedSimpArgs false

namespace PyroMat.Shipped

open PyroMat PyroMat.Gas PyroMat.Gas.Mix

/-- What `_bootstrap` reads of a file of class `igmix`. -/
structure MixFile where
  id : String
  bymass : Bool
  contents : List (String × Dec)

open Dec in
/-- `/repo/src/pyromat/data/igmix/air.hpd`. -/
def air : MixFile := ⟨"ig.air", false,
  [("ig.Ar", p 935 3), ("ig.CO2", p 314 4), ("ig.N2", p 78084 3), ("ig.O2", p 209476 4)]⟩

open Dec in
/-- `/repo/src/pyromat/data/igmix/f5.hpd`. -/
def f5 : MixFile := ⟨"ig.f5", false, [("ig.H2", p 50 1), ("ig.N2", p 950 1)]⟩

open Dec in
/-- `/repo/src/pyromat/data/igmix/h35.hpd`. -/
def h35 : MixFile := ⟨"ig.h35", false, [("ig.Ar", p 650 1), ("ig.H2", p 350 1)]⟩

/-- All files of class `igmix`. -/
def shippedMix : List MixFile := [air, f5, h35]

/-- The entry as the loaded object has it. -/
noncomputable def MixFile.entry (m : MixFile) : Entry :=
  ⟨m.contents.map fun c => (c.1, c.2.val), m.bymass⟩

/-- The ideal gases as loaded: `pm.dat.data` restricted to the files of class `ig` and `ig2`. -/
noncomputable def loaded : Coll := fun name =>
  (shipped.find? fun f => f.id == name).map fun f =>
    .gas f.gas (some (f.atoms.map fun a => (a.1, (a.2 : ℝ))))

end PyroMat.Shipped

namespace PyroMat.Shipped.Props

open PyroMat PyroMat.Units PyroMat.Units.Spec PyroMat.Units.Props PyroMat.Gas PyroMat.Gas.Spec
  PyroMat.Gas.Props PyroMat.Gas.Mix PyroMat.Shipped

/-- Every constituent is a shipped gas. -/
def OfShipped (cs : List Comp) : Prop := ∀ c ∈ cs, ∃ f ∈ shipped, c.gas = f.gas

section

variable {coll : Coll} {D : Entry} {cs : List Comp}

/-- The bounds of the constituents. -/
theorem comp_bounds (hc : OfShipped cs) : ∃ (m M J : Comp → ℝ), ∀ c ∈ cs,
    Coherent c.gas ∧ 233 ≤ m c ∧ m c ≤ M c ∧ M c ≤ 7 * m c ∧ M c - 100 ≤ 9 * (m c - 100) ∧ 0 ≤ J c ∧ J c ≤ 300 ∧
    (∀ T, c.gas.Tlo ≤ T → T ≤ c.gas.Thi →
      ∃ cp, c.gas.cp T = some cp ∧ m c / 100 * Ru ≤ cp ∧ cp ≤ M c / 100 * Ru) ∧
    ∀ x x', c.gas.Tlo ≤ x → x ≤ c.gas.Thi → c.gas.Tlo ≤ x' → x' ≤ c.gas.Thi →
      ∃ y y' k k', c.gas.h x = some (y, k) ∧ c.gas.h x' = some (y', k') ∧
        |y - y'| ≤ M c / 100 * Ru * |x - x'| + J c ∧
        |y - Ru * x - (y' - Ru * x')| ≤ (M c - 100) / 100 * Ru * |x - x'| + J c := by
  have : ∀ c : Comp, ∃ r : ℝ × ℝ × ℝ, c ∈ cs →
    Coherent c.gas ∧ 233 ≤ r.1 ∧ r.1 ≤ r.2.1 ∧ r.2.1 ≤ 7 * r.1 ∧ r.2.1 - 100 ≤ 9 * (r.1 - 100) ∧ 0 ≤ r.2.2 ∧ r.2.2 ≤ 300 ∧
    (∀ T, c.gas.Tlo ≤ T → T ≤ c.gas.Thi →
      ∃ cp, c.gas.cp T = some cp ∧ r.1 / 100 * Ru ≤ cp ∧ cp ≤ r.2.1 / 100 * Ru) ∧
    ∀ x x', c.gas.Tlo ≤ x → x ≤ c.gas.Thi → c.gas.Tlo ≤ x' → x' ≤ c.gas.Thi →
      ∃ y y' k k', c.gas.h x = some (y, k) ∧ c.gas.h x' = some (y', k') ∧
        |y - y'| ≤ r.2.1 / 100 * Ru * |x - x'| + r.2.2 ∧
        |y - Ru * x - (y' - Ru * x')| ≤ (r.2.1 - 100) / 100 * Ru * |x - x'| + r.2.2 := by
    intro c
    by_cases h : c ∈ cs
    · obtain ⟨f, hf, e⟩ := hc c h
      obtain ⟨b, hb⟩ := shipped_checked f hf
      obtain ⟨n1, n2, n3, n4⟩ := check_nums hb
      refine ⟨(b.1, b.2, (jumps f.cls f.Tlim f.C : ℕ)), fun _ => ?_⟩
      rw [e]
      dsimp only
      refine ⟨gas_coherent hb, by exact_mod_cast n1, b_le hb, by exact_mod_cast n2, ?_, Nat.cast_nonneg _, ?_,
        cp_bounds hb, ?_⟩
      · have : ((b.2 + 800 : ℕ) : ℝ) ≤ ((9 * b.1 : ℕ) : ℝ) := by exact_mod_cast n3
        push_cast at this
        show (b.2 : ℝ) - 100 ≤ 9 * (b.1 - 100)
        linarith
      · have : jumps f.cls f.Tlim f.C ≤ 300 := n4.trans (by split <;> norm_num)
        exact_mod_cast this
      · intro x x' h1 h2 h3 h4
        obtain ⟨y, y', k, k', e1, e2, -, e3, e4⟩ := lipschitz hb x x' h1 h2 h3 h4
        exact ⟨y, y', k, k', e1, e2, e3, e4⟩
    · exact ⟨(0, 0, 0), fun h' => absurd h' h⟩
  choose r hr using this
  exact ⟨fun c => (r c).1, fun c => (r c).2.1, fun c => (r c).2.2, fun c h => hr c h⟩

theorem abs_sum_le (l : List Comp) (f : Comp → ℝ) : |(l.map f).sum| ≤ (l.map fun c => |f c|).sum := by
  induction l with
  | nil => simp
  | cons c l ih =>
    simp only [List.map_cons, List.sum_cons]
    exact (abs_add_le _ _).trans (add_le_add le_rfl ih)

/-- Bounds of the mixture. -/
theorem mix_bounds (hS : Sound coll D cs) {M : Gas} (hM : IsMixture coll D M) (hc : OfShipped cs) :
    ∃ m K J : ℝ, 233 ≤ m ∧ m ≤ K ∧ K ≤ 7 * m ∧ K - 100 ≤ 9 * (m - 100) ∧ 0 ≤ J ∧ J ≤ 300 ∧
      (∀ T, M.Tlo ≤ T → T ≤ M.Thi →
        ∃ cp y, M.cp T = some cp ∧ M.h T = some (y, cp) ∧ m / 100 * Ru ≤ cp ∧ cp ≤ K / 100 * Ru) ∧
      ∀ x x', M.Tlo ≤ x → x ≤ M.Thi → M.Tlo ≤ x' → x' ≤ M.Thi →
        ∃ y y' k k', M.h x = some (y, k) ∧ M.h x' = some (y', k') ∧
          |y - y'| ≤ K / 100 * Ru * |x - x'| + J ∧
          |y - Ru * x - (y' - Ru * x')| ≤ (K - 100) / 100 * Ru * |x - x'| + J := by
  obtain ⟨m, K, J, hb⟩ := comp_bounds hc
  obtain ⟨-, l1, -, l2, -⟩ := mixture_eq hS hM
  have w0 := moleFrac_pos hS
  have w1 := moleFrac_sum hS
  set w := moleFrac D.bymass cs with hw
  have mean_le : ∀ (u v : Comp → ℝ), (∀ c ∈ cs, u c ≤ v c) →
      (cs.map fun c => w c * u c).sum ≤ (cs.map fun c => w c * v c).sum :=
    fun u v h => sum_le fun c hcs => mul_le_mul_of_nonneg_left (h c hcs) (w0 c hcs).le
  have mean_const : ∀ k : ℝ, (cs.map fun c => w c * k).sum = k := by
    intro k; rw [sum_mul, w1, one_mul]
  have mean_lin : ∀ (u : Comp → ℝ) (k : ℝ), (cs.map fun c => w c * (k * u c)).sum = k * (cs.map fun c => w c * u c).sum := by
    intro u k
    rw [mul_comm, ← sum_mul]
    exact sum_congr fun c _ => by ring
  have mean_sub : ∀ (u : Comp → ℝ) (k : ℝ), (cs.map fun c => w c * (u c - k)).sum = (cs.map fun c => w c * u c).sum - k := by
    intro u k
    rw [← mean_const k, ← sum_sub, mean_const k]
    exact sum_congr fun c _ => by ring
  have coh : ∀ c ∈ cs, Coherent c.gas := fun c h => (hb c h).1
  refine ⟨(cs.map fun c => w c * m c).sum, (cs.map fun c => w c * K c).sum, (cs.map fun c => w c * J c).sum,
    ?_, ?_, ?_, ?_, ?_, ?_, ?_, ?_⟩
  · rw [← mean_const 233]; exact mean_le _ _ fun c h => (hb c h).2.1
  · exact mean_le _ _ fun c h => (hb c h).2.2.1
  · rw [← mean_lin]; exact mean_le _ _ fun c h => (hb c h).2.2.2.1
  · rw [← mean_sub, ← mean_sub, ← mean_lin]; exact mean_le _ _ fun c h => (hb c h).2.2.2.2.1
  · rw [← mean_const 0]; exact mean_le _ _ fun c h => (hb c h).2.2.2.2.2.1
  · rw [← mean_const 300]; exact mean_le _ _ fun c h => (hb c h).2.2.2.2.2.2.1
  · intro T h1 h2
    obtain ⟨h, s, cp, sT, gT, hv, hl⟩ := comp_values hS hM coh h1 h2
    obtain ⟨k1, k2, -, -⟩ := mix_inner hS hM hv
    have hcp : ∀ c ∈ cs, m c / 100 * Ru ≤ cp c ∧ cp c ≤ K c / 100 * Ru := by
      intro c hcs
      obtain ⟨x, e, a, b⟩ := (hb c hcs).2.2.2.2.2.2.2.1 T (hl c hcs).1 (hl c hcs).2
      rw [(hv c hcs).2.1] at e
      cases e
      exact ⟨a, b⟩
    refine ⟨_, _, k2, k1, ?_, ?_⟩
    · have := mean_le _ _ fun c h => (hcp c h).1
      refine le_trans (le_of_eq ?_) this
      rw [div_mul_eq_mul_div, mul_div_assoc, mul_comm, ← mean_lin]
      exact sum_congr fun c _ => by ring
    · have := mean_le _ _ fun c h => (hcp c h).2
      refine le_trans this (le_of_eq ?_)
      rw [div_mul_eq_mul_div, mul_div_assoc, mul_comm, ← mean_lin]
      exact sum_congr fun c _ => by ring
  · intro x x' h1 h2 h3 h4
    obtain ⟨h, s, cp, sT, gT, hv, hl⟩ := comp_values hS hM coh h1 h2
    obtain ⟨h', s', cp', sT', gT', hv', hl'⟩ := comp_values hS hM coh h3 h4
    obtain ⟨k1, -, -, -⟩ := mix_inner hS hM hv
    obtain ⟨k1', -, -, -⟩ := mix_inner hS hM hv'
    have key : ∀ c ∈ cs, |h c - h' c| ≤ K c / 100 * Ru * |x - x'| + J c ∧
        |h c - Ru * x - (h' c - Ru * x')| ≤ (K c - 100) / 100 * Ru * |x - x'| + J c := by
      intro c hcs
      obtain ⟨y, y', k, k', e1, e2, a, b⟩ := (hb c hcs).2.2.2.2.2.2.2.2 x x' (hl c hcs).1 (hl c hcs).2 (hl' c hcs).1 (hl' c hcs).2
      rw [(hv c hcs).1] at e1
      rw [(hv' c hcs).1] at e2
      simp only [Option.some.injEq, Prod.mk.injEq] at e1 e2
      rw [e1.1, e2.1]
      exact ⟨a, b⟩
    refine ⟨_, _, _, _, k1, k1', ?_, ?_⟩
    · rw [← sum_sub]
      refine (abs_sum_le _ _).trans ?_
      have e : (cs.map fun c => |w c * h c - w c * h' c|).sum = (cs.map fun c => w c * |h c - h' c|).sum :=
        sum_congr fun c hcs => by rw [← mul_sub, abs_mul, abs_of_pos (w0 c hcs)]
      rw [e]
      refine (mean_le _ _ fun c hcs => (key c hcs).1).trans (le_of_eq ?_)
      have : (cs.map fun c => w c * (K c / 100 * Ru * |x - x'| + J c)).sum =
          (cs.map fun c => w c * ((1 / 100 * Ru * |x - x'|) * K c)).sum + (cs.map fun c => w c * J c).sum := by
        rw [← List.sum_map_add]
        exact sum_congr fun c _ => by ring
      rw [this, mean_lin]
      ring
    · have e0 : (cs.map fun c => w c * h c).sum - Ru * x - ((cs.map fun c => w c * h' c).sum - Ru * x') =
          (cs.map fun c => w c * (h c - Ru * x - (h' c - Ru * x'))).sum := by
        rw [← mean_sub h, ← mean_sub h', ← sum_sub]
        exact sum_congr fun c _ => by ring
      rw [e0]
      refine (abs_sum_le _ _).trans ?_
      have e : (cs.map fun c => |w c * (h c - Ru * x - (h' c - Ru * x'))|).sum =
          (cs.map fun c => w c * |h c - Ru * x - (h' c - Ru * x')|).sum :=
        sum_congr fun c hcs => by rw [abs_mul, abs_of_pos (w0 c hcs)]
      rw [e]
      refine (mean_le _ _ fun c hcs => (key c hcs).2).trans (le_of_eq ?_)
      have : (cs.map fun c => w c * ((K c - 100) / 100 * Ru * |x - x'| + J c)).sum =
          (cs.map fun c => w c * ((1 / 100 * Ru * |x - x'|) * (K c - 100))).sum + (cs.map fun c => w c * J c).sum := by
        rw [← List.sum_map_add]
        exact sum_congr fun c _ => by ring
      rw [this, mean_lin, mean_sub]
      ring

/-- C100, heat capacities.  For a mixture of any shipped gases in any positive amounts, wherever a call
gives a temperature, `cp` is at least `2.33 R`, `cv` at least `1.33 R` and the specific heat ratio above 1 and
at most 1.752. -/
theorem C100_heat_capacities (hS : Sound coll D cs) (M : Gas) (hM : IsMixture coll D M) (hc : OfShipped cs)
    (E : Env) (S : Sys) (hU : Uses E S) (varg : List (Val ℝ)) (kw : Kw) (a b : String) (va vb : Val ℝ)
    (h : Supplies varg kw a va b vb) (i : Nat) (t : ℝ) (ht : Gives E M varg kw .T i t) :
    ∃ R cp cv gam, mR E M = .ok R ∧ Gives E M varg kw .cp i cp ∧
      Gives E M varg kw .cv i cv ∧ Gives E M varg kw .gam i gam ∧
      0 < R ∧ 2.33 * R ≤ cp ∧ 1.33 * R ≤ cv ∧ 1 < gam ∧ gam ≤ 1.752 := by
  obtain ⟨m, K, J, h233, -, -, -, -, -, hcp, -⟩ := mix_bounds hS hM hc
  have hmw := mix_mw_pos hS hM
  have hR0 : 0 < Ru := Shipped.Ru_pos
  obtain ⟨Ts, hTs, hti⟩ := ht
  obtain ⟨st, T, P, D', hst, hg, hr, hval, hall⟩ := same_row hU hmw.ne' h hTs hti
  have hcnt : varg.length + kw.length ≠ 1 := by rw [supplies_count h]; decide
  have vT := hval .T _ _ hTs hti
  simp only [value] at vT
  cases T with
  | none => simp at vT
  | some T0 =>
    obtain ⟨r1, r2⟩ := hg.range T0 (List.mem_of_getElem? hr.1)
    obtain ⟨cp, y, k, -, l, -⟩ := hcp T0 r1 r2
    have l' : 2.33 * Ru ≤ cp := by
      refine le_trans ?_ l
      exact mul_le_mul_of_nonneg_right (by norm_num; linarith) hR0.le
    have gives : ∀ q y, value E.a S M q (some T0) P D' = some y → Gives E M varg kw q i y := by
      intro q y hy
      obtain ⟨xs, m1, m2, m3⟩ := method_rows hU hmw.ne' hcnt hst hg q
      exact ⟨xs, m1, by rw [m3 i _ _ _ hr, hy]⟩
    have hne : Kind.entropy ≠ .temperature := by simp
    have hp := entropy_pos hU hmw
    refine ⟨_, inUnits E.a S M.mw .entropy cp, inUnits E.a S M.mw .entropy (cp - Ru),
      cp / (cp - Ru), mR_eq hU hmw.ne', gives .cp _ (by simp [value, Gas.cpI, k]),
      gives .cv _ (by simp [value, Gas.cvI, k]), gives .gam _ (by simp [value, Gas.gamI, k]), ?_, ?_, ?_, ?_, ?_⟩
    · rw [← inUnits_mul E.a S _ hne]; positivity
    · rw [← inUnits_mul E.a S _ hne Ru, ← inUnits_mul E.a S _ hne cp, ← mul_assoc]
      exact mul_le_mul_of_nonneg_right l' hp.le
    · rw [← inUnits_mul E.a S _ hne Ru, ← inUnits_mul E.a S _ hne (cp - Ru), ← mul_assoc]
      exact mul_le_mul_of_nonneg_right (by linarith) hp.le
    · rw [lt_div_iff₀ (by linarith)]; linarith
    · rw [div_le_iff₀ (by linarith)]
      norm_num at l' ⊢
      linarith

theorem jump_le {mw J : ℝ} (h0 : 0 ≤ J) (h : J ≤ 300) (E : Env) (S : Sys) :
    |inUnits E.a S mw .energy J| ≤ |inUnits E.a S mw .energy 300| := by
  have hk : Kind.energy ≠ .temperature := by simp
  rw [← inUnits_mul E.a S _ hk, ← inUnits_mul E.a S _ hk 300, abs_mul, abs_mul]
  refine mul_le_mul_of_nonneg_right ?_ (abs_nonneg _)
  rw [abs_of_nonneg h0]
  exact h.trans (le_abs_self _)

/-- The enthalpy of a mixture is regular. -/
theorem mix_regular (hS : Sound coll D cs) {M : Gas} (hM : IsMixture coll D M) (hc : OfShipped cs) :
    ∃ m K J, Regular M.h M.Tlo M.Thi m K J ∧ K ≤ 7 * m ∧ 0 ≤ J ∧ J ≤ 300 := by
  obtain ⟨m, K, J, h233, hmK, h7, -, J0, J1, hcp, hlip⟩ := mix_bounds hS hM hc
  have hR0 : 0 < Ru := Shipped.Ru_pos
  have m0 : 0 < m := by linarith
  have K0 : 0 < K := by linarith
  refine ⟨m / 100 * Ru, K / 100 * Ru, J, ⟨by positivity, by positivity, J0, ?_, ?_⟩, by nlinarith, J0, J1⟩
  · intro x h1 h2
    obtain ⟨cp, y, -, e, l, -⟩ := hcp x h1 h2
    exact ⟨y, cp, e, l.trans (le_abs_self _)⟩
  · intro x x' y y' h1 h2 h3 h4 e1 e2
    obtain ⟨z, z', k, k', g1, g2, g3, -⟩ := hlip x x' h1 h2 h3 h4
    rw [g1] at e1
    rw [g2] at e2
    simp only [Option.map_some, Option.some.injEq] at e1 e2
    rw [← e1, ← e2]
    exact g3

/-- C100, given enthalpy.  For a mixture of any shipped gases with a common temperature range, when a call
with an enthalpy prints no warning, `h()` returns the enthalpy given within 8 parts in a million plus the size
of the steps between the pieces of the fits (300 kJ/kmol). -/
theorem C100_given_enthalpy (hS : Sound coll D cs) (M : Gas) (hM : IsMixture coll D M) (hc : OfShipped cs)
    (hlh : M.Tlo ≤ M.Thi) (E : Env) (S : Sys) (hU : Uses E S)
    (varg : List (Val ℝ)) (kw : Kw) (b : String) (vh vb : Val ℝ) (h : Supplies varg kw "h" vh b vb)
    (hq : Silent E M varg kw) (hs : List Nan) (hhs : mH E M varg kw = .ok hs) (i : Nat)
    (hi : i < hs.length) : ∃ x y, nth (Val.elems vh) i = some x ∧ hs[i]? = some (some y) ∧
      |y - x| ≤ 8e-6 * |x| + |inUnits E.a S M.mw .energy 300| := by
  obtain ⟨m, K, J, reg, h7, J0, J1⟩ := mix_regular hS hM hc
  have hmw := mix_mw_pos hS hM
  obtain ⟨x, y, e1, e2, e3⟩ := C30_given_enthalpy E S hU M hmw.ne' hlh _ _ _ reg varg kw b vh vb h hq hs hhs i hi
  refine ⟨x, y, e1, e2, e3.trans (add_le_add ?_ (jump_le J0 J1 E S))⟩
  refine mul_le_mul_of_nonneg_right ?_ (abs_nonneg _)
  have : K / m ≤ 7 := by
    rw [div_le_iff₀ reg.m_pos]
    exact h7
  norm_num
  linarith

/-- C100, given internal energy.  The same with 10 parts in a million. -/
theorem C100_given_energy (hS : Sound coll D cs) (M : Gas) (hM : IsMixture coll D M) (hc : OfShipped cs)
    (hlh : M.Tlo ≤ M.Thi) (E : Env) (S : Sys) (hU : Uses E S)
    (varg : List (Val ℝ)) (kw : Kw) (b : String) (ve vb : Val ℝ) (h : Supplies varg kw "e" ve b vb)
    (hq : Silent E M varg kw) (es : List Nan) (hes : mE E M varg kw = .ok es) (i : Nat)
    (hi : i < es.length) : ∃ x y, nth (Val.elems ve) i = some x ∧ es[i]? = some (some y) ∧
      |y - x| ≤ 1e-5 * |x| + |inUnits E.a S M.mw .energy 300| := by
  obtain ⟨m, K, J, h233, hmK, -, h9, J0, J1, hcp, hlip⟩ := mix_bounds hS hM hc
  have hmw := mix_mw_pos hS hM
  have hR0 : 0 < Ru := Shipped.Ru_pos
  have m0 : 0 < m - 100 := by linarith
  have K0 : 0 < K - 100 := by linarith
  have reg : Regular M.e M.Tlo M.Thi ((m - 100) / 100 * Ru) ((K - 100) / 100 * Ru) J := by
    refine ⟨by positivity, by positivity, J0, ?_, ?_⟩
    · intro x h1 h2
      obtain ⟨cp, y, -, e, l, -⟩ := hcp x h1 h2
      refine ⟨_, _, by simp only [Gas.e, e, Option.map_some]; rfl, ?_⟩
      refine le_trans ?_ (le_abs_self _)
      linarith
    · intro x x' y y' h1 h2 h3 h4 e1 e2
      obtain ⟨z, z', k, k', g1, g2, -, g3⟩ := hlip x x' h1 h2 h3 h4
      simp only [Gas.e, g1, g2, Option.map_some, Option.some.injEq] at e1 e2
      rw [← e1, ← e2]
      exact g3
  obtain ⟨x, y, e1, e2, e3⟩ := C30_given_energy E S hU M hmw.ne' hlh _ _ _ reg varg kw b ve vb h hq es hes i hi
  refine ⟨x, y, e1, e2, e3.trans (add_le_add ?_ (jump_le J0 J1 E S))⟩
  refine mul_le_mul_of_nonneg_right ?_ (abs_nonneg _)
  have : (K - 100) / 100 * Ru / ((m - 100) / 100 * Ru) ≤ 9 := by
    rw [div_le_iff₀ (by positivity)]
    nlinarith
  norm_num
  linarith

end

/-! ## The shipped mixtures -/

theorem gas_pref {f : File} (h : 0 < f.data.pref) : 0 < f.gas.pref := by
  unfold File.gas
  cases f.cls
  · show (0 : ℝ) < 1e5
    norm_num
  · exact h

/-- The limits of a file read off its numbers. -/
theorem span {f : File} (hf : f ∈ shipped) (e1 : mK (f.Tlim.headD ⟨0, 0⟩) = 200000)
    (e2 : mK (f.Tlim.getLastD ⟨0, 0⟩) = 6000000) : f.gas.Tlo = 200 ∧ f.gas.Thi = 6000 := by
  obtain ⟨b, hb⟩ := shipped_checked f hf
  have hok := walk_ok _ _ _ _ _ (check_walk hb)
  have hne : f.Tlim ≠ [] := by
    intro hc
    have := walk_length _ _ _ _ _ (check_walk hb)
    rw [hc] at this; simp at this
  have h1 : f.gas.Tlo = (f.Tlim.headD ⟨0, 0⟩).val := by
    rw [gas_Tlo]
    cases hl : f.Tlim with
    | nil => exact absurd hl hne
    | cons t ts => simp [File.data, hl]
  have h2 : f.gas.Thi = (f.Tlim.getLastD ⟨0, 0⟩).val := by
    rw [gas_Thi]
    simp only [File.data, List.getLastD_eq_getLast?, List.getLast?_map]
    cases hl : f.Tlim.getLast? with
    | none => rw [List.getLast?_eq_none_iff] at hl; exact absurd hl hne
    | some t => simp
  have m1 : f.Tlim.headD ⟨0, 0⟩ ∈ f.Tlim := by
    cases hl : f.Tlim with
    | nil => exact absurd hl hne
    | cons t ts => simp
  have m2 : f.Tlim.getLastD ⟨0, 0⟩ ∈ f.Tlim := by
    rw [List.getLastD_eq_getLast?, List.getLast?_eq_some_getLast hne, Option.getD_some]
    exact List.getLast_mem hne
  have v1 := (mK_val (hok _ m1)).1
  have v2 := (mK_val (hok _ m2)).1
  rw [e1] at v1
  rw [e2] at v2
  constructor
  · rw [h1]; push_cast at v1; linarith
  · rw [h2]; push_cast at v2; linarith

/-- The names a mixture lists are those of shipped gases valid from 200 to 6000 K, in positive amounts. -/
def okMix (m : MixFile) : Bool :=
  m.contents.all fun c => decide (0 < c.2.m) && shipped.any fun f => f.id == c.1 &&
    mK (f.Tlim.headD ⟨0, 0⟩) == 200000 && mK (f.Tlim.getLastD ⟨0, 0⟩) == 6000000

theorem mixes_ok : (shippedMix.all okMix) = true := by decide +kernel

theorem loaded_mem {f : File} (hf : f ∈ shipped) :
    loaded f.id = some (.gas f.gas (some (f.atoms.map fun a => (a.1, (a.2 : ℝ))))) := by
  unfold loaded
  have : ∀ l : List File, (l.map File.id).Nodup → f ∈ l → l.find? (fun g => g.id == f.id) = some f := by
    intro l
    induction l with
    | nil => intro _ h; cases h
    | cons g l ih =>
      intro hn hm
      rw [List.find?_cons]
      rw [List.map_cons, List.nodup_cons] at hn
      rcases List.mem_cons.mp hm with rfl | hm
      · simp
      · have : g.id ≠ f.id := fun he => hn.1 (he ▸ List.mem_map_of_mem hm)
        simp only [beq_eq_false_iff_ne.mpr this]
        exact ih hn.2 hm
  rw [this _ ids_distinct hf]
  rfl

/-- C100, shipped mixtures.  Each of the three shipped mixtures lists shipped gases in positive amounts,
so that with the shipped gases loaded it works as one gas whatever was called before, and its temperature
range is 200 to 6000 K. -/
theorem C100_shipped (m : MixFile) (hm : m ∈ shippedMix) :
    ∃ cs M, Sound loaded m.entry cs ∧ OfShipped cs ∧ IsMixture loaded m.entry M ∧ M.Tlo = 200 ∧ M.Thi = 6000 := by
  have hk := List.all_eq_true.mp mixes_ok m hm
  unfold okMix at hk
  rw [List.all_eq_true] at hk
  have hf : ∀ c : String × Dec, ∃ f : File, c ∈ m.contents → f ∈ shipped ∧ f.id = c.1 ∧ f.gas.Tlo = 200 ∧ f.gas.Thi = 6000 := by
    intro c
    by_cases hc : c ∈ m.contents
    · have := hk c hc
      rw [Bool.and_eq_true] at this
      obtain ⟨f, h1, h2⟩ := List.any_eq_true.mp this.2
      simp only [Bool.and_eq_true, beq_iff_eq] at h2
      exact ⟨f, fun _ => ⟨h1, h2.1.1, span h1 h2.1.2 h2.2⟩⟩
    · exact ⟨⟨"", .ig, [], [], ⟨0, 0⟩, none, []⟩, fun h => absurd h hc⟩
  choose g hg using hf
  have hS : Sound loaded m.entry (m.contents.map fun c => ⟨c.1, c.2.val, (g c).gas⟩) := by
    have key : ∀ c ∈ (m.contents.map fun c => (⟨c.1, c.2.val, (g c).gas⟩ : Comp)), ∃ f ∈ shipped,
        c.gas = f.gas ∧ c.name = f.id ∧ 0 < c.qty := by
      intro c hc
      obtain ⟨d, hd, rfl⟩ := List.mem_map.mp hc
      obtain ⟨h1, h2, -⟩ := hg d hd
      have := hk d hd
      rw [Bool.and_eq_true, decide_eq_true_eq] at this
      refine ⟨_, h1, rfl, h2.symm, ?_⟩
      have h0 : (0 : ℝ) < d.2.m := by exact_mod_cast this.1
      show 0 < d.2.val
      unfold Dec.val
      positivity
    refine ⟨?_, ?_, ?_, ?_, ?_, ?_, ?_⟩
    · simp [MixFile.entry, Function.comp_def]
    · rw [List.map_map]
      simp only [shippedMix, List.mem_cons, List.not_mem_nil, or_false] at hm
      rcases hm with rfl | rfl | rfl <;> simp [air, f5, h35]
    · simp only [shippedMix, List.mem_cons, List.not_mem_nil, or_false] at hm
      rcases hm with rfl | rfl | rfl <;> simp [air, f5, h35]
    · intro c hc
      obtain ⟨f, h1, h2, h3, -⟩ := key c hc
      exact ⟨_, by rw [h3, h2]; exact loaded_mem h1⟩
    · intro c hc
      obtain ⟨f, h1, h2, h3, h4⟩ := key c hc
      exact h4
    · intro c hc
      obtain ⟨f, h1, h2, -⟩ := key c hc
      obtain ⟨b, hb⟩ := shipped_checked f h1
      rw [h2]
      exact gas_mw_pos hb
    · intro c hc
      obtain ⟨f, h1, h2, -⟩ := key c hc
      obtain ⟨b, hb⟩ := shipped_checked f h1
      rw [h2]
      exact gas_pref (wellFormed hb).pref
  obtain ⟨M, hM⟩ := C38_usable hS
  obtain ⟨-, -, ⟨c1, m1, e1⟩, -, ⟨c2, m2, e2⟩⟩ := mixture_eq hS hM
  refine ⟨_, M, hS, ?_, hM, ?_, ?_⟩
  · intro c hc
    obtain ⟨d, hd, rfl⟩ := List.mem_map.mp hc
    exact ⟨g d, (hg d hd).1, rfl⟩
  · obtain ⟨d, hd, rfl⟩ := List.mem_map.mp m1
    rw [e1]; exact (hg d hd).2.2.1
  · obtain ⟨d, hd, rfl⟩ := List.mem_map.mp m2
    rw [e2]; exact (hg d hd).2.2.2

/-- C100, range.  Every property method of each shipped mixture, at any temperature and pressure in any unit
system, returns a number from 200 to 6000 K, both included, and raises a parameter error elsewhere. -/
theorem C100_range (m : MixFile) (hm : m ∈ shippedMix) (M : Gas) (hM : IsMixture loaded m.entry M) (E : Env) (S : Sys)
    (hU : Uses E S) (q : Quantity) (t p : ℝ) :
    (200 ≤ toKelvin S.T.name t → toKelvin S.T.name t ≤ 6000 →
      ∃ y, method q E M [.scalar t, .scalar p] [] = .ok [some y]) ∧
    (toKelvin S.T.name t < 200 ∨ 6000 < toKelvin S.T.name t →
      method q E M [.scalar t, .scalar p] [] = .error .param) := by
  obtain ⟨cs, M', hS, hc, hM', e1, e2⟩ := C100_shipped m hm
  obtain rfl := mixture_unique hM' hM
  have hmw := (mix_mw_pos hS hM).ne'
  constructor
  · intro h1 h2
    rw [← e1] at h1
    rw [← e2] at h2
    have hm := method_Tp hU hmw t p h1 h2 q
    have hco : Coherent M' := coherent_mix hS hM (fun c h => by
      obtain ⟨f, hf, e⟩ := hc c h
      obtain ⟨b, hb⟩ := shipped_checked f hf
      rw [e]; exact gas_coherent hb)
    obtain ⟨h0, s0, c0, sT0, gT0, k1, k2, k3, k4⟩ := hco _ h1 h2
    cases q <;>
      simp only [value, Gas.hI, Gas.eI, Gas.sI, Gas.gI, Gas.fI, Gas.f, Gas.cpI, Gas.cvI, Gas.gamI,
        k1, k2, k3, k4, Option.map_some, Option.bind_some] at hm <;>
      exact ⟨_, hm⟩
  · intro h
    rw [← e1, ← e2] at h
    exact (C34_limits E S hU M' hmw q t p).mpr h

/-- A shipped gas with this name has this molecular weight. -/
theorem weight_of {n : String} {w : Dec} (h : (shipped.any fun f => f.id == n && f.mw.m == w.m && f.mw.e == w.e) = true)
    {G : Gas} {as : Option (List (String × ℝ))} (hG : loaded n = some (.gas G as)) : G.mw = w.val := by
  obtain ⟨f, hf, he⟩ := List.any_eq_true.mp h
  simp only [Bool.and_eq_true, beq_iff_eq] at he
  have := loaded_mem hf
  rw [he.1.1, hG] at this
  simp only [Option.some.injEq, Species.gas.injEq] at this
  rw [this.1, gas_mw]
  simp only [File.data, Dec.val, he.1.2, he.2]

/-- C100, molecular weights.  The molecular weight of the shipped air is 28.9649 kg/kmol, of 5 % hydrogen
in nitrogen 26.7136 and of 35 % hydrogen in argon 26.6718, each within 0.0001. -/
theorem C100_weights (M : Gas) :
    (IsMixture loaded air.entry M → |M.mw - 28.9649| ≤ 1e-4) ∧
    (IsMixture loaded f5.entry M → |M.mw - 26.7136| ≤ 1e-4) ∧
    (IsMixture loaded h35.entry M → |M.mw - 26.6718| ≤ 1e-4) := by
  have wAr : ∀ {G as}, loaded "ig.Ar" = some (.gas G as) → G.mw = (Dec.p 39948 3).val :=
    weight_of (by decide +kernel)
  have wC : ∀ {G as}, loaded "ig.CO2" = some (.gas G as) → G.mw = (Dec.p 440098 4).val :=
    weight_of (by decide +kernel)
  have wH : ∀ {G as}, loaded "ig.H2" = some (.gas G as) → G.mw = (Dec.p 201588 5).val :=
    weight_of (by decide +kernel)
  have wN : ∀ {G as}, loaded "ig.N2" = some (.gas G as) → G.mw = (Dec.p 2801348 5).val :=
    weight_of (by decide +kernel)
  have wO : ∀ {G as}, loaded "ig.O2" = some (.gas G as) → G.mw = (Dec.p 319988 4).val :=
    weight_of (by decide +kernel)
  refine ⟨fun hM => ?_, fun hM => ?_, fun hM => ?_⟩
  · obtain ⟨cs, M', hS, -, -⟩ := C100_shipped air (by simp [shippedMix])
    rw [(mixture_eq hS hM).1]
    have hl := hS.listed
    have hfo := hS.found
    have hn := congrArg List.length hl
    simp only [MixFile.entry, air, List.length_map, List.length_cons, List.length_nil] at hn
    obtain ⟨c1, c2, c3, c4, rfl⟩ := List.length_eq_four.mp hn.symm
    simp only [MixFile.entry, air, List.map_cons, List.map_nil, List.cons.injEq, Prod.mk.injEq, and_true] at hl
    obtain ⟨⟨n1, q1⟩, ⟨n2, q2⟩, ⟨n3, q3⟩, n4, q4⟩ := hl
    obtain ⟨_, h1⟩ := hfo c1 (by simp)
    obtain ⟨_, h2⟩ := hfo c2 (by simp)
    obtain ⟨_, h3⟩ := hfo c3 (by simp)
    obtain ⟨_, h4⟩ := hfo c4 (by simp)
    rw [← n1] at h1
    rw [← n2] at h2
    rw [← n3] at h3
    rw [← n4] at h4
    simp only [mixGas, moleFrac, moles, MixFile.entry, air, List.map_cons, List.map_nil, List.sum_cons, List.sum_nil,
      wAr h1, wC h2, wN h3, wO h4, ← q1, ← q2, ← q3, ← q4, Dec.val, Dec.p]
    norm_num [abs_le]
  · obtain ⟨cs, M', hS, -, -⟩ := C100_shipped f5 (by simp [shippedMix])
    rw [(mixture_eq hS hM).1]
    have hl := hS.listed
    have hfo := hS.found
    have hn := congrArg List.length hl
    simp only [MixFile.entry, f5, List.length_map, List.length_cons, List.length_nil] at hn
    obtain ⟨c1, c2, rfl⟩ := List.length_eq_two.mp hn.symm
    simp only [MixFile.entry, f5, List.map_cons, List.map_nil, List.cons.injEq, Prod.mk.injEq, and_true] at hl
    obtain ⟨⟨n1, q1⟩, n2, q2⟩ := hl
    obtain ⟨_, h1⟩ := hfo c1 (by simp)
    obtain ⟨_, h2⟩ := hfo c2 (by simp)
    rw [← n1] at h1
    rw [← n2] at h2
    simp only [mixGas, moleFrac, moles, MixFile.entry, f5, List.map_cons, List.map_nil, List.sum_cons, List.sum_nil,
      wH h1, wN h2, ← q1, ← q2, Dec.val, Dec.p]
    norm_num [abs_le]
  · obtain ⟨cs, M', hS, -, -⟩ := C100_shipped h35 (by simp [shippedMix])
    rw [(mixture_eq hS hM).1]
    have hl := hS.listed
    have hfo := hS.found
    have hn := congrArg List.length hl
    simp only [MixFile.entry, h35, List.length_map, List.length_cons, List.length_nil] at hn
    obtain ⟨c1, c2, rfl⟩ := List.length_eq_two.mp hn.symm
    simp only [MixFile.entry, h35, List.map_cons, List.map_nil, List.cons.injEq, Prod.mk.injEq, and_true] at hl
    obtain ⟨⟨n1, q1⟩, n2, q2⟩ := hl
    obtain ⟨_, h1⟩ := hfo c1 (by simp)
    obtain ⟨_, h2⟩ := hfo c2 (by simp)
    rw [← n1] at h1
    rw [← n2] at h2
    simp only [mixGas, moleFrac, moles, MixFile.entry, h35, List.map_cons, List.map_nil, List.sum_cons, List.sum_nil,
      wAr h1, wH h2, ← q1, ← q2, Dec.val, Dec.p]
    norm_num [abs_le]

end PyroMat.Shipped.Props
