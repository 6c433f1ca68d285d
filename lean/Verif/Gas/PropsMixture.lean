import Verif.Gas.PropsMix

/-!
# C38: ideal-gas mixtures, the theorems
-/

set_option linter.unusedSimpArgs false

namespace PyroMat.Gas.Props

open PyroMat PyroMat.Units PyroMat.Units.Spec PyroMat.Units.Props PyroMat.Gas PyroMat.Gas.Spec
open PyroMat.Gas.Mix PyroMat.Config.Defaults Filter Topology

section
variable {coll : Coll} {D : Entry} {cs : List Comp}

/-- C38, usability.  A mixture whose constituents are all in the collection in positive amounts
works: whatever calls were made before, its property methods act as those of one and the same gas. -/
theorem C38_usable (hS : Sound coll D cs) : ∃ M, IsMixture coll D M := by
  obtain ⟨L, H, h, -⟩ := mixture_exists hS
  exact ⟨_, h⟩

/-- C38, fractions.  In any state of the object `X()` lists, in the order of the contents, the mole
fractions (amount over total amount) and `Y()` the mass fractions; all are positive and each list
sums to one. -/
theorem C38_fractions (hS : Sound coll D cs) (o : Obj) (ho : Used coll D o) :
    ∃ xs ys, (mX coll D o).1 = .ok xs ∧ (mY coll D o).1 = .ok ys ∧
      xs = cs.map (fun c => (c.name, moles D.bymass c / (cs.map (moles D.bymass)).sum)) ∧
      ys = cs.map (fun c => (c.name, grams D.bymass c / (cs.map (grams D.bymass)).sum)) ∧
      (∀ q ∈ xs, 0 < q.2) ∧ (∀ q ∈ ys, 0 < q.2) ∧
      (xs.map (·.2)).sum = 1 ∧ (ys.map (·.2)).sum = 1 := by
  obtain ⟨O, L, H, hO, hbs, hx, hy, -⟩ := bootstrap_new hS
  refine ⟨O.x, O.y, ?_, ?_, hx, hy, ?_, ?_, ?_, ?_⟩
  · unfold mX; rw [bootstrap_used (listed_of_sound hS) ho, hO]
  · unfold mY; rw [bootstrap_used (listed_of_sound hS) ho, hO]
  · rw [hx]; intro q hq
    obtain ⟨c, hc, rfl⟩ := List.mem_map.mp hq
    exact moleFrac_pos hS c hc
  · rw [hy]; intro q hq
    obtain ⟨c, hc, rfl⟩ := List.mem_map.mp hq
    exact massFrac_pos hS c hc
  · rw [hx, List.map_map]; exact moleFrac_sum hS
  · rw [hy, List.map_map]; exact massFrac_sum hS

theorem mMw_eq {E : Env} {S : Sys} (hU : Uses E S) {um un : String} (h1 : E.c.str "unit_mass" = .ok um)
    (h2 : (mass E.a).contains um = true) (h3 : E.c.str "unit_molar" = .ok un)
    (h4 : (molar E.a).contains un = true) (G : Gas) :
    mMw E G "kg" "kmol" = .ok (G.mw * (size (molar E.a) un / size (mass E.a) um)) ∧
    mMw E G "g" "mol" = .ok (G.mw * (size (molar E.a) un / size (mass E.a) um)) := by
  have n1 : NonZero (mass E.a) := nonZero_of_mem hU.pos (by simp [allConvs])
  have n2 : NonZero (molar E.a) := nonZero_of_mem hU.pos (by simp [allConvs])
  have e1 : size (mass E.a) um ≠ 0 := n1 _ (lookup_mem (size_lookup hU h2))
  have e2 : size (molar E.a) un ≠ 0 := n2 _ (lookup_mem (size_lookup hU h4))
  constructor
  · unfold mMw
    rw [scalarOf_call hU n1 (k := "unit_mass") rfl h1 h2 (y := 1) rfl, exOk,
      scalarOf_call hU n2 (k := "unit_molar") rfl h3 h4 (y := 1) rfl]
    simp only [powS_neg_one, show ∀ x : ℝ, powS x none = x from fun _ => rfl]
    congr 1; field_simp
  · unfold mMw
    rw [scalarOf_call hU n1 (k := "unit_mass") rfl h1 h2 (y := 1e-3) rfl, exOk,
      scalarOf_call hU n2 (k := "unit_molar") rfl h3 h4 (y := 1e-3) rfl]
    simp only [powS_neg_one, show ∀ x : ℝ, powS x none = x from fun _ => rfl]
    congr 1; field_simp

/-- C38, molecular weight: in every unit system `mw()` of the mixture is the mean of the `mw()` of
the constituents weighted by mole fraction. -/
theorem C38_molecular_weight (hS : Sound coll D cs) (M : Gas) (hM : IsMixture coll D M) (E : Env) (S : Sys)
    (hU : Uses E S) (um un : String) (h1 : E.c.str "unit_mass" = .ok um)
    (h2 : (mass E.a).contains um = true) (h3 : E.c.str "unit_molar" = .ok un)
    (h4 : (molar E.a).contains un = true) :
    ∃ r : Comp → ℝ, (∀ c ∈ cs, mMw E c.gas "g" "mol" = .ok (r c)) ∧
      mMw E M "kg" "kmol" = .ok (cs.map (fun c => moleFrac D.bymass cs c * r c)).sum := by
  refine ⟨fun c => c.gas.mw * (size (molar E.a) un / size (mass E.a) um),
    fun c _ => (mMw_eq hU h1 h2 h3 h4 c.gas).2, ?_⟩
  rw [(mMw_eq hU h1 h2 h3 h4 M).1]
  have emw : M.mw = (cs.map (fun c => moleFrac D.bymass cs c * c.gas.mw)).sum := by
    conv_lhs => rw [(mixture_eq hS hM).1]
    rfl
  rw [emw, ← sum_mul]
  congr 1
  exact sum_congr (fun c _ => by ring)

theorem fromKelvin_mono {E : Env} {S : Sys} (hU : Uses E S) {x y : ℝ} (h : x ≤ y) :
    fromKelvin S.T.name x ≤ fromKelvin S.T.name y := by
  have e := fun x : ℝ => internal_inUnits hU (mw := 1) one_ne_zero .temperature x
  simp only [internal, inUnits] at e
  obtain ⟨c, hc⟩ := toKelvin_affine S.T
  have hs : 0 < size (Units.temperature : Conv ℝ) S.T.name / 1.8 := by
    have := C04_factors_positive E.a hU.pos (Units.temperature) (by simp [allConvs]) _
      (lookup_mem (size_lookup hU (tcontains hU)))
    positivity
  by_contra hlt
  rw [not_le] at hlt
  have h1 := e x
  have h2 := e y
  rw [hc] at h1 h2
  have := mul_lt_mul_of_pos_right hlt hs
  linarith

/-- C38, limits: the temperature limits of the mixture are the intersection of those of the
constituents: the largest lower one and the smallest upper one. -/
theorem C38_limits (hS : Sound coll D cs) (M : Gas) (hM : IsMixture coll D M) (E : Env) (S : Sys)
    (hU : Uses E S) : ∃ lo hi : ℝ, ∃ l h : Comp → ℝ, mTlim E M = .ok (lo, hi) ∧
      (∀ c ∈ cs, mTlim E c.gas = .ok (l c, h c)) ∧
      (∀ c ∈ cs, l c ≤ lo) ∧ (∃ c ∈ cs, lo = l c) ∧ (∀ c ∈ cs, hi ≤ h c) ∧ (∃ c ∈ cs, hi = h c) := by
  obtain ⟨-, l1, ⟨c1, m1, e1⟩, l2, ⟨c2, m2, e2⟩⟩ := mixture_eq hS hM
  exact ⟨_, _, _, _, mTlim_eq hU, fun c _ => mTlim_eq hU, fun c hc => fromKelvin_mono hU (l1 c hc),
    ⟨c1, m1, by rw [e1]⟩, fun c hc => fromKelvin_mono hU (l2 c hc), ⟨c2, m2, by rw [e2]⟩⟩

/-- The constituents' inner values at a temperature within the mixture's limits. -/
theorem comp_values (hS : Sound coll D cs) {M : Gas} (hM : IsMixture coll D M)
    (hc : ∀ c ∈ cs, Coherent c.gas) {T : ℝ} (h1 : M.Tlo ≤ T) (h2 : T ≤ M.Thi) :
    ∃ h s cp sT gT : Comp → ℝ, (∀ c ∈ cs, c.gas.h T = some (h c, cp c) ∧ c.gas.cp T = some (cp c) ∧
      c.gas.s T = some (s c, sT c) ∧ c.gas.g T = some (h c - T * s c, gT c)) ∧
      ∀ c ∈ cs, c.gas.Tlo ≤ T ∧ T ≤ c.gas.Thi := by
  obtain ⟨-, l1, -, l2, -⟩ := mixture_eq hS hM
  have hl : ∀ c ∈ cs, c.gas.Tlo ≤ T ∧ T ≤ c.gas.Thi := fun c hcs =>
    ⟨(l1 c hcs).trans h1, h2.trans (l2 c hcs)⟩
  have : ∀ c : Comp, ∃ r : ℝ × ℝ × ℝ × ℝ × ℝ, c ∈ cs → c.gas.h T = some (r.1, r.2.2.1) ∧
      c.gas.cp T = some r.2.2.1 ∧ c.gas.s T = some (r.2.1, r.2.2.2.1) ∧
      c.gas.g T = some (r.1 - T * r.2.1, r.2.2.2.2) := by
    intro c
    by_cases hcs : c ∈ cs
    · obtain ⟨h, s, cp, sT, gT, k⟩ := hc c hcs T (hl c hcs).1 (hl c hcs).2
      exact ⟨(h, s, cp, sT, gT), fun _ => k⟩
    · exact ⟨(0, 0, 0, 0, 0), fun h => absurd h hcs⟩
  choose r hr using this
  exact ⟨fun c => (r c).1, fun c => (r c).2.1, fun c => (r c).2.2.1, fun c => (r c).2.2.2.1,
    fun c => (r c).2.2.2.2, fun c hcs => hr c hcs, hl⟩

theorem gives_Tp {E : Env} {S : Sys} (hU : Uses E S) {G : Gas} (hmw : G.mw ≠ 0) {x p : ℝ}
    (h1 : G.Tlo ≤ toKelvin S.T.name x) (h2 : toKelvin S.T.name x ≤ G.Thi) {q : Quantity} {y : ℝ}
    (h : value E.a S G q (some (toKelvin S.T.name x))
      (some (internal E.a S G.mw .pressure p))
      (some (internal E.a S G.mw .pressure p / (1000 * Ru * toKelvin S.T.name x))) = some y) :
    Gives E G [.scalar x, .scalar p] [] q 0 y :=
  ⟨_, method_Tp hU hmw x p h1 h2 q, by simp [h]⟩

theorem mean_shift (hS : Sound coll D cs) (v : Comp → ℝ) (k : ℝ) :
    (cs.map (fun c => moleFrac D.bymass cs c * (v c - k))).sum
      = (cs.map (fun c => moleFrac D.bymass cs c * v c)).sum - k := by
  have : (cs.map (fun c => moleFrac D.bymass cs c * (v c - k))).sum
      = (cs.map (fun c => moleFrac D.bymass cs c * v c)).sum
        - (cs.map (moleFrac D.bymass cs)).sum * k := by
    rw [← sum_mul, ← sum_sub]
    exact sum_congr (fun c _ => by ring)
  rw [this, moleFrac_sum hS, one_mul]

/-- C38, means.  In every unit system, at every temperature within the limits and every pressure,
the enthalpy, internal energy and heat capacities of the mixture are the means of those of the
constituents, weighted by mole fraction, or by mass fraction when matter is measured in mass. -/
theorem C38_means (hS : Sound coll D cs) (M : Gas) (hM : IsMixture coll D M)
    (hc : ∀ c ∈ cs, Coherent c.gas) (E : Env) (S : Sys) (hU : Uses E S) (t p : ℝ)
    (h1 : M.Tlo ≤ toKelvin S.T.name t) (h2 : toKelvin S.T.name t ≤ M.Thi) (q : Quantity)
    (hq : q = .h ∨ q = .e ∨ q = .cp ∨ q = .cv) :
    ∃ r : Comp → ℝ, (∀ c ∈ cs, Gives E c.gas [.scalar t, .scalar p] [] q 0 (r c)) ∧
      Gives E M [.scalar t, .scalar p] [] q 0 (cs.map (fun c => weight E.a S D.bymass cs c * r c)).sum := by
  obtain ⟨h, s, cp, sT, gT, hv, hl⟩ := comp_values hS hM hc h1 h2
  obtain ⟨k1, k2, k3, k4⟩ := mix_inner hS hM hv
  have hmw := (mix_mw_pos hS hM).ne'
  have g := fun c (hcs : c ∈ cs) y => gives_Tp (E := E) hU (hS.mw c hcs).ne' (p := p) (hl c hcs).1 (hl c hcs).2 (q := q) (y := y)
  have gM := fun y => gives_Tp hU hmw (p := p) h1 h2 (q := q) (y := y)
  rcases hq with rfl | rfl | rfl | rfl
  · refine ⟨fun c => inUnits E.a S c.gas.mw .energy (h c), fun c hcs => g c hcs _ ?_, gM _ ?_⟩
    · simp [value, Gas.hI, (hv c hcs).1]
    · rw [← inUnits_mean hS hM hU (.inl rfl)]
      simp [value, Gas.hI, k1]
  · refine ⟨fun c => inUnits E.a S c.gas.mw .energy (h c - Ru * toKelvin S.T.name t), fun c hcs => g c hcs _ ?_, gM _ ?_⟩
    · simp [value, Gas.eI, (hv c hcs).1]
    · rw [← inUnits_mean hS hM hU (.inl rfl), mean_shift hS]
      simp [value, Gas.eI, k1]
  · refine ⟨fun c => inUnits E.a S c.gas.mw .entropy (cp c), fun c hcs => g c hcs _ ?_, gM _ ?_⟩
    · simp [value, Gas.cpI, (hv c hcs).2.1]
    · rw [← inUnits_mean hS hM hU (.inr rfl)]
      simp [value, Gas.cpI, k2]
  · refine ⟨fun c => inUnits E.a S c.gas.mw .entropy (cp c - Ru), fun c hcs => g c hcs _ ?_, gM _ ?_⟩
    · simp [value, Gas.cvI, (hv c hcs).2.1]
    · rw [← inUnits_mean hS hM hU (.inr rfl), mean_shift hS]
      simp [value, Gas.cvI, k2]

theorem mix_log (hS : Sound coll D cs) {M : Gas} (hM : IsMixture coll D M) {P : ℝ} (hP : 0 < P) :
    (cs.map (fun c => moleFrac D.bymass cs c * Real.log (moleFrac D.bymass cs c * P / c.gas.pref))).sum
      = - mixing D.bymass cs + Real.log (P / M.pref) := by
  have ep : M.pref = Real.exp (cs.map (fun c => moleFrac D.bymass cs c * Real.log c.gas.pref)).sum := by
    conv_lhs => rw [(mixture_eq hS hM).1]
    rfl
  have e1 : Real.log (P / M.pref) = Real.log P - (cs.map (fun c => moleFrac D.bymass cs c * Real.log c.gas.pref)).sum := by
    rw [ep, Real.log_div hP.ne' (Real.exp_pos _).ne', Real.log_exp]
  have e2 : (cs.map (fun c => moleFrac D.bymass cs c * Real.log (moleFrac D.bymass cs c * P / c.gas.pref))).sum
      = (cs.map (fun c => moleFrac D.bymass cs c * Real.log (moleFrac D.bymass cs c))).sum
        + ((cs.map (moleFrac D.bymass cs)).sum * Real.log P
          - (cs.map (fun c => moleFrac D.bymass cs c * Real.log c.gas.pref)).sum) := by
    rw [← sum_mul, ← sum_sub, ← sum_add]
    refine sum_congr (fun c hc => ?_)
    have hx := moleFrac_pos hS c hc
    rw [Real.log_div (mul_pos hx hP).ne' (hS.pref c hc).ne', Real.log_mul hx.ne' hP.ne']
    ring
  rw [e2, moleFrac_sum hS, e1]
  unfold mixing
  ring

/-- C38, entropy.  In every unit system, at every temperature within the limits and every positive
pressure `p`, the entropy, Gibbs and Helmholtz energies of the mixture are the means of those of
the constituents, each taken at its partial pressure (mole fraction times `p`). -/
theorem C38_partial_pressures (hS : Sound coll D cs) (M : Gas) (hM : IsMixture coll D M)
    (hc : ∀ c ∈ cs, Coherent c.gas) (E : Env) (S : Sys) (hU : Uses E S) (t p : ℝ) (hp : 0 < p)
    (h1 : M.Tlo ≤ toKelvin S.T.name t) (h2 : toKelvin S.T.name t ≤ M.Thi) (q : Quantity)
    (hq : q = .s ∨ q = .g ∨ q = .f) :
    ∃ r : Comp → ℝ,
      (∀ c ∈ cs, Gives E c.gas [.scalar t, .scalar (moleFrac D.bymass cs c * p)] [] q 0 (r c)) ∧
      Gives E M [.scalar t, .scalar p] [] q 0 (cs.map (fun c => weight E.a S D.bymass cs c * r c)).sum := by
  obtain ⟨h, s, cp, sT, gT, hv, hl⟩ := comp_values hS hM hc h1 h2
  obtain ⟨k1, k2, k3, k4⟩ := mix_inner hS hM hv
  have hmw := (mix_mw_pos hS hM).ne'
  have g := fun c (hcs : c ∈ cs) y => gives_Tp (E := E) hU (hS.mw c hcs).ne' (p := moleFrac D.bymass cs c * p)
    (hl c hcs).1 (hl c hcs).2 (q := q) (y := y)
  have gM := fun y => gives_Tp hU hmw (p := p) h1 h2 (q := q) (y := y)
  set P := p * size (Units.pressure E.a) S.p with hPdef
  have hP : 0 < P := mul_pos hp (ps_pos hU)
  have hI : ∀ mw x : ℝ, internal E.a S mw .pressure x = x * size (Units.pressure E.a) S.p := fun _ _ => rfl
  have hI2 : ∀ c : Comp, internal E.a S c.gas.mw .pressure (moleFrac D.bymass cs c * p) = moleFrac D.bymass cs c * P := by
    intro c; rw [hI, hPdef]; ring
  have hI3 : internal E.a S M.mw .pressure p = P := rfl
  simp only [hI2] at g
  simp only [hI3] at gM
  have hlog := mix_log hS hM hP
  set T := toKelvin S.T.name t with hT
  rcases hq with rfl | rfl | rfl
  · refine ⟨fun c => inUnits E.a S c.gas.mw .entropy (s c - Ru * Real.log (moleFrac D.bymass cs c * P / c.gas.pref)),
      fun c hcs => g c hcs _ ?_, gM _ ?_⟩
    · simp [value, Gas.sI, (hv c hcs).2.2.1]
    · rw [← inUnits_mean hS hM hU (.inr rfl)]
      simp only [value, Gas.sI, k3, Option.bind_some, Option.map_some, Option.some.injEq]
      congr 1
      have : (cs.map (fun c => moleFrac D.bymass cs c * (s c - Ru * Real.log (moleFrac D.bymass cs c * P / c.gas.pref)))).sum
          = (cs.map (fun c => moleFrac D.bymass cs c * s c)).sum
            - (cs.map (fun c => moleFrac D.bymass cs c * Real.log (moleFrac D.bymass cs c * P / c.gas.pref))).sum * Ru := by
        rw [← sum_mul, ← sum_sub]
        exact sum_congr (fun c _ => by ring)
      rw [this, hlog]; ring
  · refine ⟨fun c => inUnits E.a S c.gas.mw .energy (h c - T * s c + T * Ru * Real.log (moleFrac D.bymass cs c * P / c.gas.pref)),
      fun c hcs => g c hcs _ ?_, gM _ ?_⟩
    · simp [value, Gas.gI, (hv c hcs).2.2.2]
    · rw [← inUnits_mean hS hM hU (.inl rfl)]
      simp only [value, Gas.gI, k4, Option.bind_some, Option.map_some, Option.some.injEq]
      congr 1
      have : (cs.map (fun c => moleFrac D.bymass cs c * (h c - T * s c + T * Ru * Real.log (moleFrac D.bymass cs c * P / c.gas.pref)))).sum
          = (cs.map (fun c => moleFrac D.bymass cs c * h c)).sum - (cs.map (fun c => moleFrac D.bymass cs c * s c)).sum * T
            + (cs.map (fun c => moleFrac D.bymass cs c * Real.log (moleFrac D.bymass cs c * P / c.gas.pref))).sum * (T * Ru) := by
        rw [← sum_mul, ← sum_mul, ← sum_sub, ← sum_add]
        exact sum_congr (fun c _ => by ring)
      rw [this, hlog]; ring
  · refine ⟨fun c => inUnits E.a S c.gas.mw .energy ((h c - T * s c + T * Ru * Real.log (moleFrac D.bymass cs c * P / c.gas.pref)) - Ru * T),
      fun c hcs => g c hcs _ ?_, gM _ ?_⟩
    · simp only [value, Gas.fI, Gas.f, (hv c hcs).2.2.2, Option.bind_some, Option.map_some, Option.some.injEq]
      congr 1; ring
    · rw [← inUnits_mean hS hM hU (.inl rfl), mean_shift hS]
      simp only [value, Gas.fI, Gas.f, k4, Option.bind_some, Option.map_some, Option.some.injEq]
      congr 1
      have : (cs.map (fun c => moleFrac D.bymass cs c * (h c - T * s c + T * Ru * Real.log (moleFrac D.bymass cs c * P / c.gas.pref)))).sum
          = (cs.map (fun c => moleFrac D.bymass cs c * h c)).sum - (cs.map (fun c => moleFrac D.bymass cs c * s c)).sum * T
            + (cs.map (fun c => moleFrac D.bymass cs c * Real.log (moleFrac D.bymass cs c * P / c.gas.pref))).sum * (T * Ru) := by
        rw [← sum_mul, ← sum_mul, ← sum_sub, ← sum_add]
        exact sum_congr (fun c _ => by ring)
      rw [this, hlog]; ring

theorem weight_nonneg (hS : Sound coll D cs) (a : SetupArgs ℝ) (S : Sys) : ∀ c ∈ cs, 0 ≤ weight a S D.bymass cs c := by
  intro c hc
  unfold weight
  split
  · exact (massFrac_pos hS c hc).le
  · exact (moleFrac_pos hS c hc).le

theorem msize_pos {E : Env} {S : Sys} (hU : Uses E S) {mw : ℝ} (hmw : 0 < mw) : 0 < msize E.a mw S.m := by
  have h := msize_lookup hU mw
  unfold matterScale at h
  cases hl : (mass E.a).table.lookup S.m with
  | some x =>
    rw [hl] at h
    simp only [Option.some.injEq] at h
    rw [← h]
    exact div_pos (C04_factors_positive E.a hU.pos (mass E.a) (by simp [allConvs]) _ (lookup_mem hl)) hmw
  | none =>
    rw [hl] at h
    exact C04_factors_positive E.a hU.pos (molar E.a) (by simp [allConvs]) _ (lookup_mem h)

theorem entropy_mono {E : Env} {S : Sys} (hU : Uses E S) {mw : ℝ} (hmw : 0 < mw) {x y : ℝ} (h : x ≤ y) :
    inUnits E.a S mw .entropy x ≤ inUnits E.a S mw .entropy y := by
  have h1 := msize_pos hU hmw
  have h2 : 0 < size (Units.energy : Conv ℝ) S.e := C04_factors_positive E.a hU.pos Units.energy
    (by simp [allConvs]) _ (lookup_mem (size_lookup hU hU.valid.e))
  have h3 : 0 < size (Units.temperature : Conv ℝ) S.T.name := C04_factors_positive E.a hU.pos
    Units.temperature (by simp [allConvs]) _ (lookup_mem (size_lookup hU (tcontains hU)))
  simp only [inUnits]
  gcongr

theorem Ru_pos : (0 : ℝ) < Ru := by norm_num [Ru, const_Ru, const_k, const_Na]

theorem mixing_nonneg (hS : Sound coll D cs) : 0 ≤ mixing D.bymass cs := by
  unfold mixing
  rw [neg_nonneg]
  have : (cs.map (fun c => moleFrac D.bymass cs c * Real.log (moleFrac D.bymass cs c))).sum
      ≤ (cs.map (fun _ : Comp => (0 : ℝ))).sum :=
    sum_le (fun c hc => mul_nonpos_of_nonneg_of_nonpos (moleFrac_pos hS c hc).le
      (Real.log_nonpos (moleFrac_pos hS c hc).le (moleFrac_le hS c hc)))
  simpa using this

theorem lt_sum_of {l : List Comp} (f : Comp → ℝ) (h : ∀ c ∈ l, 0 < f c) (hl : l.length ≠ 1) :
    ∀ c ∈ l, f c < (l.map f).sum := by
  intro c hc
  obtain ⟨l1, l2, rfl⟩ := List.append_of_mem hc
  have n1 : 0 ≤ (l1.map f).sum := List.sum_nonneg (by
    intro x hx; obtain ⟨d, hd, rfl⟩ := List.mem_map.mp hx; exact (h d (by simp [hd])).le)
  have n2 : 0 ≤ (l2.map f).sum := List.sum_nonneg (by
    intro x hx; obtain ⟨d, hd, rfl⟩ := List.mem_map.mp hx; exact (h d (by simp [hd])).le)
  simp only [List.map_append, List.map_cons, List.sum_append, List.sum_cons]
  by_cases e1 : l1 = []
  · by_cases e2 : l2 = []
    · subst e1; subst e2; simp at hl
    · have := sum_pos_of e2 f (fun d hd => h d (by simp [hd]))
      linarith
  · have := sum_pos_of e1 f (fun d hd => h d (by simp [hd]))
    linarith

theorem mixing_pos (hS : Sound coll D cs) (hl : cs.length ≠ 1) : 0 < mixing D.bymass cs := by
  have h := sum_pos_of hS.nonempty (fun c => moleFrac D.bymass cs c * - Real.log (moleFrac D.bymass cs c))
    (fun c hc => mul_pos (moleFrac_pos hS c hc) (neg_pos.mpr (Real.log_neg (moleFrac_pos hS c hc) (by
      have := lt_sum_of (moleFrac D.bymass cs) (moleFrac_pos hS) hl c hc
      rwa [moleFrac_sum hS] at this))))
  have e : (cs.map (fun c => moleFrac D.bymass cs c * - Real.log (moleFrac D.bymass cs c))).sum
      = (cs.map (fun c => moleFrac D.bymass cs c * Real.log (moleFrac D.bymass cs c))).sum * (-1) := by
    rw [← sum_mul]; exact sum_congr (fun c _ => by ring)
  unfold mixing
  linarith

/-- C38, mixing.  The entropy of the mixture is at least the mean of the entropies the constituents
have at the mixture's temperature and pressure, and equal to it only if there is one constituent. -/
theorem C38_mixing_entropy (hS : Sound coll D cs) (M : Gas) (hM : IsMixture coll D M)
    (hc : ∀ c ∈ cs, Coherent c.gas) (E : Env) (S : Sys) (hU : Uses E S) (t p : ℝ) (hp : 0 < p)
    (h1 : M.Tlo ≤ toKelvin S.T.name t) (h2 : toKelvin S.T.name t ≤ M.Thi) :
    ∃ (r : Comp → ℝ) (s : ℝ), (∀ c ∈ cs, Gives E c.gas [.scalar t, .scalar p] [] .s 0 (r c)) ∧
      Gives E M [.scalar t, .scalar p] [] .s 0 s ∧
      (cs.map (fun c => weight E.a S D.bymass cs c * r c)).sum ≤ s ∧
      (s = (cs.map (fun c => weight E.a S D.bymass cs c * r c)).sum → cs.length = 1) := by
  obtain ⟨h, s, cp, sT, gT, hv, hl⟩ := comp_values hS hM hc h1 h2
  obtain ⟨k1, k2, k3, k4⟩ := mix_inner hS hM hv
  have hmw := mix_mw_pos hS hM
  set P := p * size (Units.pressure E.a) S.p with hPdef
  have hP : 0 < P := mul_pos hp (ps_pos hU)
  set T := toKelvin S.T.name t with hT
  have hsum : (cs.map (fun c => weight E.a S D.bymass cs c
      * inUnits E.a S c.gas.mw .entropy (s c - Ru * Real.log (P / c.gas.pref)))).sum
      = inUnits E.a S M.mw .entropy ((cs.map (fun c => moleFrac D.bymass cs c * s c)).sum - Ru * Real.log (P / M.pref)) := by
    rw [← inUnits_mean hS hM hU (.inr rfl)]
    congr 1
    have e := mix_log hS hM hP
    have e2 : (cs.map (fun c => moleFrac D.bymass cs c * Real.log (moleFrac D.bymass cs c * P / c.gas.pref))).sum
        = (cs.map (fun c => moleFrac D.bymass cs c * Real.log (moleFrac D.bymass cs c))).sum
          + (cs.map (fun c => moleFrac D.bymass cs c * Real.log (P / c.gas.pref))).sum := by
      rw [← sum_add]
      refine sum_congr (fun c hc => ?_)
      rw [mul_div_assoc, Real.log_mul (moleFrac_pos hS c hc).ne' (div_pos hP (hS.pref c hc)).ne']
      ring
    have e3 : (cs.map (fun c => moleFrac D.bymass cs c * Real.log (P / c.gas.pref))).sum = Real.log (P / M.pref) := by
      rw [e2] at e; unfold mixing at e; linarith
    have e4 : (cs.map (fun c => moleFrac D.bymass cs c * (s c - Ru * Real.log (P / c.gas.pref)))).sum
        = (cs.map (fun c => moleFrac D.bymass cs c * s c)).sum
          - (cs.map (fun c => moleFrac D.bymass cs c * Real.log (P / c.gas.pref))).sum * Ru := by
      rw [← sum_mul, ← sum_sub]
      exact sum_congr (fun c _ => by ring)
    rw [e4, e3]; ring
  have hmix := mixing_nonneg hS
  refine ⟨fun c => inUnits E.a S c.gas.mw .entropy (s c - Ru * Real.log (P / c.gas.pref)),
    inUnits E.a S M.mw .entropy ((cs.map (fun c => moleFrac D.bymass cs c * s c)).sum + mixing D.bymass cs * Ru
      - Ru * Real.log (P / M.pref)), fun c hcs => ?_, ?_, ?_, ?_⟩
  · refine gives_Tp hU (hS.mw c hcs).ne' (hl c hcs).1 (hl c hcs).2 ?_
    have : internal E.a S c.gas.mw .pressure p = P := rfl
    simp only [value, Gas.sI, ← hT, (hv c hcs).2.2.1, this, Option.bind_some, Option.map_some]
  · refine gives_Tp hU hmw.ne' h1 h2 ?_
    have : internal E.a S M.mw .pressure p = P := rfl
    simp only [value, Gas.sI, ← hT, k3, this, Option.bind_some, Option.map_some]
  · rw [hsum]
    refine entropy_mono hU hmw ?_
    nlinarith [Ru_pos]
  · rw [hsum]
    intro he
    have hne := entropy_scale_ne hU hmw.ne'
    rw [← inUnits_mul E.a S M.mw (by simp : Kind.entropy ≠ .temperature),
      ← inUnits_mul E.a S M.mw (by simp : Kind.entropy ≠ .temperature) (_ - Ru * Real.log (P / M.pref))] at he
    have he' := mul_right_cancel₀ hne he
    have hz : mixing D.bymass cs = 0 := by
      have : mixing D.bymass cs * Ru = 0 := by linarith
      exact (mul_eq_zero.mp this).resolve_right Ru_pos.ne'
    by_contra hlen
    exact absurd hz (mixing_pos hS hlen).ne'

/-- C38, identities: the relations of C31 hold for the results of one call on a mixture. -/
theorem C38_identities (hS : Sound coll D cs) (M : Gas) (hM : IsMixture coll D M)
    (hc : ∀ c ∈ cs, Coherent c.gas) (E : Env) (S : Sys) (hU : Uses E S)
    (varg : List (Val ℝ)) (kw : Kw) (a b : String) (va vb : Val ℝ)
    (h : Supplies varg kw a va b vb) (R : ℝ) (hR : mR E M = .ok R) (i : Nat) (t p : ℝ)
    (ht : Gives E M varg kw .T i t) (hp : Gives E M varg kw .p i p) :
    ∃ h e s g f cp cv gam, Gives E M varg kw .h i h ∧ Gives E M varg kw .e i e ∧
      Gives E M varg kw .s i s ∧ Gives E M varg kw .g i g ∧
      Gives E M varg kw .f i f ∧ Gives E M varg kw .cp i cp ∧
      Gives E M varg kw .cv i cv ∧ Gives E M varg kw .gam i gam ∧
      e = h - R * absolute S t ∧ g = h - absolute S t * s ∧ f = e - absolute S t * s ∧
      cp - cv = R ∧ gam = cp / cv :=
  identities hU (mix_mw_pos hS hM).ne' (coherent_mix hS hM hc) h hR ht hp

/-- C38, derivatives: at a temperature strictly inside a piece of every constituent, along the line
of constant pressure the mixture's enthalpy has derivative `cp`, its entropy `cp / T` and its
Gibbs energy `-s`. -/
theorem C38_derivatives (hS : Sound coll D cs) (M : Gas) (hM : IsMixture coll D M) (E : Env) (S : Sys)
    (hU : Uses E S) (t p : ℝ)
    (hcs : ∀ c ∈ cs, ∃ Dc, WellFormed Dc ∧ (c.gas = ig Dc ∨ c.gas = ig2 Dc) ∧ InsidePiece Dc (toKelvin S.T.name t)) :
    ∃ h s g cp : ℝ → ℝ,
      (∀ᶠ x in 𝓝 t,
        mH E M [.scalar x, .scalar p] [] = .ok [some (h x)] ∧
        mS E M [.scalar x, .scalar p] [] = .ok [some (s x)] ∧
        mG E M [.scalar x, .scalar p] [] = .ok [some (g x)] ∧
        mCp E M [.scalar x, .scalar p] [] = .ok [some (cp x)]) ∧
      HasDerivAt h (cp t) t ∧ HasDerivAt s (cp t / absolute S t) t ∧ HasDerivAt g (- s t) t := by
  obtain ⟨-, -, ⟨c1, m1, e1⟩, -, ⟨c2, m2, e2⟩⟩ := mixture_eq hS hM
  have key : ∀ c ∈ cs, c.gas.Tlo < toKelvin S.T.name t ∧ toKelvin S.T.name t < c.gas.Thi ∧
      0 < toKelvin S.T.name t ∧ Smooth c.gas (toKelvin S.T.name t) := by
    intro c hc
    obtain ⟨Dc, hw, he, hi⟩ := hcs c hc
    have hl := inside_limits hw hi
    rcases he with he | he
    · rw [he]; exact ⟨hl.1, hl.2, pos_of_inside hw hi, smooth_ig Dc hw _ hi⟩
    · rw [he]; exact ⟨hl.1, hl.2, pos_of_inside hw hi, smooth_ig2 Dc hw _ hi⟩
  exact derivatives hU (mix_mw_pos hS hM).ne' (e1 ▸ (key c1 m1).1) (e2 ▸ (key c2 m2).2.1) (key c1 m1).2.2.1
    (smooth_mix hS hM (fun c hc => (key c hc).2.2.2))

end

end PyroMat.Gas.Props
