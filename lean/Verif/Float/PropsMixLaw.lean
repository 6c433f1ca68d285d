import Verif.Float.MixLaw
import Verif.Float.PropsLaw
import Verif.Float.PropsMixCall

/-!
# C117: density and volume of ideal-gas mixtures in floating point
-/

set_option linter.unusedSimpArgs false

namespace PyroMat.Float

open PyroMat PyroMat.Units PyroMat.Units.Spec PyroMat.Units.Props PyroMat.Gas PyroMat.Gas.Spec PyroMat.Gas.Props
open PyroMat.Gas.Mix PyroMat.Shipped PyroMat.Shipped.Props PyroMat.Float.Spec PyroMat.Float.Props

variable {ε : ℝ} {A : Arith}

theorem densityOut_near {E : Env} {S : Sys} (hU : Uses E S) (h0 : 0 ≤ ε) (h1 : ε < 1) (hA : Accurate ε A) {j k : ℕ}
    {mw mw' : ℝ} (hmw : mw ≠ 0) (h : Near ε j mw mw') {d d' : ℝ} (hd : Near ε k d d') :
    ∃ y, densityOutF A E mw' d' = .ok y ∧ Near ε (k + j + 142) (inUnits E.a S mw .density d) y := by
  have hmw' : mw' ≠ 0 := fun e => hmw ((near_iff_zero h).mpr e)
  have tv : volumeT ∈ tables E.a := by simp [tables]
  have c1 := scalarOf_matter_in hU hmw' (u := "kmol") (y := 1) rfl d none true
  obtain ⟨y1, f1, n1⟩ := matter_near h0 h1 hA E.a E.c.str hd (near_refl h0 h1 1 mw') _ _ _ _ c1
  have mm := msize_near h0 h1 E.a h S.m
  have base : Near ε (k + j + 71) (d / msize E.a mw S.m) y1 := by
    have e : d * powS (1 / msize E.a mw' S.m) none = d / msize E.a mw' S.m := by
      simp [powS, div_eq_mul_inv]
    rw [e] at n1
    have t := near_trans (near_div (near_refl h0 h1 0 d) mm) n1
    exact near_mono h0 h1 (by simp [times]; omega) t
  have c2 : scalarOf ((volume : Conv ℝ).call E.c.str (.scalar (d / msize E.a mw S.m)) (some "m3") none (some (-1)) true)
      = .ok (inUnits E.a S mw .density d) := by
    rw [scalarOf_call hU (nz_volume hU) (k := "unit_volume") rfl hU.v hU.valid.v (y := 1 ^ 3) rfl]
    simp [powS, inUnits]
  rw [← exact_volume] at c2
  obtain ⟨y2, f2, n2⟩ := call_near h0 h1 hA tv E.c.str base _ _ _ _ c2
  exact ⟨y2, by unfold densityOutF; rw [f1, exOk]; exact f2, near_mono h0 h1 (by simp [times]) n2⟩

theorem mixD_near (h0 : 0 ≤ ε) (h1 : ε ≤ 1e-6) (hA : Accurate ε A) {coll : Coll} {D : Entry} {comps : List Comp}
    (hS : Sound coll D comps) {M : Gas} (hM : IsMixture coll D M) {cs : Mixture} (hl : Lists comps cs)
    {E : Env} {S : Sys} (hU : Uses E S) (t p : ℝ) (hlo : M.Tlo ≤ toKelvin S.T.name t)
    (hhi : toKelvin S.T.name t ≤ M.Thi) (hlim : ∀ c ∈ cs, ∀ L ∈ c.2.data.Tlim, Clear ε A S (toKelvin S.T.name t) L) :
    ∃ y', mixD A E D.bymass (parts cs) t p = .ok y' ∧ Near ε (2 * cs.length + 239) (inUnits E.a S M.mw .density
      (internal E.a S M.mw .pressure p / (1000 * Ru * toKelvin S.T.name t))) y' := by
  have hlt : ε < 1 := by linarith
  obtain ⟨hc, hne⟩ := lists_proper hS hl
  obtain ⟨m1, m2⟩ := C117_model hS M hM cs hl
  have lim := (m2 _ hlo hhi).1
  have t0 : 200 ≤ toKelvin S.T.name t := by
    obtain ⟨c, h⟩ := List.exists_mem_of_ne_nil cs hne
    obtain ⟨bd, hb⟩ := shipped_checked c.2 (hl.2 c h)
    exact (s_size (hl.2 c h) hb _ (lim c h).1 (lim c h).2).1
  obtain ⟨T', eT, nT, aT, kT⟩ := kelvinF_near hU h0 h1 hA t0
  obtain ⟨P', eP, nP⟩ := pressure_near hU h0 hlt hA M.mw p
  have inside : ∀ c ∈ cs, Inside ε A T' c.2 := fun c h =>
    same_side h0 (hl.2 c h) (by linarith) aT (fun h => by rw [kT h, h]; simp [toKelvin, Scale.name]) (hlim c h)
      (lim c h).1 (lim c h).2
  have g : ¬ ∃ c ∈ parts cs, T' < A.lit (c.data.Tlim.headD 0) ∨ A.lit (c.data.Tlim.getLastD 0) < T' := by
    rintro ⟨c, hcm, h⟩
    obtain ⟨d, hd, rfl⟩ := List.mem_map.mp hcm
    exact in_limits hA (hl.2 d hd) (inside d hd) h
  have nmw := mw_near h0 hlt hA D.bymass hc
  rw [← m1] at nmw
  obtain ⟨y, ey, ny⟩ := densityOut_near hU h0 hlt hA (mix_mw_pos hS hM).ne' nmw
    (near_divided h0 hlt hA nP (near_scaled h0 hlt hA (R_near h0 hlt hA) nT))
  refine ⟨y, ?_, near_mono h0 hlt (by omega) ny⟩
  unfold mixD pascalF
  rw [eT, exOk, eP, exOk, if_neg g]
  exact ey

theorem densityIn_near {E : Env} {S : Sys} (hU : Uses E S) (h0 : 0 ≤ ε) (h1 : ε < 1) (hA : Accurate ε A) {j k : ℕ}
    {mw mw' : ℝ} (hmw : mw ≠ 0) (h : Near ε j mw mw') {d d' : ℝ} (hd : Near ε k d d') :
    ∃ x, densityF A E mw' d' = .ok x ∧ Near ε (k + j + 142) (internal E.a S mw .density d) x := by
  have hmw' : mw' ≠ 0 := fun e => hmw ((near_iff_zero h).mpr e)
  have tv : volumeT ∈ tables E.a := by simp [tables]
  have e1 := acts_scalar (acts_v hU (some (-1))) d
  have e2 := acts_scalar (acts_m hU hmw' none) (d * powS (size volume S.v) (some (-1)))
  rw [← exact_volume] at e1
  obtain ⟨y1, f1, n1⟩ := call_near h0 h1 hA tv E.c.str hd _ _ _ _ e1
  obtain ⟨y2, f2, n2⟩ := matter_near h0 h1 hA E.a E.c.str n1 (near_refl h0 h1 1 mw') _ _ _ _ e2
  refine ⟨y2, by unfold densityF; rw [f1, exOk]; exact f2, ?_⟩
  have mm := msize_near h0 h1 E.a h S.m
  have e : internal E.a S mw .density d = d * powS (size volume S.v) (some (-1)) * msize E.a mw S.m := by
    rw [powS_neg_one]
    simp only [internal]
    rw [div_eq_mul_inv]; ring
  rw [e]
  have t := near_trans (near_mul (near_refl h0 h1 0 (d * powS (size volume S.v) (some (-1)))) mm) n2
  exact near_mono h0 h1 (by simp [times]; omega) t

theorem mixP_near (h0 : 0 ≤ ε) (h1 : ε ≤ 1e-6) (hA : Accurate ε A) {coll : Coll} {D : Entry} {comps : List Comp}
    (hS : Sound coll D comps) {M : Gas} (hM : IsMixture coll D M) {cs : Mixture} (hl : Lists comps cs)
    {E : Env} {S : Sys} (hU : Uses E S) (t : ℝ) {k : ℕ} {d d' : ℝ} (hd : Near ε k d d') (hlo : M.Tlo ≤ toKelvin S.T.name t)
    (hhi : toKelvin S.T.name t ≤ M.Thi) (hlim : ∀ c ∈ cs, ∀ L ∈ c.2.data.Tlim, Clear ε A S (toKelvin S.T.name t) L) :
    ∃ y', mixP A E D.bymass (parts cs) t d' = .ok y' ∧ Near ε (k + 2 * cs.length + 239) (inUnits E.a S M.mw .pressure
      (internal E.a S M.mw .density d * (1000 * Ru * toKelvin S.T.name t))) y' := by
  have hlt : ε < 1 := by linarith
  obtain ⟨hc, hne⟩ := lists_proper hS hl
  obtain ⟨m1, m2⟩ := C117_model hS M hM cs hl
  have lim := (m2 _ hlo hhi).1
  have t0 : 200 ≤ toKelvin S.T.name t := by
    obtain ⟨c, h⟩ := List.exists_mem_of_ne_nil cs hne
    obtain ⟨bd, hb⟩ := shipped_checked c.2 (hl.2 c h)
    exact (s_size (hl.2 c h) hb _ (lim c h).1 (lim c h).2).1
  obtain ⟨T', eT, nT, aT, kT⟩ := kelvinF_near hU h0 h1 hA t0
  have inside : ∀ c ∈ cs, Inside ε A T' c.2 := fun c h =>
    same_side h0 (hl.2 c h) (by linarith) aT (fun h => by rw [kT h, h]; simp [toKelvin, Scale.name]) (hlim c h)
      (lim c h).1 (lim c h).2
  have g : ¬ ∃ c ∈ parts cs, T' < A.lit (c.data.Tlim.headD 0) ∨ A.lit (c.data.Tlim.getLastD 0) < T' := by
    rintro ⟨c, hcm, h⟩
    obtain ⟨d, hd, rfl⟩ := List.mem_map.mp hcm
    exact in_limits hA (hl.2 d hd) (inside d hd) h
  have nmw := mw_near h0 hlt hA D.bymass hc
  rw [← m1] at nmw
  obtain ⟨x, ex, nx⟩ := densityIn_near hU h0 hlt hA (mix_mw_pos hS hM).ne' nmw hd
  have n := near_scaled h0 hlt hA (near_scaled h0 hlt hA (near_scaled h0 hlt hA (near_refl h0 hlt 0 1000) nx)
    (Ru_near h0 hlt hA)) nT
  rw [show 1000 * internal E.a S M.mw .density d * Ru * toKelvin S.T.name t
    = internal E.a S M.mw .density d * (1000 * Ru * toKelvin S.T.name t) by ring] at n
  obtain ⟨y, ey, ny⟩ := pressure_out hU h0 hlt hA (mw := M.mw) n
  refine ⟨y, ?_, near_mono h0 hlt (by omega) ny⟩
  unfold mixP
  rw [eT, exOk, ex, exOk, if_neg g]
  exact ey

namespace Props

/-- C117, density and volume.  Let every operation of the arithmetic be accurate to `ε`.  For every mixture of `n` shipped
gases, in any amounts by mole or by mass and in every unit system, at a temperature between the limits of the mixture,
the density and the specific volume are off by at most `2.1 (n + 120) ε` of themselves. -/
theorem C117_density (h0 : 0 ≤ ε) (h1 : ε ≤ 1e-6) (hA : Accurate ε A) {coll : Coll} {D : Entry} {comps : List Comp}
    (hS : Sound coll D comps) (M : Gas) (hM : IsMixture coll D M) (cs : Mixture) (hl : Lists comps cs)
    (hn : (2 * cs.length + 240) * ε ≤ 1e-3) (E : Env) (S : Sys) (hU : Uses E S) (t p : ℝ)
    (hlo : M.Tlo ≤ toKelvin S.T.name t) (hhi : toKelvin S.T.name t ≤ M.Thi)
    (hlim : ∀ c ∈ cs, ∀ L ∈ c.2.data.Tlim, Clear ε A S (toKelvin S.T.name t) L) :
    ∃ d v d' v', method .d E M [.scalar t, .scalar p] [] = .ok [some d] ∧
      method .v E M [.scalar t, .scalar p] [] = .ok [some v] ∧
      mixD A E D.bymass (parts cs) t p = .ok d' ∧ mixV A E D.bymass (parts cs) t p = .ok v' ∧
      |d' - d| ≤ 2.1 * (cs.length + 120) * ε * |d| ∧ |v' - v| ≤ 2.1 * (cs.length + 120) * ε * |v| := by
  have hlt : ε < 1 := by linarith
  have hmw := (mix_mw_pos hS hM).ne'
  have l0 : (0 : ℝ) ≤ cs.length := Nat.cast_nonneg _
  obtain ⟨y, e, n⟩ := mixD_near h0 h1 hA hS hM hl hU t p hlo hhi hlim
  refine ⟨_, _, y, A.div 1 y, method_Tp hU hmw t p hlo hhi .d, method_Tp hU hmw t p hlo hhi .v, e,
    by unfold mixV; rw [e, exOk], ?_, ?_⟩
  · refine (within_of_near h0 (by push_cast; nlinarith) (by linarith) n).trans ?_
    refine mul_le_mul_of_nonneg_right ?_ (abs_nonneg _)
    push_cast; nlinarith
  · have n := near_divided h0 hlt hA (near_refl h0 hlt 0 1) n
    refine (within_of_near h0 (by push_cast; nlinarith) (by linarith) n).trans ?_
    refine mul_le_mul_of_nonneg_right ?_ (abs_nonneg _)
    push_cast; nlinarith

/-- C117, pressure: the same for the pressure at a temperature and a density. -/
theorem C117_pressure (h0 : 0 ≤ ε) (h1 : ε ≤ 1e-6) (hA : Accurate ε A) {coll : Coll} {D : Entry} {comps : List Comp}
    (hS : Sound coll D comps) (M : Gas) (hM : IsMixture coll D M) (cs : Mixture) (hl : Lists comps cs)
    (hn : (2 * cs.length + 240) * ε ≤ 1e-3) (E : Env) (S : Sys) (hU : Uses E S) (t d : ℝ)
    (hlo : M.Tlo ≤ toKelvin S.T.name t) (hhi : toKelvin S.T.name t ≤ M.Thi)
    (hlim : ∀ c ∈ cs, ∀ L ∈ c.2.data.Tlim, Clear ε A S (toKelvin S.T.name t) L) :
    ∃ y y', method .p E M [] [("T", .scalar t), ("d", .scalar d)] = .ok [some y] ∧
      mixP A E D.bymass (parts cs) t d = .ok y' ∧ |y' - y| ≤ 2.1 * (cs.length + 120) * ε * |y| := by
  have hlt : ε < 1 := by linarith
  have l0 : (0 : ℝ) ≤ cs.length := Nat.cast_nonneg _
  obtain ⟨y, e, n⟩ := mixP_near h0 h1 hA hS hM hl hU t (near_refl h0 hlt 0 d) hlo hhi hlim
  refine ⟨_, y, method_Td hU (mix_mw_pos hS hM).ne' t d hlo hhi .p, e, ?_⟩
  refine (within_of_near h0 (by push_cast; nlinarith) (by linarith) n).trans ?_
  refine mul_le_mul_of_nonneg_right ?_ (abs_nonneg _)
  push_cast; nlinarith

/-- C117, round trip: the pressure at the density that was computed from a pressure is that pressure, within
`4.1 (n + 120) ε` of itself. -/
theorem C117_roundtrip (h0 : 0 ≤ ε) (h1 : ε ≤ 1e-6) (hA : Accurate ε A) {coll : Coll} {D : Entry} {comps : List Comp}
    (hS : Sound coll D comps) (M : Gas) (hM : IsMixture coll D M) (cs : Mixture) (hl : Lists comps cs)
    (hn : (4 * cs.length + 480) * ε ≤ 1e-3) (E : Env) (S : Sys) (hU : Uses E S) (t p : ℝ)
    (hlo : M.Tlo ≤ toKelvin S.T.name t) (hhi : toKelvin S.T.name t ≤ M.Thi)
    (hlim : ∀ c ∈ cs, ∀ L ∈ c.2.data.Tlim, Clear ε A S (toKelvin S.T.name t) L) :
    ∃ d' p', mixD A E D.bymass (parts cs) t p = .ok d' ∧ mixP A E D.bymass (parts cs) t d' = .ok p' ∧
      |p' - p| ≤ 4.1 * (cs.length + 120) * ε * |p| := by
  have hlt : ε < 1 := by linarith
  have hmw := (mix_mw_pos hS hM).ne'
  have l0 : (0 : ℝ) ≤ cs.length := Nat.cast_nonneg _
  obtain ⟨d', e, n⟩ := mixD_near h0 h1 hA hS hM hl hU t p hlo hhi hlim
  obtain ⟨p', e', n'⟩ := mixP_near h0 h1 hA hS hM hl hU t n hlo hhi hlim
  refine ⟨d', p', e, e', ?_⟩
  obtain ⟨hc, hne⟩ := lists_proper hS hl
  have t0 : 0 < toKelvin S.T.name t := by
    obtain ⟨c, h⟩ := List.exists_mem_of_ne_nil cs hne
    obtain ⟨bd, hb⟩ := shipped_checked c.2 (hl.2 c h)
    have lim := ((C117_model hS M hM cs hl).2 _ hlo hhi).1
    have := (s_size (hl.2 c h) hb _ (lim c h).1 (lim c h).2).1
    linarith
  have R0 : 0 < Ru := Shipped.Ru_pos
  rw [internal_inUnits hU hmw, div_mul_cancel₀ _ (by positivity), inUnits_internal hU hmw] at n'
  refine (within_of_near h0 (by push_cast; nlinarith) (by linarith) n').trans ?_
  refine mul_le_mul_of_nonneg_right ?_ (abs_nonneg _)
  push_cast; nlinarith

/-- C117, density of the mixtures that come with the package, in double precision with temperatures in kelvin. -/
theorem C117_density_shipped (m : MixFile) (hm : m ∈ shippedMix) (E : Env) (S : Sys) (hU : Uses E S) (hK : S.T = .K)
    (t p : ℝ) (h1 : 200 ≤ t) (h2 : t ≤ 6000) :
    ∃ comps M cs d d', Sound loaded m.entry comps ∧ Lists comps cs ∧ IsMixture loaded m.entry M ∧
      method .d E M [.scalar t, .scalar p] [] = .ok [some d] ∧
      mixD double E m.bymass (parts cs) t p = .ok d' ∧ |d' - d| ≤ 3e-14 * |d| := by
  obtain ⟨comps, M, cs, hS, hM, hl, hw, hn, e1, e2⟩ := shipped_lists m hm
  have hlen : cs.length ≤ 4 := by
    rw [hn]
    simp only [shippedMix, List.mem_cons, List.not_mem_nil, or_false] at hm
    rcases hm with rfl | rfl | rfl <;> simp [air, f5, h35]
  have l0 : (0 : ℝ) ≤ cs.length := Nat.cast_nonneg _
  have l1 : (cs.length : ℝ) ≤ 4 := by exact_mod_cast hlen
  have u0 : (0 : ℝ) < 2 ^ (-53 : ℤ) := by positivity
  have u1 : (2 : ℝ) ^ (-53 : ℤ) ≤ 1.1103e-16 := by norm_num [zpow_neg]
  have eK : toKelvin S.T.name t = t := by rw [hK]; simp [toKelvin, Scale.name]
  obtain ⟨d, v, d', v', a, -, b, -, c, -⟩ := C117_density double_small.1 double_small.2 double_accurate hS M hM cs hl
    (by nlinarith) E S hU t p (by rw [eK, e1]; exact h1) (by rw [eK, e2]; exact h2)
    (fun d hd L hL => Or.inl ⟨hK, whole_lit (hl.2 d hd) (hw d hd) L hL⟩)
  refine ⟨comps, M, cs, d, d', hS, hl, hM, a, b, c.trans (mul_le_mul_of_nonneg_right ?_ (abs_nonneg _))⟩
  nlinarith

/-- Every hypothesis is met: the density of air at 300 K. -/
example : ∃ comps M cs d d', Sound loaded air.entry comps ∧ Lists comps cs ∧ IsMixture loaded air.entry M ∧
    method .d kmolEnv M [.scalar 300, .scalar 1] [] = .ok [some d] ∧
    mixD double kmolEnv air.bymass (parts cs) 300 1 = .ok d' ∧ |d' - d| ≤ 3e-14 * |d| :=
  C117_density_shipped air (by simp [shippedMix]) kmolEnv kmolSys kmolEnv_uses rfl 300 1 (by norm_num) (by norm_num)

end Props

end PyroMat.Float
