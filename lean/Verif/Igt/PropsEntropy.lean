import Verif.Igt.PropsInverse

/-!
# C83: a dynamic mixture given its entropy reports it
-/

set_option linter.unusedSectionVars false
set_option linter.unusedSimpArgs false

namespace PyroMat.Igt.Props

open PyroMat PyroMat.Gas PyroMat.Igt PyroMat.Igt.Spec PyroMat.Config.Defaults
open PyroMat.Units PyroMat.Units.Spec PyroMat.Units.Props PyroMat.Gas.Spec PyroMat.Gas.Props
open scoped BigOperators

variable {σ : Type} [DecidableEq σ]

theorem entrM_ok {E : Env} {S : Sys} (hU : Uses E S) (a : NArr) :
    entrM E a = .ok ⟨a.shape, fun i => (a.val i).map
      (· * (size energy S.e / 1000 * (size temperature S.T.name / 1.8)⁻¹))⟩ := by
  unfold entrM
  rw [conv_ok (Does.of_acts (acts_e hU none)), exbind_ok, conv_ok (Does.of_acts (acts_t hU (some (-1))))]
  congr 2
  funext i
  simp only [Option.map_map, Function.comp_def, powS_none', powS_inv', mul_assoc]

theorem rowsAt_once {m : Mix σ} (hnd : m.c.Nodup) (j : List Nat) (f : σ → ℝ → ℝ) :
    ((rowsAt m j).map (fun r => f r.1 r.2)).sum = ∑ s ∈ m.c.toFinset, f s (amount m s j) := by
  rw [← rows_nodup hnd j f]
  unfold rowsAt
  rw [List.map_map]
  rfl

theorem at_within {m : Mix σ} {i : List Nat} (hi : Within i m.shape) : m.at i = i := by
  unfold Mix.at
  rw [within_length hi, Nat.sub_self, List.drop_zero, clip_eq_src, src_within hi]

/-- The common or mean reference pressure. -/
theorem prefMix_log {L : Lib σ} {m : Mix σ} (hnd : m.c.Nodup) (hne : m.c ≠ []) {i : List Nat}
    (hi : Within i m.shape) (hpr : ∀ s ∈ m.c, 0 < (L.gas s).pref) (hn : 0 < kmols m i) :
    0 < prefMix L m i ∧ Real.log (prefMix L m i) * kmols m i =
      ∑ s ∈ m.c.toFinset, amount m s i * Real.log (L.gas s).pref := by
  classical
  have htot : total m i = kmols m i := by rw [kmols_total, at_within hi]
  have hk : kmols m i = ∑ s ∈ m.c.toFinset, amount m s i := by rw [kmols_place, at_within hi]
  unfold prefMix
  split
  · rename_i hc; exact absurd hc hne
  · rename_i s0 rest hc
    split_ifs with hall
    · have h0 : s0 ∈ m.c := by rw [hc]; simp
      refine ⟨hpr s0 h0, ?_⟩
      rw [hk, Finset.mul_sum]
      refine Finset.sum_congr rfl fun s hs => ?_
      have hs' : s ∈ m.c := by simpa using hs
      have := List.all_eq_true.mp hall s hs'
      rw [of_decide_eq_true this, mul_comm]
    · refine ⟨Real.exp_pos _, ?_⟩
      rw [Real.log_exp, htot, div_mul_cancel₀ _ hn.ne']
      exact rowsAt_once hnd i (fun s q => q * Real.log (L.gas s).pref)

/-- The pressure found from an entropy gives that entropy. -/
theorem entropy_back {L : Lib σ} {m : Mix σ} (hnd : m.c.Nodup) {i : List Nat}
    (hi : Within i m.shape) (hq : ∀ s ∈ m.c, 0 ≤ amount m s i)
    (hpr : ∀ s ∈ m.c, 0 < (L.gas s).pref) (hn : 0 < kmols m i) (x : ℝ) :
    -(Ru * ∑ s ∈ m.c.toFinset, amount m s i * Real.log (if amount m s i ≤ 0 then 1 else
      prefMix L m i * Real.exp (-(x + Ru * mixLog m i) / Ru / total m i) *
        (amount m s i / kmols m i) / (L.gas s).pref)) = x := by
  classical
  have hne : m.c ≠ [] := by
    intro h
    rw [kmols_place, h] at hn
    simp at hn
  obtain ⟨h1, h2⟩ := prefMix_log hnd hne hi hpr hn
  have htot : total m i = kmols m i := by rw [kmols_total, at_within hi]
  have hk : kmols m i = ∑ s ∈ m.c.toFinset, amount m s i := by rw [kmols_place, at_within hi]
  have hR : Ru ≠ 0 := Ru_pos.ne'
  rw [htot]
  generalize hp : prefMix L m i * Real.exp (-(x + Ru * mixLog m i) / Ru / kmols m i) = p
  have hp0 : 0 < p := by rw [← hp]; exact mul_pos h1 (Real.exp_pos _)
  have hlog : Real.log p * kmols m i = (∑ s ∈ m.c.toFinset, amount m s i * Real.log (L.gas s).pref)
      - (x + Ru * mixLog m i) / Ru := by
    rw [← hp, Real.log_mul h1.ne' (Real.exp_pos _).ne', Real.log_exp, add_mul, h2,
      div_mul_cancel₀ _ hn.ne']
    ring
  have hmix : mixLog m i = ∑ s ∈ m.c.toFinset,
      amount m s i * Real.log (if amount m s i ≤ 0 then 1 else amount m s i / kmols m i) := by
    unfold mixLog
    rw [htot]
    exact rowsAt_once hnd i (fun s q => q * Real.log (if q ≤ 0 then 1 else q / kmols m i))
  have hterm : ∀ s ∈ m.c.toFinset, amount m s i * Real.log (if amount m s i ≤ 0 then 1 else
      p * (amount m s i / kmols m i) / (L.gas s).pref) = amount m s i * Real.log p +
      amount m s i * Real.log (if amount m s i ≤ 0 then 1 else amount m s i / kmols m i) -
      amount m s i * Real.log (L.gas s).pref := by
    intro s hs
    have hs' : s ∈ m.c := by simpa using hs
    rcases (hq s hs').eq_or_lt with h0 | h0
    · rw [← h0]; simp
    · rw [if_neg (not_le.mpr h0), if_neg (not_le.mpr h0),
        Real.log_div (mul_pos hp0 (div_pos h0 hn)).ne' (hpr s hs').ne',
        Real.log_mul hp0.ne' (div_pos h0 hn).ne']
      ring
  rw [Finset.sum_congr rfl hterm, Finset.sum_sub_distrib, Finset.sum_add_distrib, ← hmix,
    ← Finset.sum_mul, ← hk, mul_comm (kmols m i), hlog]
  field_simp
  ring

/-- What a reported entropy consists of. -/
theorem shows_S {E : Env} {S : Sys} (hU : Uses E S) {L : Lib σ} {m : Mix σ} {varg : List Arr} {kw : KwM}
    (hnd : m.c.Nodup) {i : List Nat} (hi : Within i m.shape) {x : ℝ}
    (sT : HasShape (iT E L m varg kw) m.shape) (sP : HasShape (iP E L m varg kw) m.shape)
    (hx : Shows (iS E L m varg kw) i x) :
    ∃ st P t p z, argparseM E L m varg kw = .ok st ∧ st.T.shape = m.shape ∧ st.T.val i = some t ∧
      st.pressure = .ok P ∧ P.shape = m.shape ∧ P.val i = some p ∧
      mixSum (fun s => ((L.gas s).s t).map (·.1)) (rowsAt m i) = some z ∧
      x = (z + -(Ru * ∑ s ∈ m.c.toFinset, amount m s i * logPart L m i p s)) *
        (1000 / size energy S.e * (size temperature S.T.name / 1.8)) := by
  obtain ⟨A, a1, a2⟩ := hx
  unfold iS at a1
  obtain ⟨st, h1, a1⟩ := exbind_inv a1
  obtain ⟨P, h2, a1⟩ := exbind_inv a1
  obtain ⟨X, h3, a1⟩ := exbind_inv a1
  obtain ⟨Y, h4, a1⟩ := exbind_inv a1
  obtain ⟨Z, h5, a1⟩ := exbind_inv a1
  have hTs : st.T.shape = m.shape := by
    obtain ⟨B, b1, b2⟩ := sT
    unfold iT at b1
    rw [h1, exbind_ok, conv_ok (does_out_T hU)] at b1
    cases b1; exact b2
  have hPs : P.shape = m.shape := by
    obtain ⟨B, b1, b2⟩ := sP
    unfold iP at b1
    rw [h1, exbind_ok, h2, exbind_ok, conv_ok (does_out_p hU)] at b1
    cases b1; exact b2
  have hat := at_within hi
  have hXs : X.shape = m.shape ∧ X.val i = (st.T.val i).bind (fun t =>
      mixSum (fun s => ((L.gas s).s t).map (·.1)) (rowsAt m i)) := by
    unfold propeval at h3
    rw [hTs, npShape_self, exbind_ok] at h3
    cases h3
    refine ⟨rfl, ?_⟩
    dsimp only
    rw [get_same (by rw [hTs]; exact hi), hat]
  have hYs : Y.shape = m.shape ∧ (P.val i = none → Y.val i = none) := by
    unfold spMix at h4
    obtain ⟨-, -, h4⟩ := exbind_inv h4
    rw [hPs, npShape_self, exbind_ok, if_neg (by simp), if_neg (by simp)] at h4
    cases h4
    refine ⟨rfl, fun h => ?_⟩
    dsimp only
    rw [h, Option.bind_none]
  obtain ⟨Z', z1, z2, z3⟩ := zip_same (f := (· + ·)) hXs.1 hYs.1
  rw [h5] at z1; cases z1
  rw [outS_ok hU] at a1
  cases a1
  change NArr.get ⟨Z.shape, _⟩ i = some x at a2
  rw [get_same (by rw [z2]; exact hi)] at a2
  dsimp only at a2
  rw [z3 i hi, hXs.2] at a2
  cases hP : P.val i with
  | none => rw [hYs.2 hP] at a2; unfold nan2 at a2; simp at a2
  | some p =>
    obtain ⟨-, y2⟩ := spMix_val hnd h4 hPs hi hP
    rw [y2] at a2
    cases hT : st.T.val i with
    | none => rw [hT] at a2; simp [nan2] at a2
    | some t =>
      rw [hT, Option.bind_some] at a2
      cases hM : mixSum (fun s => ((L.gas s).s t).map (·.1)) (rowsAt m i) with
      | none => rw [hM] at a2; simp [nan2] at a2
      | some z =>
        rw [hM] at a2
        simp only [nan2, Option.bind_some, Option.map_some, Option.some.injEq] at a2
        exact ⟨st, P, t, p, z, h1, hTs, hT, h2, hPs, hP, hM, by rw [← a2, mul_assoc]; rfl⟩

/-- **C83.** Given entropy and temperature (or enthalpy or internal energy).  With constituents
entered once, reference pressures above 0 and amounts not below 0, at a position that holds some
matter the entropy that the mixture reports is exactly the entropy given for that position.  Partial:
the arguments have the shape of the mixture (other calls raise an error, `C81_shape_defect`). -/
theorem C83_given_entropy_temperature_partial (E : Env) (S : Sys) (hU : Uses E S) (L : Lib σ)
    (m : Mix σ) (hnd : m.c.Nodup) (hpr : ∀ s ∈ m.c, 0 < (L.gas s).pref) (varg : List Arr) (kw : KwM)
    (vs vb : Arr) (b : String) (hs : SuppliesM varg kw "s" vs b vb) (hb : b ∈ ["T", "h", "e"])
    (sT : HasShape (iT E L m varg kw) m.shape) (sP : HasShape (iP E L m varg kw) m.shape)
    (i : List Nat) (hi : Within i m.shape) (hq : ∀ s ∈ m.c, 0 ≤ amount m s i) (hn : 0 < kmols m i)
    (x : ℝ) (hx : Shows (iS E L m varg kw) i x) : x = entry vs i := by
  obtain ⟨st, P, t, p, z, h1, h2, h3, h4, h5, h6, h7, h8⟩ := shows_S hU hnd hi sT sP hx
  obtain ⟨lim, k, st0, hl, hc, g1, g2⟩ := stages hs h1
  obtain ⟨r1, r2, -, -, r3, r4, -⟩ := rangeM_inv g2
  obtain ⟨ss, s1, s2⟩ := argM_some lookup_first hc.s
  rw [entrM_ok hU] at s1
  cases s1
  have kp : k.p = none := argM_none (lookup_neither (by decide) (by rintro rfl; simp at hb)) hc.p
  unfold solveM at g1
  rw [s2, kp] at g1
  dsimp only at g1
  split at g1
  · cases g1
  · cases hT : k.T with
    | none => rw [hT] at g1; cases g1
    | some T =>
      rw [hT] at g1
      dsimp only at g1
      obtain ⟨⟨a, t'⟩, j1, g1⟩ := exbind_inv g1
      obtain ⟨P', e1, g1⟩ := exbind_inv g1
      cases g1
      dsimp only at r1 r2 r3 r4 e1
      unfold MixState.pressure at h4
      rw [r1] at h4
      cases h4
      have ht' := r4 i t h3
      have hts : t'.shape = m.shape := by rw [← r3]; exact h2
      unfold entropyT at e1
      obtain ⟨pe, q1, e1⟩ := exbind_inv e1
      obtain ⟨d, q2, e1⟩ := exbind_inv e1
      obtain ⟨sh, q3, e1⟩ := exbind_inv e1
      split at e1
      · cases e1
      · obtain ⟨-, -, e1⟩ := exbind_inv e1
        cases e1
        dsimp only at h5 h6
        obtain ⟨w1, w2⟩ := propeval_same q1 hts hi ht'
        rw [h7] at w2
        have hpe : pe.get i = some z := by rw [get_same (by rw [w1]; exact hi)]; exact w2
        rw [zip_inv q2, hpe, conv_get, atleast1_get] at h6
        simp only [Option.map_some, nan2, Option.bind_some, at_within hi, Option.some.injEq] at h6
        have back := entropy_back hnd hi hq hpr hn (entry vs i *
          (size energy S.e / 1000 * (size temperature S.T.name / 1.8)⁻¹) - z)
        rw [h6] at back
        rw [h8]
        unfold logPart
        rw [back]
        have he := es_ne hU
        have ht := ts_ne hU
        field_simp
        ring

theorem pressurePart_eq {L : Lib σ} {m : Mix σ} {i : List Nat} (hi : Within i m.shape)
    (hq : ∀ s ∈ m.c, 0 ≤ amount m s i) (p : ℝ) :
    -(Ru * ∑ s ∈ m.c.toFinset, amount m s i * logPart L m i p s) = pressurePart L m i p := by
  unfold pressurePart logPart molFrac
  rw [place_within hi]
  congr 2
  refine Finset.sum_congr rfl fun s hs => ?_
  have hs' : s ∈ m.c := by simpa using hs
  rcases (hq s hs').eq_or_lt with h0 | h0
  · rw [← h0]; simp
  · rw [if_neg (not_le.mpr h0)]

/-- **C83.** Given entropy and pressure.  For constituents entered once, with common temperature
limits, whose entropies at the reference pressure rise with temperature (slopes between `a` and `M`,
jumps at most `J` in all), if no warning is printed, at every position that holds some matter the
entropy that the mixture reports differs from the entropy given by at most `(1 + M/a) * 1e-6` of the
entropy without its pressure part, plus the jumps times the amount.  Partial: the arguments have the
shape of the mixture (other calls raise an error, `C81_shape_defect`). -/
theorem C83_given_entropy_pressure_partial (E : Env) (S : Sys) (hU : Uses E S) (L : Lib σ)
    (m : Mix σ) (hnd : m.c.Nodup) (lo up a M J : ℝ) (hcr : CommonRange L m lo up)
    (hR : ∀ s ∈ m.c, Rises (L.gas s).s lo up a M J) (varg : List Arr) (kw : KwM)
    (vs vp : Arr) (hs : SuppliesM varg kw "s" vs "p" vp) (hsil : SilentM E L m varg kw)
    (sT : HasShape (iT E L m varg kw) m.shape) (sP : HasShape (iP E L m varg kw) m.shape)
    (i : List Nat) (hi : Within i m.shape) (hq : ∀ s ∈ m.c, 0 ≤ amount m s i) (hn : 0 < kmols m i)
    (x : ℝ) (hx : Shows (iS E L m varg kw) i x) (u : ℝ)
    (hu : u = 1000 / size energy S.e * (size temperature S.T.name / 1.8)) :
    |x - entry vs i| ≤ (1 + M / a) * 1e-6 *
      |entry vs i - pressurePart L m i (entry vp i * size (Units.pressure E.a) S.p) * u| +
      |kmols m i * J * u| := by
  obtain ⟨st, P, t, p, z, h1, h2, h3, h4, h5, h6, h7, h8⟩ := shows_S hU hnd hi sT sP hx
  have hwarn := hsil st h1
  obtain ⟨lim, k, st0, hl, hc, g1, g2⟩ := stages hs h1
  rw [common_lims hU hcr hl] at g1 g2
  dsimp only at g1 g2
  obtain ⟨r1, r2, -, r5, r3, r4, -⟩ := rangeM_inv g2
  obtain ⟨ss, s1, s2⟩ := argM_some lookup_first hc.s
  rw [entrM_ok hU] at s1
  cases s1
  obtain ⟨pp, p1, p2⟩ := argM_some (a := vp) (by simp [List.lookup_cons]) hc.p
  rw [conv_ok (does_in_p hU)] at p1
  cases p1
  unfold solveM at g1
  rw [s2, p2] at g1
  dsimp only at g1
  split at g1
  · cases g1
  · obtain ⟨sh1, -, g1⟩ := exbind_inv g1
    obtain ⟨sh2, -, g1⟩ := exbind_inv g1
    obtain ⟨pb, b1, g1⟩ := exbind_inv g1
    obtain ⟨q, q1, g1⟩ := exbind_inv g1
    obtain ⟨y, y1, g1⟩ := exbind_inv g1
    obtain ⟨⟨T, w⟩, e1, g1⟩ := exbind_inv g1
    cases g1
    dsimp only at r1 r2 r3 r4 r5
    rw [hwarn] at r5
    subst r5
    unfold MixState.pressure at h4
    rw [r1] at h4
    cases h4
    obtain ⟨b2, b3, b4⟩ := bto_inv b1
    have hp : p = entry vp i * size (Units.pressure E.a) S.p := by
      have := b4 i (by rw [within_length hi, ← h5, b2])
      rw [h6, conv_get, atleast1_get] at this
      exact Option.some.inj this
    subst hp
    obtain ⟨w1, w2⟩ := spMix_val hnd q1 h5 hi h6
    obtain ⟨i1, i2, i3⟩ := iterMix_at e1
    have hys : y.shape = m.shape := by rw [← i1, ← r3]; exact h2
    have hqg : q.get i = some (pressurePart L m i (entry vp i * size (Units.pressure E.a) S.p)) := by
      rw [get_same (by rw [w1]; exact hi), w2, ← pressurePart_eq hi hq]
      rfl
    have hy : y.val i = some (entry vs i * (size energy S.e / 1000 * (size temperature S.T.name / 1.8)⁻¹) -
        pressurePart L m i (entry vp i * size (Units.pressure E.a) S.p)) := by
      rw [zip_inv y1, hqg, conv_get, atleast1_get]
      rfl
    obtain ⟨v, w', v1, v2, v3⟩ := i3 i (by rw [hys]; exact hi) _ hy
    rw [v3 rfl, at_within hi] at v2
    have hk : kmols m i = ∑ s ∈ m.c.toFinset, amount m s i := by rw [kmols_place, at_within hi]
    obtain ⟨t', z', rfl, t1, t2, t3, t4⟩ := iter1_regular hcr.1 (mix_regular hR hcr.2.1 hq (by rw [← hk]; exact hn)) v2
    rw [r4 i t h3] at v1
    cases v1
    rw [← hk, mul_div_mul_left _ _ hn.ne'] at t4
    have hz : z' = z := by
      obtain ⟨g, g', hg⟩ : ∃ g g' : σ → ℝ, ∀ s ∈ m.c, (L.gas s).s t = some (g s, g' s) := by
        have : ∀ s ∈ m.c, ∃ y y', (L.gas s).s t = some (y, y') := fun s hs => by
          obtain ⟨y, y', h, -⟩ := (hR s hs).slope t t1 t2
          exact ⟨y, y', h⟩
        choose! g g' hg using this
        exact ⟨g, g', hg⟩
      rw [mixEval_eq hg] at t3
      rw [mixSum_weigh (g := g) (fun s hs => by rw [hg s hs]; rfl)] at h7
      simp only [Option.map_some, Option.some.injEq] at t3 h7
      rw [← t3, ← h7]
    subst hz
    rw [pressurePart_eq hi hq] at h8
    generalize pressurePart L m i (entry vp i * size (Units.pressure E.a) S.p) = π at *
    have he := es_ne hU
    have ht := ts_ne hU
    have hu0 : u ≠ 0 := by
      rw [hu]
      exact mul_ne_zero (div_ne_zero (by norm_num) he) (div_ne_zero ht (by norm_num))
    have hinv : size energy S.e / 1000 * (size temperature S.T.name / 1.8)⁻¹ = u⁻¹ := by
      rw [hu]; field_simp
    rw [hinv] at t4
    rw [← hu] at h8
    have hJ : 0 ≤ kmols m i * J := by
      obtain ⟨s, hs⟩ := List.exists_mem_of_ne_nil _ hcr.2.1
      exact mul_nonneg hn.le (hR s hs).J_nonneg
    have e1 : x - entry vs i = (z' - (entry vs i * u⁻¹ - π)) * u := by
      rw [h8]; field_simp; ring
    have e2 : |entry vs i - π * u| = |entry vs i * u⁻¹ - π| * |u| := by
      rw [← abs_mul]
      congr 1
      field_simp
    rw [e1, abs_mul, abs_mul (kmols m i * J), abs_of_nonneg hJ, e2, ← mul_assoc, ← add_mul]
    refine mul_le_mul_of_nonneg_right ?_ (abs_nonneg _)
    rw [mul_assoc]
    exact t4

end PyroMat.Igt.Props
