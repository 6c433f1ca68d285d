import Verif.Float.PropsMix
import Verif.Float.IterExamples
import Verif.Shipped.PropsMixes

/-!
# C117: the exact model of mixtures, double precision, and mixtures that meet the hypotheses
-/

set_option linter.unusedSimpArgs false

namespace PyroMat.Float

open PyroMat PyroMat.Units PyroMat.Gas PyroMat.Gas.Spec PyroMat.Gas.Props PyroMat.Gas.Mix PyroMat.Shipped PyroMat.Shipped.Props
open PyroMat.Float.Spec

/-- The value of an inner routine of the exact model. -/
noncomputable def MQ.exact (M : Gas) (q : MQ) (T : ℝ) : Nan :=
  match q with
  | .cp => M.cp T
  | .h => (M.h T).map (·.1)
  | .e => (M.h T).map fun r => r.1 - Ru * T
  | .s => (M.s T).map (·.1)
  | .g => (M.g T).map (·.1)
  | .f => (M.f T).map (·.1)

/-- The constituents are these shipped gases in these amounts, whatever they are called. -/
def Lists (comps : List Comp) (cs : Mixture) : Prop :=
  comps.map (fun c => (c.qty, c.gas)) = cs.map (fun c => (c.1, c.2.gas)) ∧ ∀ c ∈ cs, c.2 ∈ shipped

theorem lists_sum {comps : List Comp} {cs : Mixture} (h : Lists comps cs) (F : ℝ × Gas → ℝ) :
    (comps.map fun c => F (c.qty, c.gas)).sum = (cs.map fun c => F (c.1, c.2.gas)).sum := by
  have := congrArg (fun l => (l.map F).sum) h.1
  simpa [Function.comp_def] using this

theorem lists_frac {comps : List Comp} {cs : Mixture} (h : Lists comps cs) (b : Bool) (F : ℝ → Gas → ℝ) :
    (comps.map fun c => F (moleFrac b comps c) c.gas).sum = (cs.map fun c => F (xOf b cs c) c.2.gas).sum := by
  have t := lists_sum h (fun p => if b then p.1 / p.2.mw else p.1)
  have e1 : (comps.map (Gas.Spec.moles b)).sum = (cs.map (moleAmount b)).sum := by
    refine t.trans (congrArg List.sum (List.map_congr_left fun c _ => ?_))
    simp only [moleAmount, gas_mw]
  have := lists_sum h (fun p => F ((if b then p.1 / p.2.mw else p.1) / (cs.map (moleAmount b)).sum) p.2)
  refine Eq.trans ?_ (this.trans (congrArg List.sum (List.map_congr_left fun c _ => ?_)))
  · refine congrArg List.sum (List.map_congr_left fun c _ => ?_)
    simp only [moleFrac, e1]; rfl
  · simp only [xOf, moleAmount, gas_mw]

theorem lists_proper {coll : Coll} {D : Entry} {comps : List Comp} {cs : Mixture} (hS : Sound coll D comps)
    (h : Lists comps cs) : Proper cs ∧ cs ≠ [] := by
  constructor
  · intro c hc
    refine ⟨?_, h.2 c hc⟩
    have : (c.1, c.2.gas) ∈ comps.map (fun c => (c.qty, c.gas)) := by rw [h.1]; exact List.mem_map.mpr ⟨c, hc, rfl⟩
    obtain ⟨d, hd, e⟩ := List.mem_map.mp this
    have := hS.qty d hd
    simp only [Prod.mk.injEq] at e
    rwa [e.1] at this
  · intro e
    have := h.1
    rw [e] at this
    simp only [List.map_nil, List.map_eq_nil_iff] at this
    exact hS.nonempty this

namespace Props

/-- C117, the model.  What C117 compares the program with is what the exact model of mixtures (C38, C100) has: the
molecular weight, and the values of the inner routines at any temperature between the limits of the mixture. -/
theorem C117_model {coll : Coll} {D : Entry} {comps : List Comp} (hS : Sound coll D comps) (M : Gas)
    (hM : IsMixture coll D M) (cs : Mixture) (hl : Lists comps cs) :
    M.mw = mwOf D.bymass cs ∧
    ∀ T, M.Tlo ≤ T → T ≤ M.Thi → (∀ c ∈ cs, c.2.gas.Tlo ≤ T ∧ T ≤ c.2.gas.Thi) ∧
      ∀ q : MQ, q.exact M T = some (valueOf D.bymass cs q T) := by
  obtain ⟨hp, hne⟩ := lists_proper hS hl
  have tot := moles_sum_pos D.bymass hp hne
  have inCs : ∀ c ∈ comps, ∃ d ∈ cs, c.gas = d.2.gas := by
    intro c hc
    have : (c.qty, c.gas) ∈ cs.map (fun c => (c.1, c.2.gas)) := by rw [← hl.1]; exact List.mem_map.mpr ⟨c, hc, rfl⟩
    obtain ⟨d, hd, e⟩ := List.mem_map.mp this
    simp only [Prod.mk.injEq] at e
    exact ⟨d, hd, e.2.symm⟩
  constructor
  · conv_lhs => rw [(mixture_eq hS hM).1]
    show (comps.map (fun c => moleFrac D.bymass comps c * c.gas.mw)).sum = _
    rw [lists_frac hl D.bymass (fun x G => x * G.mw)]
    unfold mwOf
    rw [eq_div_iff tot.ne', ← List.sum_map_mul_right]
    refine congrArg List.sum (List.map_congr_left fun c _ => ?_)
    unfold xOf
    rw [gas_mw]
    field_simp
  · intro T h1 h2
    have coh : ∀ c ∈ comps, Coherent c.gas := by
      intro c hc
      obtain ⟨d, hd, e⟩ := inCs c hc
      obtain ⟨b, hb⟩ := shipped_checked d.2 (hl.2 d hd)
      rw [e]; exact gas_coherent hb
    obtain ⟨h, s, cp, sT, gT, hv, hr⟩ := comp_values hS hM coh h1 h2
    obtain ⟨k1, k2, k3, k4⟩ := mix_inner hS hM hv
    refine ⟨?_, ?_⟩
    · intro d hd
      have : (d.1, d.2.gas) ∈ comps.map (fun c => (c.qty, c.gas)) := by rw [hl.1]; exact List.mem_map.mpr ⟨d, hd, rfl⟩
      obtain ⟨c, hc, e⟩ := List.mem_map.mp this
      simp only [Prod.mk.injEq] at e
      rw [← e.2]; exact hr c hc
    have sum : ∀ (v : Comp → ℝ) (F : Gas → ℝ), (∀ c ∈ comps, v c = F c.gas) →
        (comps.map fun c => moleFrac D.bymass comps c * v c).sum = (cs.map fun c => xOf D.bymass cs c * F c.2.gas).sum := by
      intro v F hvF
      rw [← lists_frac hl D.bymass (fun x G => x * F G)]
      refine congrArg List.sum (List.map_congr_left fun c hc => ?_)
      rw [hvF c hc]
    have ecp := sum cp (fun G => (G.cp T).getD 0) (fun c hc => by rw [(hv c hc).2.1]; rfl)
    have eh := sum h (fun G => ((G.h T).map (·.1)).getD 0) (fun c hc => by rw [(hv c hc).1]; rfl)
    have es := sum s (fun G => ((G.s T).map (·.1)).getD 0) (fun c hc => by rw [(hv c hc).2.2.1]; rfl)
    have eg := sum (fun c => h c - T * s c) (fun G => ((G.g T).map (·.1)).getD 0)
      (fun c hc => by rw [(hv c hc).2.2.2]; rfl)
    have em : Gas.Props.mixing D.bymass comps * Ru = mixingEntropy D.bymass cs := by
      unfold Gas.Props.mixing mixingEntropy
      rw [lists_frac hl D.bymass (fun x _ => x * Real.log x), mul_comm]
      congr 1
      rw [List.sum_neg, List.map_map]
      rfl
    have split : (comps.map fun c => moleFrac D.bymass comps c * (h c - T * s c)).sum
        = (comps.map fun c => moleFrac D.bymass comps c * h c).sum
          - T * (comps.map fun c => moleFrac D.bymass comps c * s c).sum := by
      rw [mul_comm T, ← Gas.Props.sum_mul, ← Gas.Props.sum_sub]
      exact Gas.Props.sum_congr (fun c _ => by ring)
    intro q
    cases q with
    | cp => simp only [MQ.exact, valueOf, k2, ecp]
    | h => simp only [MQ.exact, valueOf, k1, Option.map_some, eh]
    | e => simp only [MQ.exact, valueOf, k1, Option.map_some, eh]
    | s => simp only [MQ.exact, valueOf, k3, Option.map_some, es, em]
    | g =>
      simp only [MQ.exact, valueOf, k4, Option.map_some, em, ← eg, split, Option.some.injEq]
      ring
    | f =>
      have ef : (cs.map fun c => xOf D.bymass cs c * ((c.2.gas.f T).map (·.1)).getD 0).sum
          = (comps.map fun c => moleFrac D.bymass comps c * (h c - T * s c)).sum - Ru * T := by
        rw [← sum (fun c => h c - T * s c - Ru * T) (fun G => ((G.f T).map (·.1)).getD 0)
          (fun c hc => by simp only [Gas.f, (hv c hc).2.2.2, Option.map_some, Option.getD_some])]
        have one := sum (fun _ => Ru * T) (fun _ => Ru * T) (fun _ _ => rfl)
        rw [x_sum D.bymass hp hne] at one
        have part : (comps.map fun c => moleFrac D.bymass comps c * (h c - T * s c - Ru * T)).sum
            = (comps.map fun c => moleFrac D.bymass comps c * (h c - T * s c)).sum
              - (comps.map fun c => moleFrac D.bymass comps c * (Ru * T)).sum := by
          rw [← Gas.Props.sum_sub]
          exact Gas.Props.sum_congr (fun c _ => by ring)
        rw [part, one]
      simp only [valueOf, ef, split]
      simp only [MQ.exact, Gas.f, k4, Option.map_some, em, Option.some.injEq]
      ring

/-- C117 in double precision, for mixtures of shipped gases whose limits are whole numbers of kelvins (868 of 982): a
mixture of up to 50 gases, at any temperature between the limits of the mixture.  The specific heat is within `6e-10`
kJ/kmol/K of the exact one, and the molecular weight within `2e-14` of itself. -/
theorem C117_double {coll : Coll} {D : Entry} {comps : List Comp} (hS : Sound coll D comps) (M : Gas)
    (hM : IsMixture coll D M) (cs : Mixture) (hl : Lists comps cs) (hw : ∀ c ∈ cs, wholeLimits c.2 = true)
    (hn : cs.length ≤ 50) (T : ℝ) (h1 : M.Tlo ≤ T) (h2 : T ≤ M.Thi) :
    Within 2e-14 M.mw (mwF double D.bymass (parts cs)) ∧
    ∀ q : MQ, ∃ y y', q.exact M T = some y ∧ mixF double D.bymass (parts cs) q T = some y' ∧
      |y' - y| ≤ 2.3e-14 * mixWeight cs.length q T ∧ (q = .cp → |y' - y| ≤ 6e-10) := by
  obtain ⟨hp, hne⟩ := lists_proper hS hl
  obtain ⟨m1, m2⟩ := C117_model hS M hM cs hl
  obtain ⟨lim, val⟩ := m2 T h1 h2
  have l0 : (0 : ℝ) ≤ cs.length := Nat.cast_nonneg _
  have l1 : (cs.length : ℝ) ≤ 50 := by exact_mod_cast hn
  have u0 : (0 : ℝ) < 2 ^ (-53 : ℤ) := by positivity
  have u1 : (2 : ℝ) ^ (-53 : ℤ) ≤ 1.1103e-16 := by norm_num [zpow_neg]
  have T0 : 0 < T := by
    obtain ⟨c, h⟩ := List.exists_mem_of_ne_nil cs hne
    obtain ⟨bd, hb⟩ := shipped_checked c.2 (hl.2 c h)
    have := (s_size (hl.2 c h) hb T (lim c h).1 (lim c h).2).1
    linarith
  constructor
  · have := (C117_composition double_small.1 double_small.2 double_accurate D.bymass cs hp (by nlinarith)).2
    rw [m1]
    unfold Within at this ⊢
    refine this.trans (mul_le_mul_of_nonneg_right ?_ (abs_nonneg _))
    nlinarith
  · intro q
    obtain ⟨y, e, hy⟩ := C117_properties double_small.1 double_small.2 double_accurate D.bymass cs hp hne (by nlinarith) T
      (fun c hc => ⟨(lim c hc).1, (lim c hc).2, fun L hL => Or.inl (whole_lit (hl.2 c hc) (hw c hc) L hL)⟩) q
    have w0 : 0 ≤ mixWeight cs.length q T := by cases q <;> simp only [mixWeight] <;> positivity
    refine ⟨_, y, val q, e, hy.trans (mul_le_mul_of_nonneg_right (by nlinarith) w0), ?_⟩
    rintro rfl
    refine hy.trans ?_
    simp only [mixWeight]
    nlinarith

theorem mixes_whole : (shippedMix.all fun m => m.contents.all fun c =>
    shipped.all fun f => !(f.id == c.1) || wholeLimits f) = true := by
  decide +kernel

/-- The three mixtures that come with the package meet the hypotheses, between 200 K and 6000 K. -/
theorem shipped_lists (m : MixFile) (hm : m ∈ shippedMix) : ∃ comps M cs, Sound loaded m.entry comps ∧
    IsMixture loaded m.entry M ∧ Lists comps cs ∧ (∀ c ∈ cs, wholeLimits c.2 = true) ∧ cs.length = m.contents.length ∧
    M.Tlo = 200 ∧ M.Thi = 6000 := by
  obtain ⟨comps, M, hS, hc, hM, e1, e2⟩ := C100_shipped m hm
  have hk := List.all_eq_true.mp mixes_whole m hm
  rw [List.all_eq_true] at hk
  have ex : ∀ c : Comp, ∃ f : File, c ∈ comps → f ∈ shipped ∧ c.gas = f.gas ∧ wholeLimits f = true := by
    intro c
    by_cases h : c ∈ comps
    · obtain ⟨as, ha⟩ := hS.found c h
      unfold loaded at ha
      obtain ⟨f, hf, e⟩ := Option.map_eq_some_iff.mp ha
      have hid := List.find?_some hf
      have hmem := List.mem_of_find?_eq_some hf
      simp only [Species.gas.injEq] at e
      refine ⟨f, fun _ => ⟨hmem, e.1.symm, ?_⟩⟩
      have hin : (c.name, c.qty) ∈ m.entry.contents := by rw [hS.listed]; exact List.mem_map.mpr ⟨c, h, rfl⟩
      obtain ⟨d, hd, ed⟩ := List.mem_map.mp hin
      have := List.all_eq_true.mp (hk d hd) f hmem
      simp only [Prod.mk.injEq] at ed
      rw [ed.1] at this
      simpa [hid] using this
    · exact ⟨⟨"", .ig, [], [], ⟨0, 0⟩, none, []⟩, fun h' => absurd h' h⟩
  choose g hg using ex
  refine ⟨comps, M, comps.map fun c => (c.qty, g c), hS, hM, ⟨?_, ?_⟩, ?_, ?_, e1, e2⟩
  · rw [List.map_map]
    refine List.map_congr_left fun c hc => ?_
    simp only [Function.comp, (hg c hc).2.1]
  · intro c hc
    obtain ⟨d, hd, rfl⟩ := List.mem_map.mp hc
    exact (hg d hd).1
  · intro c hc
    obtain ⟨d, hd, rfl⟩ := List.mem_map.mp hc
    exact (hg d hd).2.2
  · have := congrArg List.length hS.listed
    simp only [MixFile.entry, List.length_map] at this ⊢
    exact this.symm

/-- C117 for the mixtures that come with the package, in double precision: the enthalpy at any temperature from 200 K to
6000 K is within `3e-6` kJ/kmol of the exact one, and the entropy within `7e-10` kJ/kmol/K. -/
theorem C117_shipped (m : MixFile) (hm : m ∈ shippedMix) (T : ℝ) (h1 : 200 ≤ T) (h2 : T ≤ 6000) :
    ∃ comps M cs h h' s s', Sound loaded m.entry comps ∧ Lists comps cs ∧ IsMixture loaded m.entry M ∧ (M.h T).map (·.1) = some h ∧ (M.s T).map (·.1) = some s ∧
      mixF double m.bymass (parts cs) .h T = some h' ∧ mixF double m.bymass (parts cs) .s T = some s' ∧
      |h' - h| ≤ 3e-6 ∧ |s' - s| ≤ 7e-10 := by
  obtain ⟨comps, M, cs, hS, hM, hl, hw, hn, e1, e2⟩ := shipped_lists m hm
  have hlen : cs.length ≤ 4 := by
    rw [hn]
    simp only [shippedMix, List.mem_cons, List.not_mem_nil, or_false] at hm
    rcases hm with rfl | rfl | rfl <;> simp [air, f5, h35]
  have l1 : (cs.length : ℝ) ≤ 4 := by exact_mod_cast hlen
  obtain ⟨-, v⟩ := C117_double hS M hM cs hl hw (by omega) T (by rw [e1]; exact h1) (by rw [e2]; exact h2)
  obtain ⟨h, h', a1, a2, a3, -⟩ := v .h
  obtain ⟨s, s', b1, b2, b3, -⟩ := v .s
  refine ⟨comps, M, cs, h, h', s, s', hS, hl, hM, a1, b1, a2, b2, a3.trans ?_, b3.trans ?_⟩
  · simp only [mixWeight]; norm_num; linarith
  · simp only [mixWeight]; norm_num; linarith

end Props

end PyroMat.Float
