import Verif.Gas.PropsState

/-!
# C30 and C35 at the level of the property methods: properties found by inversion
-/

set_option linter.unusedSimpArgs false

namespace PyroMat.Gas.Props

open PyroMat PyroMat.Units PyroMat.Units.Spec PyroMat.Units.Props PyroMat.Gas PyroMat.Gas.Spec
open PyroMat.Config.Defaults

theorem iter1_regular {f : ℝ → Option (ℝ × ℝ)} {lo hi m M J y : ℝ} (hlh : lo ≤ hi)
    (hR : Regular f lo hi m M J) {v : Nan}
    (h : iter1 [(f, y)] (0.5 * (lo + hi)) lo hi = .ok ([v], false)) :
    ∃ t z, v = some t ∧ lo ≤ t ∧ t ≤ hi ∧ (f t).map (·.1) = some z ∧
      |z - y| ≤ (1 + M / m) * (1e-6 * |y|) + J := by
  have h0 : lo ≤ 0.5 * (lo + hi) := by linarith
  have h1 : 0.5 * (lo + hi) ≤ hi := by linarith
  have hv : v ≠ none := by
    rintro rfl
    refine C35_never_nan [(f, y)] _ lo hi 1e-6 20 h0 h1 ?_ _ _ h (by simp)
    intro q hq x hx1 hx2
    simp only [List.mem_singleton] at hq
    subst hq
    obtain ⟨a, b, hab, hm⟩ := hR.slope x hx1 hx2
    exact ⟨a, b, hab, by rintro rfl; simp at hm; linarith [hR.m_pos]⟩
  obtain ⟨t, rfl⟩ := Option.ne_none_iff_exists'.mp hv
  obtain ⟨-, hb⟩ := C35_in_bounds _ _ _ _ _ _ h0 h1 _ _ h
  obtain ⟨b1, b2⟩ := hb t (by simp)
  obtain ⟨z, z', hz, -⟩ := hR.slope t b1 b2
  refine ⟨t, z, rfl, b1, b2, by rw [hz]; rfl, ?_⟩
  have key := C35_returned_value_accurate [(f, y)] _ lo hi 1e-6 20 h0 h1 _ h 0 f y (by simp)
    (fun x => ((f x).map (·.1)).getD 0) (fun x => ((f x).map (·.2)).getD 0) m M J hR.m_pos hR.M_nonneg
    (by
      intro x hx1 hx2
      obtain ⟨a, b, hab, hm⟩ := hR.slope x hx1 hx2
      simp only [hab, Option.map_some, Option.getD_some]
      exact ⟨trivial, hm⟩)
    (by
      intro x x' c1 c2 c3 c4
      obtain ⟨a, a', ha, -⟩ := hR.slope x c1 c2
      obtain ⟨b, b', hb, -⟩ := hR.slope x' c3 c4
      have := hR.lipschitz x x' a b c1 c2 c3 c4 (by rw [ha]; rfl) (by rw [hb]; rfl)
      simpa [ha, hb] using this)
    t (by simp)
  simp only [hz, Option.map_some, Option.getD_some] at key
  rw [abs_mul, abs_of_pos (by norm_num : (0:ℝ) < 1e-6)] at key
  exact key

theorem iter1_nth {f : ℝ → Option (ℝ × ℝ)} {ys : List ℝ} {x0 lo hi : ℝ} {r : List Nan × Bool}
    (h : iter1 (ys.map (fun y => (f, y))) x0 lo hi = .ok r) {i : Nat} {y : ℝ} (hy : nth ys i = some y) :
    ∃ v w, nth r.1 i = some v ∧ iter1 [(f, y)] x0 lo hi = .ok ([v], w) ∧ (r.2 = false → w = false) := by
  obtain ⟨hl, he⟩ := iter1_each h
  rw [List.length_map] at hl
  match ys, hy, hl, he with
  | [], hy, _, _ => simp [nth] at hy
  | [y0], hy, hl, he =>
    simp only [nth, Option.some.injEq] at hy
    subst hy
    obtain ⟨v, w, h1, h2, h3⟩ := he 0 (f, y0) (by simp)
    refine ⟨v, w, ?_, h2, h3⟩
    simp at hl
    obtain ⟨z, hz⟩ := List.length_eq_one_iff.mp hl
    rw [hz] at h1 ⊢
    simpa [nth] using h1
  | y0 :: y1 :: l, hy, hl, he =>
    simp only [nth] at hy
    obtain ⟨v, w, h1, h2, h3⟩ := he i (f, y) (by rw [List.getElem?_map, hy]; rfl)
    refine ⟨v, w, ?_, h2, h3⟩
    match r.1, hl, h1 with
    | [], hl, _ => simp at hl
    | [_], hl, _ => simp at hl
    | _ :: _ :: _, _, h1 => simpa [nth] using h1

theorem nth_exists {α β : Type} {xs : List α} {ys : List β} (hl : xs.length = ys.length) {i : Nat}
    {v : α} (h : nth xs i = some v) : ∃ x, nth ys i = some x := by
  match xs, ys, hl with
  | [], [], _ => simp [nth] at h
  | [_], [y], _ => exact ⟨y, rfl⟩
  | _ :: _ :: _, y0 :: y1 :: l, hl =>
    simp only [nth] at h ⊢
    obtain ⟨hlt, -⟩ := List.getElem?_eq_some_iff.mp h
    exact exists_of_lt (by rw [← hl]; exact hlt)

theorem in_range_keep {G : Gas} {t : ℝ} (h1 : G.Tlo ≤ t) (h2 : t ≤ G.Thi) :
    (if oob G (some t) then (none : Nan) else some t) = some t := by
  have ho : oob G (some t) = false := by
    simp only [oob, decide_eq_false_iff_not, not_or, not_lt, gt_iff_lt]
    exact ⟨h1, h2⟩
  rw [ho]; rfl

theorem inUnits_sub (a : SetupArgs ℝ) (S : Sys) (mw : ℝ) {k : Kind} (hk : k ≠ .temperature) (x y : ℝ) :
    inUnits a S mw k x - inUnits a S mw k y = (x - y) * inUnits a S mw k 1 := by
  rw [← inUnits_mul a S mw hk x, ← inUnits_mul a S mw hk y]; ring

/-- Relative errors do not depend on the units. -/
theorem relative_error {E : Env} {S : Sys} (hU : Uses E S) {mw : ℝ} (hmw : mw ≠ 0) {k : Kind}
    (hk : k ≠ .temperature) {z x c J : ℝ} (hJ : 0 ≤ J)
    (h : |z - internal E.a S mw k x| ≤ c * |internal E.a S mw k x| + J) :
    |inUnits E.a S mw k z - x| ≤ c * |x| + |inUnits E.a S mw k J| := by
  have e1 : inUnits E.a S mw k z - x = (z - internal E.a S mw k x) * inUnits E.a S mw k 1 := by
    rw [← inUnits_sub E.a S mw hk, inUnits_internal hU hmw]
  have e2 : x = internal E.a S mw k x * inUnits E.a S mw k 1 := by
    rw [inUnits_mul E.a S mw hk, inUnits_internal hU hmw]
  rw [e1, abs_mul, ← inUnits_mul E.a S mw hk J, abs_mul, abs_of_nonneg hJ]
  conv_rhs => rw [e2, abs_mul, ← mul_assoc, ← add_mul]
  exact mul_le_mul_of_nonneg_right h (abs_nonneg _)

/-- C30, given enthalpy.  When the enthalpy is given and no warning is printed, `h()` returns it
within `(1 + M/m) * 1e-6` of its value, `m` and `M` being the least and greatest slope of the
enthalpy (the heat capacity) over the temperature range - plus the jumps `J` of the enthalpy
between the pieces of its fit. -/
theorem C30_given_enthalpy (E : Env) (S : Sys) (hU : Uses E S) (G : Gas) (hmw : G.mw ≠ 0)
    (hlh : G.Tlo ≤ G.Thi) (m M J : ℝ) (hR : Regular G.h G.Tlo G.Thi m M J)
    (varg : List (Val ℝ)) (kw : Kw) (b : String) (vh vb : Val ℝ)
    (h : Supplies varg kw "h" vh b vb) (hq : Silent E G varg kw) (hs : List Nan)
    (hhs : mH E G varg kw = .ok hs) (i : Nat) (hi : i < hs.length) :
    ∃ x y, nth (Val.elems vh) i = some x ∧ hs[i]? = some (some y) ∧
      |y - x| ≤ (1 + M / m) * 1e-6 * |x| + |inUnits E.a S G.mw .energy J| := by
  have mm : method .h E G varg kw = .ok hs := hhs
  obtain ⟨st, e1, hg, e3, e4⟩ := method_result hU hmw h mm
  obtain ⟨T, st0, n, hT, hS, h1, h2, h3, hw0, -⟩ := argparse_solved hU hmw h e1
  have hne : "h" ≠ b := by simpa using h.ok.distinct
  have hb := h.ok.one_of_Teh "h" (by simp) b (by simp) (by simp)
  have hbe : b ≠ "e" := by rintro rfl; exact absurd (hb (by simp)) (by decide)
  have he : (stdOf E S G.mw [("h", vh), (b, vb)]).e = none :=
    (stdArg_of E S G.mw vh vb hne).2.2 "e" (by decide) hbe.symm
  have hh : (stdOf E S G.mw [("h", vh), (b, vb)]).h
      = some ⟨(Val.elems vh).map (internal E.a S G.mw (kindOf "h")), vh.isArr && isInternal S "h"⟩ :=
    (stdArg_of E S G.mw vh vb hne).1
  unfold tempOf at hT
  rw [he, hh] at hT
  simp only at hT
  obtain ⟨r, hr, hT⟩ := bind_ok hT
  simp only [Except.ok.injEq] at hT
  have hin : i < n := by
    have : st.T.length = n := by rw [h1, List.length_map, hS.lenT]
    omega
  obtain ⟨v, hv1, hv2⟩ := hS.T _ hT.symm i hin
  have hwf : r.2 = false := by
    have := hS.Tw _ hT.symm
    rw [← hw0, hq st e1] at this
    exact this.symm
  -- the target at this element
  have hlenr : r.1.length = (Val.elems vh).length := by simpa using (iter1_each hr).1
  have hx : ∃ x, nth (Val.elems vh) i = some x := nth_exists hlenr hv1
  obtain ⟨x, hx⟩ := hx
  have hy : nth ((Val.elems vh).map (internal E.a S G.mw (kindOf "h"))) i
      = some (internal E.a S G.mw (kindOf "h") x) := by rw [nth_map, hx]; rfl
  obtain ⟨v', w, hv', hit, hw⟩ := iter1_nth hr hy
  rw [hv1] at hv'; cases hv'
  rw [hw hwf] at hit
  obtain ⟨t, z, rfl, b1, b2, hz, hacc⟩ := iter1_regular hlh hR hit
  obtain ⟨T', p', d', hrow⟩ := hg.exists_row (i := i) (by omega)
  have hval := e4 i T' p' d' hrow
  have hT' := hrow.1
  rw [h1, List.getElem?_map, hv2] at hT'
  simp only [Option.map_some, Option.some.injEq, in_range_keep b1 b2] at hT'
  subst hT'
  simp only [value, Gas.hI, Option.bind_some, hz, Option.map_some] at hval
  refine ⟨x, _, hx, hval, ?_⟩
  refine relative_error hU hmw (k := .energy) (by simp) hR.J_nonneg ?_
  rw [mul_assoc]
  exact hacc

/-- C30, given internal energy: as for the enthalpy. -/
theorem C30_given_energy (E : Env) (S : Sys) (hU : Uses E S) (G : Gas) (hmw : G.mw ≠ 0)
    (hlh : G.Tlo ≤ G.Thi) (m M J : ℝ) (hR : Regular G.e G.Tlo G.Thi m M J)
    (varg : List (Val ℝ)) (kw : Kw) (b : String) (ve vb : Val ℝ)
    (h : Supplies varg kw "e" ve b vb) (hq : Silent E G varg kw) (es : List Nan)
    (hes : mE E G varg kw = .ok es) (i : Nat) (hi : i < es.length) :
    ∃ x y, nth (Val.elems ve) i = some x ∧ es[i]? = some (some y) ∧
      |y - x| ≤ (1 + M / m) * 1e-6 * |x| + |inUnits E.a S G.mw .energy J| := by
  have mm : method .e E G varg kw = .ok es := hes
  obtain ⟨st, e1, hg, e3, e4⟩ := method_result hU hmw h mm
  obtain ⟨T, st0, n, hT, hS, h1, h2, h3, hw0, -⟩ := argparse_solved hU hmw h e1
  have hne : "e" ≠ b := by simpa using h.ok.distinct
  have he : (stdOf E S G.mw [("e", ve), (b, vb)]).e
      = some ⟨(Val.elems ve).map (internal E.a S G.mw (kindOf "e")), ve.isArr && isInternal S "e"⟩ :=
    (stdArg_of E S G.mw ve vb hne).1
  unfold tempOf at hT
  rw [he] at hT
  simp only at hT
  obtain ⟨r, hr, hT⟩ := bind_ok hT
  simp only [Except.ok.injEq] at hT
  have hin : i < n := by
    have : st.T.length = n := by rw [h1, List.length_map, hS.lenT]
    omega
  obtain ⟨v, hv1, hv2⟩ := hS.T _ hT.symm i hin
  have hwf : r.2 = false := by
    have := hS.Tw _ hT.symm
    rw [← hw0, hq st e1] at this
    exact this.symm
  have hlenr : r.1.length = (Val.elems ve).length := by simpa using (iter1_each hr).1
  obtain ⟨x, hx⟩ := nth_exists hlenr hv1
  have hy : nth ((Val.elems ve).map (internal E.a S G.mw (kindOf "e"))) i
      = some (internal E.a S G.mw (kindOf "e") x) := by rw [nth_map, hx]; rfl
  obtain ⟨v', w, hv', hit, hw⟩ := iter1_nth hr hy
  rw [hv1] at hv'; cases hv'
  rw [hw hwf] at hit
  obtain ⟨t, z, rfl, b1, b2, hz, hacc⟩ := iter1_regular hlh hR hit
  obtain ⟨T', p', d', hrow⟩ := hg.exists_row (i := i) (by omega)
  have hval := e4 i T' p' d' hrow
  have hT' := hrow.1
  rw [h1, List.getElem?_map, hv2] at hT'
  simp only [Option.map_some, Option.some.injEq, in_range_keep b1 b2] at hT'
  subst hT'
  have hz' : G.eI (some t) = some z := by
    simp only [Gas.e, Option.map_map] at hz
    simp only [Gas.eI, Option.bind_some]
    exact hz
  simp only [value, hz', Option.map_some] at hval
  refine ⟨x, _, hx, hval, ?_⟩
  refine relative_error hU hmw (k := .energy) (by simp) hR.J_nonneg ?_
  rw [mul_assoc]
  exact hacc

/-- The largest error of an entropy returned for a given entropy: a multiple of `1e-6` of the
entropy at the reference pressure. -/
theorem entropy_error {E : Env} {S : Sys} (hU : Uses E S) {mw : ℝ} (hmw : mw ≠ 0) {z x y c J : ℝ} (hJ : 0 ≤ J)
    (h : |z - (internal E.a S mw .entropy x + Ru * y)| ≤ c * |internal E.a S mw .entropy x + Ru * y| + J) :
    |inUnits E.a S mw .entropy (z - Ru * y) - x|
      ≤ c * |x + inUnits E.a S mw .entropy Ru * y| + |inUnits E.a S mw .entropy J| := by
  have hk : Kind.entropy ≠ .temperature := by simp
  have e1 : inUnits E.a S mw .entropy (z - Ru * y) - x
      = (z - (internal E.a S mw .entropy x + Ru * y)) * inUnits E.a S mw .entropy 1 := by
    conv_lhs => rw [← inUnits_internal hU hmw .entropy x]
    rw [inUnits_sub E.a S mw hk]
    ring
  have e2 : x + inUnits E.a S mw .entropy Ru * y
      = (internal E.a S mw .entropy x + Ru * y) * inUnits E.a S mw .entropy 1 := by
    conv_lhs => rw [← inUnits_internal hU hmw .entropy x]
    rw [← inUnits_mul E.a S mw hk Ru, ← inUnits_mul E.a S mw hk (internal E.a S mw Kind.entropy x)]
    ring
  rw [e1, e2, abs_mul, abs_mul, ← mul_assoc, ← inUnits_mul E.a S mw hk J, abs_mul, abs_of_nonneg hJ, ← add_mul]
  exact mul_le_mul_of_nonneg_right h (abs_nonneg _)

/-- The inversion of a routine: what is found without a warning has the value asked for within
`c` parts in a million and `J`. -/
def Inverts (f : ℝ → Option (ℝ × ℝ)) (lo hi c J : ℝ) : Prop :=
  ∀ y v, iter1 [(f, y)] (0.5 * (lo + hi)) lo hi = .ok ([v], false) →
    ∃ t z, v = some t ∧ lo ≤ t ∧ t ≤ hi ∧ (f t).map (·.1) = some z ∧ |z - y| ≤ c * (1e-6 * |y|) + J

theorem inverts_regular {f : ℝ → Option (ℝ × ℝ)} {lo hi m M J : ℝ} (hlh : lo ≤ hi)
    (hR : Regular f lo hi m M J) : Inverts f lo hi (1 + M / m) J :=
  fun _ _ h => iter1_regular hlh hR h

theorem given_entropy_pressure (E : Env) (S : Sys) (hU : Uses E S) (G : Gas)
    (hmw : G.mw ≠ 0) (c J : ℝ) (hJ : 0 ≤ J) (hI : Inverts G.s G.Tlo G.Thi c J)
    (varg : List (Val ℝ)) (kw : Kw) (vs vp : Val ℝ)
    (h : Supplies varg kw "s" vs "p" vp)
    (hone : (Val.elems vs).length ≠ 1 ∨ (Val.elems vp).length ≤ 1)
    (hq : Silent E G varg kw) (R : ℝ) (hRu : mR E G = .ok R) (ss : List Nan)
    (hss : mS E G varg kw = .ok ss) (i : Nat) (hi : i < ss.length) :
    ∃ x p y, nth (Val.elems vs) i = some x ∧ nth (Val.elems vp) i = some p ∧
      ss[i]? = some (some y) ∧
      |y - x| ≤ c * 1e-6 *
        |x + R * Real.log (internal E.a S G.mw .pressure p / G.pref)| + |inUnits E.a S G.mw .entropy J| := by
  have mm : method .s E G varg kw = .ok ss := hss
  obtain ⟨st, e1, hg, e3, e4⟩ := method_result hU hmw h mm
  obtain ⟨T, st0, n, hT, hS, h1, h2, h3, hw0, -⟩ := argparse_solved hU hmw h e1
  have hne : "s" ≠ "p" := by decide
  have hin : i < n := by
    have : st.T.length = n := by rw [h1, List.length_map, hS.lenT]
    omega
  have hs0 := (stdArg_of E S G.mw vs vp hne).1
  have hp0 := (stdArg_of E S G.mw vs vp hne).2.1
  obtain ⟨x', p', v, w, hx, hp, hv, hit, hw⟩ := hS.sp _ _ hs0 hp0 (by simpa using hone) i hin
  have hwf : st0.warned = false := by rw [← hw0]; exact hq st e1
  rw [hw hwf] at hit
  obtain ⟨t, z, rfl, b1, b2, hz, hacc⟩ := hI _ _ hit
  obtain ⟨T', p'', d', hrow⟩ := hg.exists_row (i := i) (by omega)
  have hval := e4 i T' p'' d' hrow
  obtain ⟨hT', ⟨ps', hps', hpi⟩, -⟩ := hrow
  rw [h1, List.getElem?_map, hv] at hT'
  simp only [Option.map_some, Option.some.injEq, in_range_keep b1 b2] at hT'
  subst hT'
  obtain ⟨qs, hqs, hqq⟩ := hS.p _ hp0
  obtain ⟨p3, hp3, hp4⟩ := hqq i hin
  rw [hp] at hp3; cases hp3
  unfold State.pressure at hps'
  rw [h2, hqs] at hps'
  cases hps'
  rw [hp4] at hpi; cases hpi
  simp only [nth_map] at hx hp
  cases hx0 : nth (Val.elems vs) i with
  | none => rw [hx0] at hx; simp at hx
  | some x =>
    cases hp1 : nth (Val.elems vp) i with
    | none => rw [hp1] at hp; simp at hp
    | some p =>
      rw [hx0] at hx
      rw [hp1] at hp
      simp only [Option.map_some, Option.some.injEq] at hx hp
      subst hx hp
      have hz' : G.sI (some t) (some (internal E.a S G.mw (kindOf "p") p))
          = some (z - Ru * Real.log (internal E.a S G.mw .pressure p / G.pref)) := by
        simp only [Gas.sI, Option.bind_some]
        cases hs : G.s t with
        | none => rw [hs] at hz; simp at hz
        | some q =>
          rw [hs] at hz
          simp only [Option.map_some, Option.some.injEq] at hz ⊢
          rw [hz]; rfl
      simp only [value, hz', Option.map_some] at hval
      refine ⟨x, p, _, rfl, rfl, hval, ?_⟩
      rw [mR_eq hU hmw] at hRu
      cases hRu
      refine entropy_error hU hmw hJ ?_
      rw [mul_assoc]
      exact hacc

/-- C30, given entropy and pressure.  When no warning is printed, `s()` returns the entropy given
within `(1 + M/m) * 1e-6` of the entropy referred to the reference pressure, `s + R ln(p/p_ref)`
(in the user's units).  Not covered: a single entropy with several pressures, for which the claim
fails (`C30_shared_entropy_defect`). -/
theorem C30_given_entropy_pressure_partial (E : Env) (S : Sys) (hU : Uses E S) (G : Gas)
    (hmw : G.mw ≠ 0)
    (hlh : G.Tlo ≤ G.Thi) (m M J : ℝ) (hR : Regular G.s G.Tlo G.Thi m M J)
    (varg : List (Val ℝ)) (kw : Kw) (vs vp : Val ℝ)
    (h : Supplies varg kw "s" vs "p" vp)
    (hone : (Val.elems vs).length ≠ 1 ∨ (Val.elems vp).length ≤ 1)
    (hq : Silent E G varg kw) (R : ℝ) (hRu : mR E G = .ok R) (ss : List Nan)
    (hss : mS E G varg kw = .ok ss) (i : Nat) (hi : i < ss.length) :
    ∃ x p y, nth (Val.elems vs) i = some x ∧ nth (Val.elems vp) i = some p ∧
      ss[i]? = some (some y) ∧
      |y - x| ≤ (1 + M / m) * 1e-6 *
        |x + R * Real.log (internal E.a S G.mw .pressure p / G.pref)| + |inUnits E.a S G.mw .entropy J| := by
  exact given_entropy_pressure E S hU G hmw _ J hR.J_nonneg (inverts_regular hlh hR) varg kw vs vp h hone hq R hRu ss hss i hi

theorem nth_mem {α : Type} {xs : List α} {i : Nat} {x : α} (h : nth xs i = some x) : x ∈ xs := by
  match xs, h with
  | [], h => simp [nth] at h
  | [y], h => simp only [nth, Option.some.injEq] at h; simp [h]
  | a :: b :: l, h => exact List.mem_of_getElem? (by simpa only [nth] using h)

theorem given_entropy_density (E : Env) (S : Sys) (hU : Uses E S) (G : Gas) (hmw : G.mw ≠ 0)
    (c J : ℝ) (hJ : 0 ≤ J)
    (varg : List (Val ℝ)) (kw : Kw) (vs vd : Val ℝ)
    (h : Supplies varg kw "s" vs "d" vd)
    (hI : ∀ d ∈ (Val.elems vd).map (internal E.a S G.mw .density), Inverts (G.sditer d) G.Tlo G.Thi c J)
    (hq : Silent E G varg kw) (ss : List Nan)
    (hss : mS E G varg kw = .ok ss) (i : Nat) (hi : i < ss.length) :
    ∃ x y, nth (Val.elems vs) i = some x ∧ ss[i]? = some (some y) ∧
      |y - x| ≤ c * 1e-6 * |x| + |inUnits E.a S G.mw .entropy J| := by
  have mm : method .s E G varg kw = .ok ss := hss
  obtain ⟨st, e1, hg, e3, e4⟩ := method_result hU hmw h mm
  obtain ⟨T, st0, n, hT, hS, h1, h2, h3, hw0, -⟩ := argparse_solved hU hmw h e1
  have hne : "s" ≠ "d" := by decide
  have hin : i < n := by
    have : st.T.length = n := by rw [h1, List.length_map, hS.lenT]
    omega
  have hs0 := (stdArg_of E S G.mw vs vd hne).1
  have hD : densityOf (stdOf E S G.mw [("s", vs), ("d", vd)])
      = some ⟨(Val.elems vd).map (internal E.a S G.mw (kindOf "d")), vd.isArr && isInternal S "d"⟩ := by
    unfold densityOf
    have hv : (stdOf E S G.mw [("s", vs), ("d", vd)]).v = none :=
      (stdArg_of E S G.mw vs vd hne).2.2 "v" (by decide) (by decide)
    rw [hv]
    exact (stdArg_of E S G.mw vs vd hne).2.1
  obtain ⟨x', d0, v, w, hx, hd, hv, hit, hw⟩ := hS.sd _ _ hs0 hD i hin
  have hwf : st0.warned = false := by rw [← hw0]; exact hq st e1
  rw [hw hwf] at hit
  obtain ⟨t, z, rfl, b1, b2, hz, hacc⟩ := hI d0 (nth_mem hd) _ _ hit
  obtain ⟨T', p'', d', hrow⟩ := hg.exists_row (i := i) (by omega)
  have hval := e4 i T' p'' d' hrow
  obtain ⟨hT', ⟨ps', hps', hpi⟩, ⟨ds', hds', hdi⟩⟩ := hrow
  have hTi := hT'
  rw [h1, List.getElem?_map, hv] at hT'
  simp only [Option.map_some, Option.some.injEq, in_range_keep b1 b2] at hT'
  subst hT'
  obtain ⟨qs, hqs, hqq⟩ := hS.d _ hD
  obtain ⟨d3, hd3, hd4⟩ := hqq i hin
  rw [hd] at hd3; cases hd3
  have hpn : st.p = none := by
    rw [h2]
    cases hpp : st0.p with
    | none => rfl
    | some ps =>
      have := (hS.both (by rw [hpp]; rfl) (by rw [hqs]; rfl)).1
      have hp0 : (stdOf E S G.mw [("s", vs), ("d", vd)]).p = none :=
        (stdArg_of E S G.mw vs vd hne).2.2 "p" (by decide) (by decide)
      rw [hp0] at this; cases this
  unfold State.pressure at hps'
  rw [hpn, h3, hqs] at hps'
  cases hps'
  rw [getElem?_zipWith' (f := nan2 (fun d T => d * (1000 * Ru * T))) hd4 hTi] at hpi
  simp only [nan2, Option.bind_some, Option.map_some, Option.some.injEq] at hpi
  subst hpi
  simp only [nth_map] at hx
  cases hx0 : nth (Val.elems vs) i with
  | none => rw [hx0] at hx; simp at hx
  | some x =>
    rw [hx0] at hx
    simp only [Option.map_some, Option.some.injEq] at hx
    subst hx
    have hz' : G.sI (some t) (some (d0 * (1000 * Ru * t))) = some z := by
      simp only [Gas.sI, Option.bind_some]
      simp only [Gas.sditer, Option.map_map] at hz
      rw [← hz]
      congr 1
      funext q
      simp only [Function.comp_apply]
      rw [show d0 * (1000 * Ru * t) = d0 * (1000 * Ru) * t by ring]
    simp only [value, hz', Option.map_some] at hval
    refine ⟨x, _, rfl, hval, ?_⟩
    refine relative_error hU hmw (k := .entropy) (by simp) hJ ?_
    rw [mul_assoc]
    exact hacc

/-- C30, given entropy and density.  As above, with the entropy as a function of temperature at
that density. -/
theorem C30_given_entropy_density (E : Env) (S : Sys) (hU : Uses E S) (G : Gas) (hmw : G.mw ≠ 0)
    (hlh : G.Tlo ≤ G.Thi) (m M J : ℝ) (hR : ∀ d, Regular (G.sditer d) G.Tlo G.Thi m M J)
    (varg : List (Val ℝ)) (kw : Kw) (vs vd : Val ℝ)
    (h : Supplies varg kw "s" vs "d" vd) (hq : Silent E G varg kw) (ss : List Nan)
    (hss : mS E G varg kw = .ok ss) (i : Nat) (hi : i < ss.length) :
    ∃ x y, nth (Val.elems vs) i = some x ∧ ss[i]? = some (some y) ∧
      |y - x| ≤ (1 + M / m) * 1e-6 * |x| + |inUnits E.a S G.mw .entropy J| := by
  exact given_entropy_density E S hU G hmw _ J (hR 0).J_nonneg varg kw vs vd h
    (fun d _ => inverts_regular hlh (hR d)) hq ss hss i hi

end PyroMat.Gas.Props
