import Verif.Mp.AccurateCases
import Verif.Mp.PropsIdent

/-!
# C76: which phase a multiphase call returns
-/

set_option linter.unusedSimpArgs false

namespace PyroMat.Mp.Props

open PyroMat PyroMat.Units PyroMat.Units.Spec PyroMat.Units.Props PyroMat.Gas PyroMat.Gas.Spec
open PyroMat.Gas.Props PyroMat.Mp PyroMat.Mp.Spec PyroMat.Config.Defaults

theorem map_fst {α : Type} {r : Except Err (α × Bool)} {f : α} (h : r.map (·.1) = .ok f) :
    ∃ w, r = .ok (f, w) := by
  cases r with
  | error e => cases h
  | ok r => cases h; exact ⟨r.2, rfl⟩

theorem good_code {B : Sub} {Tmin : ℝ} (h : GoodSub B Tmin) : Bounded (codeSol B) B Tmin := by
  have h1 : B.Tt * 0.99 ≤ B.Tmid := by
    unfold Sub.Tmid; linarith [h.pos, h.order]
  have h2 : B.Tmid ≤ B.Tc := by unfold Sub.Tmid; linarith [h.order]
  exact code_bounded h1 h2 h.range h.min1 h.min2

/-! ## The limits the inversions start from -/

section
variable {B : Sub} {i : Nat}

theorem codeD_phase {q : List (Option (Nan × Nan))} {f : Nat → Nan} {w : Bool} (h : codeD B q = .ok (f, w))
    {T p d : ℝ} (hq : q[i]? = some (some (some T, some p))) (hd : f i = some d) (hc : T < B.Tc) :
    (p < B.ps T → 0.5 * p / (B.F.R * T) ≤ B.dsv T * 1.01 → 0 ≤ B.dsv T → d ≤ B.dsv T * 1.01) ∧
    (B.ps T ≤ p → B.dsl T * 0.99 ≤ B.dhi → (B.F.p T (B.dsl T * 0.99)).v ≤ p → B.dsl T * 0.99 ≤ d) := by
  unfold codeD at h
  obtain ⟨e, he, hin⟩ := runHybrid_in h hd
  rw [List.getElem?_map, hq] at he
  cases he
  have hin := hin rfl
  dsimp only [dIn] at hin
  constructor
  · intro hp hlow h0
    have hst : dStart B T p = (0.5 * p / (B.F.R * T), B.dsv T * 1.01) := by
      unfold dStart; rw [if_neg (not_le.mpr hc), if_pos hp]
    rw [hst] at hin
    refine (hin ?_).2
    have h0' : 0 ≤ B.dsv T * 1.01 := by linarith
    dsimp only
    unfold dLower
    split
    · rename_i hex
      rw [div_le_iff₀ (by positivity)]
      have : (1 : ℝ) ≤ 2 ^ Nat.find hex := one_le_pow₀ (by norm_num)
      nlinarith
    · exact h0'
  · intro hp hhi hlow
    have hst : dStart B T p = (B.dsl T * 0.99, B.dhi) := by
      unfold dStart; rw [if_neg (not_le.mpr hc), if_neg (not_lt.mpr hp)]
    rw [hst] at hin
    have hl : dLower B T p (B.dsl T * 0.99) = B.dsl T * 0.99 := by
      have h : ¬ (B.F.p T (B.dsl T * 0.99 / 2 ^ 0)).v > p := by
        rw [pow_zero, div_one]; exact not_lt.mpr hlow
      unfold dLower
      have hex : ∃ n : Nat, ¬ (B.F.p T (B.dsl T * 0.99 / 2 ^ n)).v > p := ⟨0, h⟩
      rw [dif_pos hex, (Nat.find_eq_zero hex).mpr h, pow_zero, div_one]
    dsimp only at hin
    rw [hl] at hin
    exact (hin hhi).1

theorem dhtSearch_ok {j : Mp.Inv} {y T da : ℝ} : ∀ (k : Nat) {d0 : ℝ}, dhtSearch B j y T k d0 = .ok da →
    y ≤ B.inv j T da := by
  intro k
  induction k with
  | zero =>
    intro d0 h
    unfold dhtSearch at h
    split at h
    · cases h
    · rename_i hc; cases h; exact not_lt.mp hc
  | succ k ih =>
    intro d0 h
    unfold dhtSearch at h
    split at h
    · exact ih h
    · rename_i hc; cases h; exact not_lt.mp hc

theorem codeDhT_phase {j : Mp.Inv} {q : List (Option (ℝ × Nan))} {f : Nat → Nan} {w : Bool}
    (h : codeDhT B j q = .ok (f, w)) {y T d : ℝ} (hq : q[i]? = some (some (y, some T)))
    (hd : f i = some d) (hc : T < B.Tc) :
    (B.inv j T (B.dsv T) < y → B.dlo ≤ 1.01 * B.dsv T → (∀ d' > 1.01 * B.dsv T, B.inv j T d' < y) →
      d ≤ 1.01 * B.dsv T) ∧
    (y ≤ B.inv j T (B.dsv T) → 0 < B.dsl T → 0.99 * B.dsl T ≤ B.dhi → 0.99 * B.dsl T ≤ d) := by
  unfold codeDhT at h
  obtain ⟨l, hl, h⟩ := bind_ok h
  have hF := mapM_ok hl
  have hn : i < q.length := (List.getElem?_eq_some_iff.mp hq).1
  have hn' : i < l.length := by rw [← hF.length_eq]; exact hn
  have := hF.get hn hn'
  rw [List.getElem?_eq_getElem hn, Option.some.injEq] at hq
  rw [List.get_eq_getElem, List.get_eq_getElem, hq] at this
  unfold dhtIn at this
  obtain ⟨da, hda, this⟩ := bind_ok this
  have e := (Except.ok.inj this).symm
  obtain ⟨e', he', hin⟩ := runHybrid_in h hd
  rw [List.getElem?_eq_getElem hn', Option.some.injEq] at he'
  subst he'
  rw [e] at hin
  have hin := hin rfl
  dsimp only at hin
  constructor
  · intro hy hlow hmono
    have hst : dhtStart B j y T = (B.dlo, 1.01 * B.dsv T) := by
      unfold dhtStart; rw [if_pos hc, if_pos hy]
    rw [hst] at hin hda
    dsimp only at hda hin
    unfold dhtLower at hda
    split at hda
    · have := dhtSearch_ok _ hda
      refine (hin ?_).2
      by_contra hc'
      exact absurd (hmono _ (not_le.mp hc')) (not_lt.mpr this)
    · cases hda
      exact (hin hlow).2
  · intro hy h0 hhi
    have hst : dhtStart B j y T = (0.99 * B.dsl T, B.dhi) := by
      unfold dhtStart; rw [if_pos hc, if_neg (not_lt.mpr hy)]
    rw [hst] at hin hda
    dsimp only at hda hin
    unfold dhtLower at hda
    rw [if_neg (by positivity)] at hda
    cases hda
    exact (hin hhi).1

/-- The saturation temperature `_Ts` finds for one pressure. -/
noncomputable def tsOf (B : Sub) (p : Nan) : Nan :=
  match single 1e-6 (B.Tt * 0.99) B.Tc 20 20 (tsEl B (some p)) with
  | .ok r => r.1.x
  | .error _ => none

theorem codeTs_at {q : List (Option Nan)} {f : Nat → Nan} {w : Bool} (h : codeTs B q = .ok (f, w)) {p : Nan}
    (hq : q[i]? = some (some p)) : f i = tsOf B p := by
  obtain ⟨rs, -, hF, hf⟩ := codeTs_el h
  have hn : i < q.length := (List.getElem?_eq_some_iff.mp hq).1
  have hn1 : i < (q.map (tsEl B)).length := by simpa using hn
  have hn' : i < rs.length := by rw [← hF.length_eq]; exact hn1
  have h1 := hF.get hn1 hn'
  rw [List.getElem?_eq_getElem hn, Option.some.injEq] at hq
  rw [List.get_eq_getElem, List.get_eq_getElem, List.getElem_map, hq] at h1
  rw [hf, List.getElem?_eq_getElem hn', Option.bind_some]
  unfold tsOf
  rw [h1]

theorem askTs_at {sel : Nan → Bool} {l : List Nan} {Ts : Nat → Nan} (ha : askTs (codeSol B) sel l = .ok Ts)
    {p : Nan} (hl : l[i]? = some p) (hs : sel p = true) : Ts i = tsOf B p := by
  unfold askTs at ha
  rw [if_pos (List.any_eq_true.mpr ⟨_, List.mem_of_getElem? hl, hs⟩)] at ha
  obtain ⟨w, hw⟩ := map_fst ha
  exact codeTs_at hw (by rw [List.getElem?_map, hl]; simp [hs])

theorem tsOf_bounds {Tmin : ℝ} (hB : GoodSub B Tmin) {p : ℝ} {t : ℝ} (h : tsOf B (some p) = some t) :
    B.Tt * 0.99 ≤ t ∧ t ≤ B.Tc := by
  have h1 : B.Tt * 0.99 ≤ B.Tmid := by
    unfold Sub.Tmid; linarith [hB.pos, hB.order]
  have h2 : B.Tmid ≤ B.Tc := by unfold Sub.Tmid; linarith [hB.order]
  cases hc : codeTs B [some (some p)] with
  | error e =>
    unfold tsOf at h
    split at h
    · rename_i r hr
      unfold codeTs at hc
      rw [iterLoop_eq, show List.map (tsEl B) [some (some p)] = [tsEl B (some (some p))] from rfl, List.mapM_cons, hr] at hc
      cases hc
    · cases h
  | ok r =>
    have := codeTs_at (f := r.1) (w := r.2) hc (i := 0) (p := some p) rfl
    exact (codeTs_spec h1 h2 (f := r.1) (w := r.2) hc).1 0 t (by rw [this, h])

theorem codeTdp_phase {q : List (Option (ℝ × Nan × Nan))} {f : Nat → Nan} {w : Bool}
    (h : codeTdp B q = .ok (f, w)) {D T p t : ℝ} (hq : q[i]? = some (some (D, some p, some t)))
    (hT : f i = some T) (hp : p < B.pc) :
    (D < B.dsv t → 0.99 * t ≤ B.Thi → B.Tlo ≤ B.Thi → 0.99 * t ≤ T) ∧
    (B.dsv t ≤ D → B.Tlo ≤ t * 1.01 → T ≤ t * 1.01) := by
  unfold codeTdp at h
  obtain ⟨e, he, hin⟩ := runHybrid_in h hT
  rw [List.getElem?_map, hq] at he
  cases he
  constructor
  · intro hd h1 h2
    have hl : tdpLimits B D p (some t) = some (max (0.99 * t) B.Tlo, B.Thi) := by
      unfold tdpLimits; rw [if_neg (not_le.mpr hp)]; simp [hd]
    simp only [tdpIn, hl] at hin
    have := (hin trivial (max_le h1 h2)).1
    exact (le_max_left _ _).trans this
  · intro hd h1
    have hl : tdpLimits B D p (some t) = some (B.Tlo, t * 1.01) := by
      unfold tdpLimits; rw [if_neg (not_le.mpr hp)]; simp [not_lt.mpr hd]
    simp only [tdpIn, hl] at hin
    exact (hin trivial h1).2

end

/-! ## The bracketed solver on a routine that may raise -/

/-- Everything the solver holds lies between `a` and `b`. -/
structure Within (a b : ℝ) (s : HSt) : Prop where
  min1 : a ≤ s.xmin
  min2 : s.xmin ≤ b
  max1 : a ≤ s.xmax
  max2 : s.xmax ≤ b
  mid : s.xc = 1 / 2 * (s.xmin + s.xmax)
  val : ∀ x, s.x = some x → a ≤ x ∧ x ≤ b

section
variable {a b : ℝ} {s : HSt}

theorem guess_within (hI : Within a b s) {x : ℝ} (h : guess s = .fin x) : a ≤ x ∧ x ≤ b := by
  have m1 := hI.min1
  have m2 := hI.min2
  have m3 := hI.max1
  have m4 := hI.max2
  have hc : a ≤ s.xc ∧ s.xc ≤ b := by
    rw [hI.mid]; constructor <;> linarith
  have hn : ∀ {r : ℝ}, ¬ oob s (.fin r) → a ≤ r ∧ r ≤ b := fun h => by
    have := not_oob_fin h
    constructor <;> linarith [this.1, this.2]
  unfold guess at h
  by_cases hb : oob s s.xb
  · rw [if_pos hb] at h; cases h; exact hc
  rw [if_neg hb] at h
  by_cases ha : oob s s.xa
  · rw [if_pos ha] at h; cases h; exact hc
  rw [if_neg ha] at h
  unfold middle at h
  simp only at h
  split_ifs at h
  · cases h; exact hc
  · rw [h] at hb; exact hn hb
  · rw [h] at ha; exact hn ha

theorem le_ite' {c : Prop} {_ : Decidable c} {z u v : ℝ} (h1 : z ≤ u) (h2 : z ≤ v) : z ≤ if c then u else v := by
  split_ifs <;> assumption

theorem ite_le' {c : Prop} {_ : Decidable c} {z u v : ℝ} (h1 : u ≤ z) (h2 : v ≤ z) : (if c then u else v) ≤ z := by
  split_ifs <;> assumption

theorem hstepB_within (hI : Within a b s) (y ep : ℝ) (v : Nan × Nan) : Within a b (hstepB y ep s v) := by
  unfold hstepB
  cases ha : askB s with
  | none => exact hI
  | some o =>
    cases o with
    | none => exact ⟨hI.min1, hI.min2, hI.max1, hI.max2, hI.mid, fun x h => nomatch h⟩
    | some x =>
      have hx : a ≤ x ∧ x ≤ b := by
        unfold askB at ha
        split at ha
        · cases hg : guess s with
          | fin r =>
            rw [hg] at ha
            simp only [Cand.toOption, Option.some.injEq] at ha
            subst ha
            exact guess_within hI hg
          | pinf => rw [hg] at ha; simp [Cand.toOption] at ha
          | ninf => rw [hg] at ha; simp [Cand.toOption] at ha
          | nan => rw [hg] at ha; simp [Cand.toOption] at ha
        · cases ha
      unfold updateB
      dsimp only
      constructor
      · exact le_ite' hx.1 hI.min1
      · exact ite_le' hx.2 hI.min2
      · exact le_ite' hI.max1 hx.1
      · exact ite_le' hI.max2 hx.2
      · dsimp only; ring
      · intro z hz; cases hz; exact hx

theorem hloopB_within {F : Batch} {ep : ℝ} {i : Nat} :
    ∀ (n : Nat) (l r : List (ℝ × HSt)) {w : Bool}, hloopB F ep n l = .ok (r, w) →
      ∀ {y : ℝ} {s : HSt}, l[i]? = some (y, s) → Within a b s → ∃ s', r[i]? = some (y, s') ∧ Within a b s' := by
  intro n
  induction n with
  | zero =>
    intro l r w h y s hl hI
    unfold hloopB at h
    cases h
    exact ⟨s, hl, hI⟩
  | succ n ih =>
    intro l r w h y s hl hI
    unfold hloopB at h
    split at h
    · obtain ⟨v, hv, h⟩ := bind_ok h
      exact ih _ _ h (s := hstepB y ep s (v i)) (by rw [List.getElem?_mapIdx, hl]; rfl) (hstepB_within hI _ _ _)
    · cases h
      exact ⟨s, hl, hI⟩

theorem hybridB_in {F : Batch} {ep : ℝ} {n : Nat} {l : List BIn} {f : Nat → Nan} {w : Bool}
    (h : hybridB F ep n l = .ok (f, w)) {i : Nat} {e : BIn} (he : l[i]? = some e) {lo hi x : ℝ}
    (h1 : e.xmin = some lo) (h2 : e.xmax = some hi) (hle : lo ≤ hi) (hx : f i = some x) : lo ≤ x ∧ x ≤ hi := by
  unfold hybridB at h
  obtain ⟨a, ha, h⟩ := bind_ok h
  obtain ⟨b, hb, h⟩ := bind_ok h
  split at h
  · cases h
  obtain ⟨⟨r, w⟩, hr, h⟩ := bind_ok h
  cases h
  have hI : Within lo hi (hinitB e (a i) (b i)) := by
    unfold hinitB
    rw [h1, h2]
    exact ⟨le_rfl, hle, hle, le_rfl, rfl, fun x h => nomatch h⟩
  obtain ⟨s', hs', hW⟩ := hloopB_within _ _ r hr (y := e.y) (by rw [List.getElem?_mapIdx, he]; rfl) hI
  dsimp only at hx
  rw [hs', Option.bind_some] at hx
  exact hW.val x hx

end

section
variable {B : Sub} {i : Nat}

theorem codeThp_phase {D : List (Option (Nan × Nan)) → Except Err (Nat → Nan)} {j : Mp.Inv}
    {q : List (Option (ℝ × Nan × Nan))} {f : Nat → Nan} {w : Bool} (h : codeThp D B j q = .ok (f, w))
    {y T t : ℝ} {p : Nan} (hq : q[i]? = some (some (y, p, some t))) (hT : f i = some T) (hp : betweenP B p = true) :
    (B.inv j t (B.dsv t) < y → t * (1 + 1e-6) ≤ B.Thi → t * (1 + 1e-6) ≤ T) ∧
    (y ≤ B.inv j t (B.dsv t) → B.Tlo ≤ t * (1 - 1e-6) → T ≤ t * (1 - 1e-6)) := by
  unfold codeThp at h
  have he : (q.map (thpIn B j))[i]? = some (thpIn B j (some (y, p, some t))) := by
    rw [List.getElem?_map, hq]; rfl
  constructor
  · intro hy h1
    have hl : thpLimits B j y p (some t) = (some (t * (1 + 1e-6)), some B.Thi) := by
      unfold thpLimits; rw [if_pos hp]; simp only [gt_iff_lt, hy, if_true]
    exact (hybridB_in h he (by simp only [thpIn, hl]) (by simp only [thpIn, hl]) h1 hT).1
  · intro hy h1
    have hl : thpLimits B j y p (some t) = (some B.Tlo, some (t * (1 - 1e-6))) := by
      unfold thpLimits; rw [if_pos hp]; simp only [gt_iff_lt, not_lt.mpr hy, if_false]
    exact (hybridB_in h he (by simp only [thpIn, hl]) (by simp only [thpIn, hl]) h1 hT).2

end

/-! ## User level -/

/-- The saturation temperature behind the temperature a call with pressure and quality 0 returns. -/
theorem sat_call {E : Env} {U : Sys} (hU : Uses E U) {B : Sub} (hmw : B.mw ≠ 0) {P t : ℝ}
    (h1 : B.plo ≤ si E U B .p P) (h2 : si E U B .p P ≤ B.phi)
    (ht : MpGives E B (codeSol B) [] [("p", .scalar P), ("x", .scalar 0)] .T 0 t) :
    tsOf B (some (si E U B .p P)) = some (si E U B .T t) := by
  obtain ⟨o1, o2, h⟩ := argparse_PX hU hmw (codeSol B) (.scalar P) (.scalar 0)
    ⟨_, List.mem_map.mpr ⟨P, by simp [Val.elems], rfl⟩, h1, h2⟩
    (by intro y hy; simp [Val.elems] at hy; subst hy; constructor <;> norm_num)
  obtain ⟨r, q, hr, hq⟩ := gives_pt hU hmw (m := .T) (by simp) ht
  have hv := (gives_iff hU hmw hr (by simp) hq t).mp ht
  have hq' := inner_of hU hmw hv
  rw [hr] at h
  obtain ⟨pts, hp, h⟩ := bind_ok h.symm
  cases h
  unfold mpPX at hp
  simp only [Val.elems, List.map_cons, List.map_nil] at hp
  have hcl : clip B.plo B.phi (P * size (pressure E.a) U.p) = some (si E U B .p P) := clip_of_mem h1 h2
  rw [hcl] at hp
  split at hp
  · cases hp
  split at hp
  · cases hp
  simp only [broadcast, List.length_cons, List.length_nil, if_true, exOk, List.map_cons, List.map_nil] at hp
  obtain ⟨Ts, hTs, hp⟩ := bind_ok hp
  cases hp
  obtain ⟨w, hw⟩ := map_fst hTs
  have := codeTs_at hw (i := 0) rfl
  have hq : q = satPt B (Ts 0) (some 0) := by simpa using hq.symm
  rw [hq] at hq'
  exact this.symm.trans hq'

section
variable (E : Env) (U : Sys) (hU : Uses E U) (B : Sub) (Tmin : ℝ) (hB : GoodSub B Tmin)
  (varg : List (Val ℝ)) (kw : Kw) (hkw : (kw.map (·.1)).Nodup) (i : Nat) (T D x : ℝ)
  (hT : MpGives E B (codeSol B) varg kw .T i T) (hD : MpGives E B (codeSol B) varg kw .d i D)
  (hx : MpGives E B (codeSol B) varg kw .x i x) (h0 : x < 0)
include hU hB hkw hT hD hx h0

/-- **C76**, pressure given, below the critical temperature.  At a pressure below the saturation pressure
of the temperature returned, the single-phase state returned is vapor: its density is at most 1.01 times
that of the saturated vapor.  At a pressure not below it, it is liquid: its density is at least 0.99
times that of the saturated liquid. -/
theorem C76_pressure (v : Val ℝ) (hv : ("p", v) ∈ supplied varg kw)
    (hno : ∀ w, ("d", w) ∉ supplied varg kw ∧ ("v", w) ∉ supplied varg kw) (P : ℝ)
    (hP : Elem (Val.elems v) i P) (h1 : B.plo ≤ si E U B .p P) (h2 : si E U B .p P ≤ B.phi)
    (hc : si E U B .T T < B.Tc) (hR : 0 < B.F.R * si E U B .T T) (hpl : 0 ≤ B.plo) :
    let t := si E U B .T T
    let p := si E U B .p P
    let d := si E U B .d D
    (p < B.ps t → p ≤ 2.02 * (B.F.R * t * B.dsv t) → d ≤ 1.01 * B.dsv t) ∧
    (B.ps t ≤ p → 0.99 * B.dsl t ≤ B.dhi → (B.F.p t (0.99 * B.dsl t)).v ≤ p → 0.99 * B.dsl t ≤ d) := by
  intro t p d
  obtain ⟨q, kw', k, hn', hsub, hall, -, hrules, hpar, ho, qT, -, qD, -⟩ := state_of hU hB (good_code hB) hkw hT hD
  obtain ⟨hI, hd1⟩ := qD x hx h0
  obtain ⟨pa, hpa, hel⟩ := given_p hpar hn' (hsub _ hv) hP
  have hcl : clip B.plo B.phi (internalKg E.a U B.mw .pressure P) = some p := clip_of_mem h1 h2
  rw [hcl] at hel
  have hkd : k.d = none := by
    refine no_d hpar ?_
    rintro ⟨n, w⟩ hw
    rcases hall _ hw with h | h | h
    · refine ⟨?_, ?_⟩ <;> rintro rfl
      exacts [(hno w).1 h, (hno w).2 h]
    · dsimp only at h ⊢; rw [h]; decide
    · dsimp only at h ⊢; rw [h]; decide
  have key : ∀ {l : List (Option (Nan × Nan))} {f : Nat → Nan}, (codeSol B).d l = .ok f →
      l[i]? = some (some (some t, some p)) → f i = some d →
      (p < B.ps t → p ≤ 2.02 * (B.F.R * t * B.dsv t) → d ≤ 1.01 * B.dsv t) ∧
      (B.ps t ≤ p → 0.99 * B.dsl t ≤ B.dhi → (B.F.p t (0.99 * B.dsl t)).v ≤ p → 0.99 * B.dsl t ≤ d) := by
    intro l f hf hl hd
    obtain ⟨w, hw⟩ := map_fst hf
    have := codeD_phase hw hl hd hc
    rw [mul_comm (B.dsl t), mul_comm (B.dsv t)] at this
    have hp0 : 0 ≤ p := hpl.trans h1
    refine ⟨fun a b => this.1 a ?_ ?_, this.2⟩
    · rw [div_le_iff₀ hR]; change 0.5 * p ≤ 1.01 * B.dsv t * (B.F.R * t); linarith
    · by_contra hneg
      have : B.F.R * t * B.dsv t < 0 := mul_neg_of_pos_of_neg hR (not_le.mp hneg)
      linarith
  cases ho with
  | hp _ g1 _ g2 _ _ _ _ g3 g4 =>
    have hs := pick_one (fun _ => rfl) hI
    rw [hs] at qT hd1
    rw [g1] at hpa; cases hpa
    cases elem_unique g2 hel
    dsimp only [pick, onePt] at qT hd1
    have h5 := g4 hs
    rw [qT] at h5
    exact key g3 h5 hd1
  | hd _ h => rw [h] at hpa; cases hpa
  | hT _ h => rw [h] at hpa; cases hpa
  | Td _ _ h => rw [h] at hpa; cases hpa
  | Tx _ _ h => rw [h] at hpa; cases hpa
  | pd _ _ _ h => rw [h] at hkd; cases hkd
  | px => cases hI
  | Tpx _ g0 g1 _ g2 g3 g4 g5 =>
    rw [g1] at hpa; cases hpa
    cases elem_unique g3 hel
    unfold ptTPX at hI qT hd1
    split at hI
    · rename_i c; rw [if_pos c] at qT; cases qT
    · rename_i c
      rw [if_neg c] at qT hd1
      split at hI
      · rename_i c'
        rw [if_pos c'] at qT hd1
        dsimp only at qT hd1
        have h6 := g5 c'
        rw [qT] at h6
        exact key g4 h6 hd1
      · cases hI

/-- **C76**, energy, enthalpy or entropy given with a temperature below critical.  Above the value of the
saturated vapor the single-phase state returned is vapor, otherwise it is liquid.  For the vapor no
denser state may have as high a value, as is the case for entropy. -/
theorem C76_with_temperature (j : Mp.Inv) (v w : Val ℝ)
    (hv : (j.name, v) ∈ supplied varg kw) (hw : ("T", w) ∈ supplied varg kw)
    (y : ℝ) (hy : Elem (Val.elems v) i y) (hc : si E U B .T T < B.Tc) (ht : Tmin ≤ si E U B .T T) :
    let t := si E U B .T T
    let z := si E U B j.quantity y
    let d := si E U B .d D
    (B.inv j t (B.dsv t) < z → B.dlo ≤ 1.01 * B.dsv t → (∀ d' > 1.01 * B.dsv t, B.inv j t d' < z) →
      d ≤ 1.01 * B.dsv t) ∧
    (z ≤ B.inv j t (B.dsv t) → 0.99 * B.dsl t ≤ B.dhi → 0.99 * B.dsl t ≤ d) := by
  intro t z d
  obtain ⟨q, kw', k, hn', hsub, hall, -, hrules, hpar, ho, qT, -, qD, -⟩ := state_of hU hB (good_code hB) hkw hT hD
  obtain ⟨hI, hd1⟩ := qD x hx h0
  obtain ⟨a, ha, hel⟩ := given_inv hpar hn' hrules (hsub _ hv) hy
  have nT : "T" ∈ kw'.map (·.1) := List.mem_map_of_mem (f := (·.1)) (hsub _ hw)
  have hj := inv_name_ne j
  have e : z = internalKg E.a U B.mw (kindOf j.name) y := by cases j <;> rfl
  rw [← e] at hel
  have hp0 : k.p = none := none_of (fun pa hpa =>
    rules_three hrules (name_inv hpar ha) nT (name_p hpar hpa) hj.2.1 hj.2.2.1 (by decide) hj.1)
  have hd0 : k.d = none := none_of (fun da hda => by
    obtain ⟨n, hn, hdv⟩ := name_d hpar hda
    refine rules_three hrules (name_inv hpar ha) nT hn hj.2.1 ?_ (dv_ne hdv).2.1.symm hj.1
    rcases hdv with rfl | rfl
    exacts [hj.2.2.2.2.1, hj.2.2.2.2.2])
  cases ho with
  | hp _ h => rw [h] at hp0; cases hp0
  | hd _ _ h => rw [h] at hd0; cases hd0
  | Td h => rw [h] at ha; cases ha
  | Tx h => rw [h] at ha; cases ha
  | pd h => rw [h] at ha; cases ha
  | px h => rw [h] at ha; cases ha
  | Tpx h => rw [h] at ha; cases ha
  | hT g1 _ _ _ g2 g3 _ g4 g5 =>
    have hs := pick_one (fun _ => rfl) hI
    rw [hs] at qT hd1
    rw [g1] at ha; cases ha
    cases elem_unique g3 hel
    dsimp only [pick, onePt] at qT hd1
    have h5 := g5 hs
    rw [qT] at h5
    obtain ⟨w, hw⟩ := map_fst g4
    have := codeDhT_phase hw h5 hd1 hc
    have hl : 0 < B.dsl t := (hB.dome.vapor t ht hc.le).trans (hB.dome.liquid t ht hc)
    exact ⟨this.1, fun a => this.2 a hl⟩

/-- **C76**, pressure below critical and density given: `ts` is the temperature a call with that pressure
and quality 0 returns.  At a density below that of the saturated vapor the temperature is at least
0.99 `ts`, otherwise at most 1.01 `ts`. -/
theorem C76_with_density (v w : Val ℝ) (hv : ("p", v) ∈ supplied varg kw)
    (hw : ("d", w) ∈ supplied varg kw ∨ ("v", w) ∈ supplied varg kw) (P : ℝ)
    (hP : Elem (Val.elems v) i P) (h1 : B.plo ≤ si E U B .p P) (h2 : si E U B .p P ≤ B.phi)
    (hc : si E U B .p P < B.pc) (ts : ℝ)
    (hts : MpGives E B (codeSol B) [] [("p", .scalar P), ("x", .scalar 0)] .T 0 ts) (hhi : B.Tc ≤ B.Thi) :
    let t := si E U B .T ts
    (si E U B .d D < B.dsv t → 0.99 * t ≤ si E U B .T T) ∧
    (B.dsv t ≤ si E U B .d D → B.Tlo ≤ 1.01 * t → si E U B .T T ≤ 1.01 * t) := by
  intro t
  have hmw := hB.dome.mw.ne'
  have hs := sat_call hU hmw h1 h2 hts
  obtain ⟨q, kw', k, hn', hsub, hall, -, hrules, hpar, ho, qT, -, qD, -⟩ := state_of hU hB (good_code hB) hkw hT hD
  obtain ⟨hI, hd1⟩ := qD x hx h0
  obtain ⟨pa, hpa, hel⟩ := given_p hpar hn' (hsub _ hv) hP
  have hcl : clip B.plo B.phi (internalKg E.a U B.mw .pressure P) = some (si E U B .p P) := clip_of_mem h1 h2
  rw [hcl] at hel
  obtain ⟨⟨da, hda⟩, n, hn, hdv⟩ := some_d hpar (hw.imp (hsub _) (hsub _))
  have hd := dv_ne hdv
  have np := name_p hpar hpa
  have hi0 : k.inv = none := none_of (by
    rintro ⟨j, a⟩ hj
    refine rules_three hrules hn (name_inv hpar hj) np ?_ hd.2.2.1 (inv_name_ne j).2.2.1 hd.1
    rcases hdv with rfl | rfl
    exacts [(inv_name_ne j).2.2.2.2.1.symm, (inv_name_ne j).2.2.2.2.2.symm])
  have hT0 : k.T = none := none_of (fun a ha =>
    rules_three hrules hn (name_T hpar ha) np hd.2.1 hd.2.2.1 (by decide) hd.1)
  cases ho with
  | hp h => rw [h] at hi0; cases hi0
  | hd h => rw [h] at hi0; cases hi0
  | hT h => rw [h] at hi0; cases hi0
  | Td _ h => rw [h] at hT0; cases hT0
  | Tx _ h => rw [h] at hT0; cases hT0
  | Tpx _ h => rw [h] at hT0; cases hT0
  | px _ _ _ h => rw [h] at hda; cases hda
  | pd _ _ g1 g2 g3 _ g4 g5 g6 g7 =>
    have hsat := pick_one (fun _ => rfl) hI
    rw [hsat] at qT hd1
    rw [g1] at hpa; cases hpa
    cases elem_unique g3 hel
    dsimp only [pick, onePt] at qT hd1
    cases hd1
    have e := askTs_at g5 g4 (by simp only [belowPc, decide_eq_true_eq]; exact not_le.mpr hc)
    rw [hs] at e
    have h7 := g7 hsat
    rw [e] at h7
    obtain ⟨w, hw⟩ := map_fst g6
    have := codeTdp_phase hw h7 qT hc
    have ht := (tsOf_bounds hB hs)
    have hp := hB.pos
    have ht0 : 0 ≤ t := by linarith [ht.1]
    rw [mul_comm t] at this
    refine ⟨fun a => this.1 a ?_ hB.range, this.2⟩
    have : t ≤ B.Tc := ht.2
    linarith

/-- **C76**, energy, enthalpy or entropy given with a pressure between triple and critical: `ts` is the
temperature a call with that pressure and quality 0 returns.  Above the value of the saturated vapor the
state returned is hotter than `ts`, otherwise colder. -/
theorem C76_with_pressure (j : Mp.Inv) (v w : Val ℝ) (hv : (j.name, v) ∈ supplied varg kw)
    (hw : ("p", w) ∈ supplied varg kw) (y P : ℝ) (hy : Elem (Val.elems v) i y) (hP : Elem (Val.elems w) i P)
    (h1 : B.plo ≤ si E U B .p P) (h2 : si E U B .p P ≤ B.phi) (p1 : B.pt < si E U B .p P)
    (p2 : si E U B .p P < B.pc) (ts : ℝ)
    (hts : MpGives E B (codeSol B) [] [("p", .scalar P), ("x", .scalar 0)] .T 0 ts) :
    let t := si E U B .T ts
    (B.inv j t (B.dsv t) < si E U B j.quantity y → 1.000001 * t ≤ B.Thi → t < si E U B .T T) ∧
    (si E U B j.quantity y ≤ B.inv j t (B.dsv t) → B.Tlo ≤ 0.999999 * t → si E U B .T T < t) := by
  intro t
  have hmw := hB.dome.mw.ne'
  have hs := sat_call hU hmw h1 h2 hts
  obtain ⟨q, kw', k, hn', hsub, hall, -, hrules, hpar, ho, qT, -, qD, -⟩ := state_of hU hB (good_code hB) hkw hT hD
  obtain ⟨hI, hd1⟩ := qD x hx h0
  obtain ⟨a, ha, hel⟩ := given_inv hpar hn' hrules (hsub _ hv) hy
  obtain ⟨pa, hpa, hep⟩ := given_p hpar hn' (hsub _ hw) hP
  have hcl : clip B.plo B.phi (internalKg E.a U B.mw .pressure P) = some (si E U B .p P) := clip_of_mem h1 h2
  rw [hcl] at hep
  have e : si E U B j.quantity y = internalKg E.a U B.mw (kindOf j.name) y := by cases j <;> rfl
  rw [← e] at hel
  cases ho with
  | hd _ h => rw [h] at hpa; cases hpa
  | hT _ h => rw [h] at hpa; cases hpa
  | pd h => rw [h] at ha; cases ha
  | Td h => rw [h] at ha; cases ha
  | Tx h => rw [h] at ha; cases ha
  | Tpx h => rw [h] at ha; cases ha
  | px h => rw [h] at ha; cases ha
  | hp g1 g2 g3 g4 g5 g6 g7 g8 g9 g10 =>
    have hsat := pick_one (fun _ => rfl) hI
    rw [hsat] at qT hd1
    rw [g1] at ha; cases ha
    rw [g2] at hpa; cases hpa
    cases elem_unique g3 hel
    cases elem_unique g4 hep
    dsimp only [pick, onePt] at qT hd1
    have hb : betweenP B (some (si E U B .p P)) = true := by
      simp only [betweenP, decide_eq_true_eq, not_or, not_le, ge_iff_le]
      exact ⟨p2, p1⟩
    have e := askTs_at g6 g5 hb
    rw [hs] at e
    have h8 := g8 hsat
    rw [e] at h8
    obtain ⟨w, hw⟩ := map_fst g7
    have := codeThp_phase hw h8 qT hb
    have ht := (tsOf_bounds hB hs)
    have hp := hB.pos
    have ht0 : 0 < t := by linarith [ht.1]
    refine ⟨fun a b => ?_, fun a b => ?_⟩
    · have := this.1 a (by change t * (1 + 1e-6) ≤ _; linarith)
      change t * (1 + 1e-6) ≤ _ at this
      linarith
    · have := this.2 a (by change _ ≤ t * (1 - 1e-6); linarith)
      change _ ≤ t * (1 - 1e-6) at this
      linarith

end

/-! ## Pressures below the triple point -/

section
variable {E : Env} {U : Sys} (hU : Uses E U) {B : Sub} (hmw : B.mw ≠ 0) (S : Sol)
include hU hmw

/-- A call with one pressure and one density. -/
theorem argparse_PD (p y : ℝ) (h1 : B.plo ≤ si E U B .p p) (h2 : si E U B .p p ≤ B.phi) :
    mpArgparse E B S [] [("p", .scalar p), ("d", .scalar y)] =
      (mpPD B S [si E U B .d y] [some (si E U B .p p)] >>= fun r =>
        .ok { pts := r.1 }) := by
  rw [argparse_two hU hmw]
  have r : mpRules [("p", .scalar p), ("d", .scalar y)] = .ok () := by simp [mpRules, mpLegal, Kw.has, List.lookup]
  have e1 : argKg E U B.mw [("p", .scalar p), ("d", .scalar y)] "p" = some ⟨[si E U B .p p], false⟩ := rfl
  have e2 : argKg E U B.mw [("p", .scalar p), ("d", .scalar y)] "d" = some ⟨[si E U B .d y], false⟩ := rfl
  have e3 : ∀ n, n ≠ "p" → n ≠ "d" → argKg E U B.mw [("p", .scalar p), ("d", .scalar y)] n = none := by
    intro n h1 h2
    simp [argKg, List.lookup, beq_false_of_ne h1, beq_false_of_ne h2]
  rw [r, exOk, parsed, e3 "T" (by decide) (by decide), mpRange_none, exOk, e1, gas_range h1 h2, exOk,
    e3 "x" (by decide) (by decide), e3 "e" (by decide) (by decide), e3 "h" (by decide) (by decide),
    e3 "s" (by decide) (by decide), e3 "v" (by decide) (by decide), e2]
  rfl

end

/-- **C76 disagreement.**  With a pressure below the triple point and a density between the saturation
densities halfway between the triple and the critical temperature, a two-phase state at that temperature
is returned, whatever the pressure (`mp1.py:2217-2246`, `2046-2053`). -/
theorem C76_low_pressure_defect (E : Env) (U : Sys) (hU : Uses E U) (B : Sub) (Tmin : ℝ) (hB : GoodSub B Tmin)
    (p y : ℝ) (h1 : B.plo ≤ si E U B .p p) (h2 : si E U B .p p ≤ B.phi) (hpt : si E U B .p p < B.pt)
    (hpc : B.pt ≤ B.pc) (hv : B.dsv B.Tmid ≤ si E U B .d y) (hl : si E U B .d y ≤ B.dsl B.Tmid) :
    mpT E B (codeSol B) [] [("p", .scalar p), ("d", .scalar y)]
      = .ok [some (fromKelvin U.T.name (1 / 2 * (B.Tt + B.Tc)))] ∧
    ∃ x, MpGives E B (codeSol B) [] [("p", .scalar p), ("d", .scalar y)] .x 0 x ∧ 0 ≤ x ∧ x ≤ 1 := by
  have hmw := hB.dome.mw.ne'
  have h := argparse_PD hU hmw (codeSol B) p y h1 h2
  obtain ⟨f, hf, hf0⟩ := codeTs_out (B := B) (p := si E U B .p p) (fun hc => absurd hc.1 (not_le.mpr hpt))
  have hbel : belowPc B (some (si E U B .p p)) = true := by
    simp only [belowPc, decide_eq_true_eq, ge_iff_le, not_le]; linarith
  have hask : askTs (codeSol B) (belowPc B) [some (si E U B .p p)] = .ok f := by
    unfold askTs
    rw [if_pos (by simp [hbel])]
    simpa [hbel] using hf
  have t1 : Tmin ≤ B.Tmid := by
    have := hB.min1; have := hB.pos; have := hB.order
    unfold Sub.Tmid; linarith
  have t2 : B.Tmid < B.Tc := by
    have := hB.order
    unfold Sub.Tmid; linarith
  have v0 := hB.dome.vapor _ t1 t2.le
  have l0 := hB.dome.liquid _ t1 t2
  have d0 : 0 < si E U B .d y := v0.trans_le hv
  have hne : B.dsl B.Tmid / B.dsv B.Tmid - 1 ≠ 0 := by
    rw [div_sub_one v0.ne']; exact div_ne_zero (by linarith) v0.ne'
  obtain ⟨x, hx⟩ : ∃ x, x = (B.dsl B.Tmid / si E U B .d y - 1) / (B.dsl B.Tmid / B.dsv B.Tmid - 1) := ⟨_, rfl⟩
  have hsat : satPD B (some B.Tmid) (si E U B .d y, some (si E U B .p p)) = some (some x) := by
    unfold satPD
    rw [if_pos hbel, Option.bind_some]
    unfold satDens
    rw [if_pos ⟨hv, hl⟩, quot, if_neg hne, hx]
  have htdp : ∃ g, (codeSol B).Tdp [none] = .ok g := by
    show ∃ g, (codeTdp B [none]).map (·.1) = .ok g
    unfold codeTdp runHybrid hybrid1
    rw [if_neg (by simp [tdpIn, offIn])]
    exact ⟨_, rfl⟩
  obtain ⟨g, hg⟩ := htdp
  have hr : mpArgparse E B (codeSol B) [] [("p", .scalar p), ("d", .scalar y)]
      = .ok { pts := [satPt B (some B.Tmid) (some x)] } := by
    rw [h]
    simp only [mpPD, broadcast, List.length_cons, List.length_nil, if_true, exOk, List.zip_cons_cons, List.zip_nil_right,
      hask, List.mapIdx_cons, List.mapIdx_nil, hf0, hsat, Option.isSome_some, hg]
  refine ⟨?_, x, (gives_iff hU hmw hr (by simp) rfl x).mpr rfl, ?_, ?_⟩
  · have := method_pts hU hmw hr (m := .T) (by simp)
    rw [show mpT E B (codeSol B) = mpMethod .T E B (codeSol B) from rfl, this]
    have e : B.Tmid = 1 / 2 * (B.Tt + B.Tc) := by unfold Sub.Tmid; norm_num
    simp only [ptValue, satPt, List.map_cons, List.map_nil, Option.map_some, e]
    rfl
  · rw [hx]
    refine div_nonneg ?_ ?_
    · rw [div_sub_one d0.ne']; exact div_nonneg (by linarith) d0.le
    · rw [div_sub_one v0.ne']; exact div_nonneg (by linarith) v0.le
  · have hpos : 0 < B.dsl B.Tmid / B.dsv B.Tmid - 1 := by
      rw [div_sub_one v0.ne']; exact div_pos (by linarith) v0
    rw [hx, div_le_one hpos]
    have : B.dsl B.Tmid / si E U B .d y ≤ B.dsl B.Tmid / B.dsv B.Tmid :=
      div_le_div_of_nonneg_left (by linarith) v0 hv
    linarith

end PyroMat.Mp.Props
