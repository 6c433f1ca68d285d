import Verif.Mp.Origin
import Verif.Mp.PropsSatCalls

/-!
# C69: a call gives back what it was given
-/

set_option linter.unusedSimpArgs false

namespace PyroMat.Mp.Props

open PyroMat PyroMat.Units PyroMat.Units.Spec PyroMat.Units.Props PyroMat.Gas PyroMat.Gas.Spec
open PyroMat.Gas.Props PyroMat.Mp PyroMat.Mp.Spec PyroMat.Config.Defaults

theorem bindPos_keeps {varg : List (Val ℝ)} {kw kw' : Kw} (hn : (kw.map (·.1)).Nodup)
    (h : bindPos varg kw = .ok kw') : (kw'.map (·.1)).Nodup ∧ ∀ q, q ∈ supplied varg kw ↔ q ∈ kw' := by
  match varg with
  | [] => cases h; exact ⟨hn, fun q => by simp [supplied]⟩
  | [T] =>
    simp only [bindPos] at h
    split at h
    · cases h
    · rename_i hT
      cases h
      have hT' := (has_false_iff kw "T").mp (by simpa using hT)
      exact ⟨by simpa using ⟨by simpa using hT', hn⟩, fun q => by simp [supplied]⟩
  | [T, p] =>
    simp only [bindPos] at h
    split at h
    · cases h
    · rename_i hT
      split at h
      · cases h
      · rename_i hp
        cases h
        have hT' := (has_false_iff kw "T").mp (by simpa using hT)
        have hp' := (has_false_iff kw "p").mp (by simpa using hp)
        refine ⟨?_, fun q => ?_⟩
        · simp only [List.map_cons, List.nodup_cons, List.mem_cons]
          exact ⟨by rintro (h | h); exacts [absurd h (by decide), hp' h], hT', hn⟩
        · simp [supplied]; tauto
  | _ :: _ :: _ :: _ => cases h

theorem applyDefaults_keeps {E : Env} {kw kw' : Kw} (hn : (kw.map (·.1)).Nodup)
    (h : applyDefaults E kw = .ok kw') : (kw'.map (·.1)).Nodup ∧ (∀ q, q ∈ kw → q ∈ kw') ∧
      (2 ≤ kw.length → kw' = kw) ∧ ∀ q, q ∈ kw' → q ∈ kw ∨ q.1 = "T" ∨ q.1 = "p" := by
  match kw with
  | [] =>
    simp only [applyDefaults] at h
    obtain ⟨T, -, h⟩ := bind_ok h
    obtain ⟨p, -, h⟩ := bind_ok h
    cases h
    exact ⟨by simp, by simp, by simp, by simp⟩
  | [q] =>
    simp only [applyDefaults] at h
    split at h
    · rename_i hq
      obtain ⟨T, -, h⟩ := bind_ok h
      cases h
      refine ⟨?_, by simp, by simp, by simp⟩
      simp only [List.map_cons, List.map_nil, List.nodup_cons, List.mem_cons, List.not_mem_nil, or_false,
        not_false_eq_true, List.nodup_nil, and_true]
      exact fun h => hq h.symm
    · rename_i hq
      obtain ⟨T, -, h⟩ := bind_ok h
      cases h
      refine ⟨?_, by simp, by simp, by simp⟩
      have : q.1 = "T" := by simpa using hq
      simp [this]
  | _ :: _ :: _ => cases h; exact ⟨hn, fun _ h => h, fun _ => rfl, fun _ h => Or.inl h⟩

/-- Where the elements of a call come from, in terms of its arguments. -/
theorem argparse_origin {E : Env} {U : Sys} (hU : Uses E U) {B : Sub} (hmw : B.mw ≠ 0) {S : Sol}
    {varg : List (Val ℝ)} {kw : Kw} (hn : (kw.map (·.1)).Nodup) {r : MOut}
    (h : mpArgparse E B S varg kw = .ok r) {i : Nat} {q : Pt} (hq : r.pts[i]? = some q) :
    ∃ kw' k, (kw'.map (·.1)).Nodup ∧ (∀ q, q ∈ supplied varg kw → q ∈ kw') ∧
      (2 ≤ (supplied varg kw).length → ∀ q, q ∈ kw' → q ∈ supplied varg kw) ∧
      (∀ q, q ∈ kw' → q ∈ supplied varg kw ∨ q.1 = "T" ∨ q.1 = "p") ∧
      RulesOk (kw'.map (·.1)) ∧ Parsed E U B kw' k ∧ Origin B S k i q := by
  rw [mpArgparse_eq hU hmw] at h
  obtain ⟨kw1, h1, h⟩ := bind_ok h
  unfold afterPos at h
  obtain ⟨kw2, h2, h⟩ := bind_ok h
  obtain ⟨u, h3, h⟩ := bind_ok h
  obtain ⟨k, h4, h⟩ := bind_ok h
  obtain ⟨n1, m1⟩ := bindPos_keeps hn h1
  obtain ⟨n2, m2, m3, m4⟩ := applyDefaults_keeps n1 h2
  have hlen : (supplied varg kw).length = kw1.length := by
    match varg with
    | [] => cases h1; rfl
    | [T] =>
      simp only [bindPos] at h1
      split at h1 <;> cases h1
      simp [supplied]
    | [T, p] =>
      simp only [bindPos] at h1
      split at h1
      · cases h1
      split at h1 <;> cases h1
      simp [supplied]
    | _ :: _ :: _ :: _ => cases h1
  rcases parsed_cases E U B kw2 with hp | ⟨k', hp, hk'⟩
  · rw [hp] at h4; cases h4
  rw [hp] at h4
  cases h4
  rcases mpRules_cases kw2 with ⟨-, hr⟩ | ⟨hr, -⟩
  swap
  · rw [hr] at h3; cases h3
  refine ⟨kw2, k, n2, fun q hq => m2 q ((m1 q).mp hq), fun hl q hq => ?_,
    fun q hq => (m4 q hq).imp_left (m1 q).mpr, hr, hk', solve_origin h hq⟩
  rw [m3 (by omega)] at hq
  exact (m1 q).mpr hq

theorem three {l : List String} (hl : l.length ≤ 2) {a b c : String} (ha : a ∈ l) (hb : b ∈ l)
    (hc : c ∈ l) (h1 : a ≠ b) (h2 : a ≠ c) (h3 : b ≠ c) : False := by
  match l, hl with
  | [x], _ => simp at ha hb; exact h1 (ha.trans hb.symm)
  | [x, y], _ =>
    simp at ha hb hc
    rcases ha with rfl | rfl <;> rcases hb with rfl | rfl <;> rcases hc with rfl | rfl <;> simp_all

theorem rules_three {l : List String} (h : RulesOk l) {a b c : String} (ha : a ∈ l) (hb : b ∈ l)
    (hc : c ∈ l) (h1 : a ≠ b) (h2 : a ≠ c) (h3 : b ≠ c) (ha' : a ∉ ["T", "p", "x"]) : False := by
  rcases h.few with h4 | h4
  · exact three h4 ha hb hc h1 h2 h3
  · exact ha' (h4 a ha)

section
variable {E : Env} {U : Sys} {B : Sub} {kw : Kw} {k : MStd}

theorem name_T (h : Parsed E U B kw k) {t : NArg} (ht : k.T = some t) : "T" ∈ kw.map (·.1) := by
  obtain ⟨a, ha, -⟩ := role_T h ht; exact has_of_argKg ha

theorem name_p (h : Parsed E U B kw k) {t : NArg} (ht : k.p = some t) : "p" ∈ kw.map (·.1) := by
  obtain ⟨a, ha, -⟩ := role_p h ht; exact has_of_argKg ha

theorem name_x (h : Parsed E U B kw k) {t : Arg} (ht : k.x = some t) : "x" ∈ kw.map (·.1) :=
  has_of_argKg (role_x h ht)

theorem name_inv (h : Parsed E U B kw k) {j : Mp.Inv} {t : Arg} (ht : k.inv = some (j, t)) :
    j.name ∈ kw.map (·.1) :=
  has_of_argKg (role_inv h ht)

theorem name_d (h : Parsed E U B kw k) {t : Arg} (ht : k.d = some t) :
    ∃ n ∈ kw.map (·.1), n = "d" ∨ n = "v" := by
  rcases role_d h ht with ⟨h, -⟩ | ⟨a, h, -⟩
  · exact ⟨_, has_of_argKg h, Or.inl rfl⟩
  · exact ⟨_, has_of_argKg h, Or.inr rfl⟩

theorem inv_name_ne (j : Mp.Inv) : j.name ∉ ["T", "p", "x"] ∧ j.name ≠ "T" ∧ j.name ≠ "p" ∧ j.name ≠ "x" ∧
    j.name ≠ "d" ∧ j.name ≠ "v" := by
  cases j <;> simp [Inv.name]

theorem dv_ne {n : String} (h : n = "d" ∨ n = "v") : n ∉ ["T", "p", "x"] ∧ n ≠ "T" ∧ n ≠ "p" ∧ n ≠ "x" := by
  rcases h with rfl | rfl <;> simp

/-- The arguments of the call as they appear in the parsed ones. -/
theorem given_T (h : Parsed E U B kw k) (hn : (kw.map (·.1)).Nodup) {v : Val ℝ} (hv : ("T", v) ∈ kw)
    {i : Nat} {y : ℝ} (hy : Elem (Val.elems v) i y) :
    ∃ t, k.T = some t ∧ Elem t.xs i (clip B.Tlo B.Thi (toKelvin U.T.name y)) := by
  refine ⟨_, by rw [h.T, argKg_of_mem hn hv]; rfl, ?_⟩
  exact elem_map _ (elem_map (internalKg E.a U B.mw .temperature) hy)

theorem given_p (h : Parsed E U B kw k) (hn : (kw.map (·.1)).Nodup) {v : Val ℝ} (hv : ("p", v) ∈ kw)
    {i : Nat} {y : ℝ} (hy : Elem (Val.elems v) i y) :
    ∃ t, k.p = some t ∧ Elem t.xs i (clip B.plo B.phi (internalKg E.a U B.mw .pressure y)) := by
  refine ⟨_, by rw [h.p, argKg_of_mem hn hv]; rfl, ?_⟩
  exact elem_map _ (elem_map (internalKg E.a U B.mw .pressure) hy)

theorem given_x (h : Parsed E U B kw k) (hn : (kw.map (·.1)).Nodup) {v : Val ℝ} (hv : ("x", v) ∈ kw)
    {i : Nat} {y : ℝ} (hy : Elem (Val.elems v) i y) : ∃ t, k.x = some t ∧ Elem t.xs i y := by
  refine ⟨_, by rw [h.x, argKg_of_mem hn hv], ?_⟩
  exact elem_map (internalKg E.a U B.mw .number) hy

theorem given_d (h : Parsed E U B kw k) (hn : (kw.map (·.1)).Nodup) (hr : RulesOk (kw.map (·.1)))
    {v : Val ℝ} (hv : ("d", v) ∈ kw)
    {i : Nat} {y : ℝ} (hy : Elem (Val.elems v) i y) :
    ∃ t, k.d = some t ∧ Elem t.xs i (internalKg E.a U B.mw .density y) := by
  have hnv : argKg E U B.mw kw "v" = none := by
    rw [← isSome_eq_none, argKg_isSome, has_iff]
    exact fun hc => hr.not_dv ⟨List.mem_map_of_mem (f := (·.1)) hv, hc⟩
  refine ⟨_, by rw [h.d, hnv, mpDensity, argKg_of_mem hn hv], ?_⟩
  exact elem_map (internalKg E.a U B.mw .density) hy

theorem given_v (h : Parsed E U B kw k) (hn : (kw.map (·.1)).Nodup)
    {v : Val ℝ} (hv : ("v", v) ∈ kw)
    {i : Nat} {y : ℝ} (hy : Elem (Val.elems v) i y) :
    ∃ t, k.d = some t ∧ Elem t.xs i (1 / internalKg E.a U B.mw .volume y) := by
  refine ⟨_, by rw [h.d, argKg_of_mem hn hv, mpDensity], ?_⟩
  exact elem_map (fun x => 1 / x) (elem_map (internalKg E.a U B.mw .volume) hy)

theorem given_inv (h : Parsed E U B kw k) (hn : (kw.map (·.1)).Nodup) (hr : RulesOk (kw.map (·.1)))
    {j : Mp.Inv} {v : Val ℝ} (hv : (j.name, v) ∈ kw) {i : Nat} {y : ℝ} (hy : Elem (Val.elems v) i y) :
    ∃ t, k.inv = some (j, t) ∧ Elem t.xs i (internalKg E.a U B.mw (kindOf j.name) y) := by
  have hm : j.name ∈ kw.map (·.1) := List.mem_map_of_mem (f := (·.1)) hv
  have none : ∀ n ∈ ["e", "h", "s"], n ≠ j.name → argKg E U B.mw kw n = none := by
    intro n hn' hne
    rw [← isSome_eq_none, argKg_isSome, has_iff]
    exact fun hc => hne (hr.one_ehs n hc j.name hm hn' (by cases j <;> simp [Inv.name]))
  refine ⟨⟨(Val.elems v).map (internalKg E.a U B.mw (kindOf j.name)), v.isArr && isInternalKg U j.name⟩, ?_,
    elem_map (internalKg E.a U B.mw (kindOf j.name)) hy⟩
  rw [h.inv]
  cases j with
  | e =>
    have e1 := argKg_of_mem (E := E) (U := U) (mw := B.mw) hn (show ("e", v) ∈ kw from hv)
    rw [e1]; rfl
  | h =>
    have e1 := argKg_of_mem (E := E) (U := U) (mw := B.mw) hn (show ("h", v) ∈ kw from hv)
    rw [none "e" (by simp) (by simp [Inv.name]), e1]; rfl
  | s =>
    have e1 := argKg_of_mem (E := E) (U := U) (mw := B.mw) hn (show ("s", v) ∈ kw from hv)
    rw [none "e" (by simp) (by simp [Inv.name]), none "h" (by simp) (by simp [Inv.name]), e1]; rfl

end

/-! ## Elements -/

section
variable {E : Env} {U : Sys} {B : Sub} {S : Sol} {kw : Kw} {k : MStd} {i : Nat} {q : Pt}

theorem match_cases {o : Option Nan} {f : Nan → Pt} {g : Pt} {P : Pt → Prop}
    (h1 : ∀ x, o = some x → P (f x)) (h2 : o = none → P g) :
    P (pick o f g) := by
  cases o with
  | none => exact h2 rfl
  | some x => exact h1 x rfl

/-- A given temperature is kept, or becomes NaN. -/
theorem origin_T (hp : Parsed E U B kw k) (hr : RulesOk (kw.map (·.1))) (ho : Origin B S k i q) {t : NArg}
    {T : Nan} (ht : k.T = some t) (hT : Elem t.xs i T) : q.T = T ∨ q.T = none := by
  have nT := name_T hp ht
  cases ho with
  | hp hi hpa =>
    rename_i j _ _ _ _ _ _ _ _ _ _ _ _ _ _ _ _ _ _
    exact (rules_three hr (name_inv hp hi) nT (name_p hp hpa) (inv_name_ne j).2.1 (inv_name_ne j).2.2.1
      (by decide) (inv_name_ne j).1).elim
  | hd hi hpn hda =>
    rename_i j _ _ _ _ _ _ _ _ _ _
    obtain ⟨n, hn, hdv⟩ := name_d hp hda
    refine (rules_three hr (name_inv hp hi) nT hn (inv_name_ne j).2.1 ?_ (Ne.symm (dv_ne hdv).2.1)
      (inv_name_ne j).1).elim
    rcases hdv with rfl | rfl
    exacts [(inv_name_ne j).2.2.2.2.1, (inv_name_ne j).2.2.2.2.2]
  | hT _ _ _ _ hta _ hT' =>
    rw [ht] at hta; cases hta
    rw [elem_unique hT hT']
    exact match_cases (P := fun q => q.T = _ ∨ q.T = none) (fun _ _ => Or.inl rfl) (fun _ => Or.inl rfl)
  | Tpx _ hta _ _ hT' =>
    rw [ht] at hta; cases hta
    rw [elem_unique hT hT']
    unfold ptTPX
    split
    · exact Or.inr rfl
    · split <;> exact Or.inl rfl
  | Td _ hta _ _ hT' =>
    rw [ht] at hta; cases hta
    rw [elem_unique hT hT']
    exact match_cases (P := fun q => q.T = _ ∨ q.T = none) (fun _ _ => Or.inl rfl) (fun _ => Or.inl rfl)
  | Tx _ hta _ _ _ hT' =>
    rw [ht] at hta; cases hta
    rw [elem_unique hT hT']
    exact Or.inl rfl
  | pd _ hTn => rw [ht] at hTn; cases hTn
  | px _ hTn => rw [ht] at hTn; cases hTn

/-- A given quality is kept, or becomes NaN. -/
theorem origin_x (hp : Parsed E U B kw k) (hr : RulesOk (kw.map (·.1))) (ho : Origin B S k i q) {t : Arg}
    {x : ℝ} (ht : k.x = some t) (hx : Elem t.xs i x) : q.x = some x ∨ q.x = none := by
  have nx := name_x hp ht
  cases ho with
  | hp hi hpa =>
    rename_i j _ _ _ _ _ _ _ _ _ _ _ _ _ _ _ _ _ _
    exact (rules_three hr (name_inv hp hi) nx (name_p hp hpa) (inv_name_ne j).2.2.2.1 (inv_name_ne j).2.2.1
      (by decide) (inv_name_ne j).1).elim
  | hd hi hpn hda =>
    rename_i j _ _ _ _ _ _ _ _ _ _
    obtain ⟨n, hn, hdv⟩ := name_d hp hda
    refine (rules_three hr (name_inv hp hi) nx hn (inv_name_ne j).2.2.2.1 ?_ (Ne.symm (dv_ne hdv).2.2.2)
      (inv_name_ne j).1).elim
    rcases hdv with rfl | rfl
    exacts [(inv_name_ne j).2.2.2.2.1, (inv_name_ne j).2.2.2.2.2]
  | hT _ _ _ hxn => rw [ht] at hxn; cases hxn
  | Tpx _ _ _ hxa =>
    rcases hxa with ⟨h, -⟩ | ⟨xa, h, hx'⟩
    · rw [ht] at h; cases h
    · rw [ht] at h; cases h
      rw [elem_unique hx hx']
      unfold ptTPX
      split
      · exact Or.inr rfl
      · split <;> exact Or.inl rfl
  | Td _ hta _ hda =>
    obtain ⟨n, hn, hdv⟩ := name_d hp hda
    exact (rules_three hr hn nx (name_T hp hta) (dv_ne hdv).2.2.2 (dv_ne hdv).2.1 (by decide)
      (dv_ne hdv).1).elim
  | Tx _ _ _ _ hxa _ hx' =>
    rw [ht] at hxa; cases hxa
    rw [elem_unique hx hx']
    exact Or.inl rfl
  | pd _ _ hpa hda =>
    obtain ⟨n, hn, hdv⟩ := name_d hp hda
    exact (rules_three hr hn nx (name_p hp hpa) (dv_ne hdv).2.2.2 (dv_ne hdv).2.2.1 (by decide)
      (dv_ne hdv).1).elim
  | px _ _ _ _ hxa _ hx' =>
    rw [ht] at hxa; cases hxa
    rw [elem_unique hx hx']
    exact Or.inl rfl

theorem quot_density {l v d x : ℝ} (hv : 0 < v) (hlv : v < l) (h1 : v ≤ d)
    (h : quot (l / d - 1) (l / v - 1) = some x) : 1 / ((1 - x) / l + x / v) = d := by
  have hl : 0 < l := hv.trans hlv
  have hd : 0 < d := lt_of_lt_of_le hv h1
  have hne : l / v - 1 ≠ 0 := by
    rw [div_sub_one hv.ne']; exact div_ne_zero (by linarith) hv.ne'
  unfold quot at h
  rw [if_neg hne, Option.some.injEq] at h
  have hlv' : l - v ≠ 0 := by linarith
  have : (1 - x) / l + x / v = 1 / d := by
    rw [div_eq_iff hne] at h
    have h3 : l / d = 1 + x * (l / v - 1) := by linarith
    have h4 : 1 / d = (1 + x * (l / v - 1)) / l := by rw [← h3]; field_simp
    rw [h4]; field_simp; ring
  rw [this, one_div_one_div]

theorem satPt_density {T D : ℝ} {x : Nan} (hv : 0 < B.dsv T) (hlv : B.dsv T < B.dsl T) (h1 : B.dsv T ≤ D)
    (hx : x = quot (B.dsl T / D - 1) (B.dsl T / B.dsv T - 1)) :
    (satPt B (some T) x).density = some D ∨ (satPt B (some T) x).density = none := by
  cases hq : quot (B.dsl T / D - 1) (B.dsl T / B.dsv T - 1) with
  | none => right; rw [hx, hq]; simp [satPt, Pt.density]
  | some x' =>
    left
    rw [hx, hq]
    simp only [satPt, Pt.density, onCurve, if_true, Option.map_some, Option.bind_some, Option.some.injEq]
    exact quot_density hv hlv h1 hq

end

section
variable {E : Env} {U : Sys} {B : Sub} {S : Sol} {kw : Kw} {k : MStd} {i : Nat} {q : Pt} {Tmin : ℝ}
  (hB : Dome B Tmin) (hS : Bounded S B Tmin) (hlo : Tmin ≤ B.Tlo)
include hB hS hlo

/-- A given density is kept, or becomes NaN. -/
theorem origin_d (hp : Parsed E U B kw k) (hr : RulesOk (kw.map (·.1))) (ho : Origin B S k i q) {t : Arg}
    {D : ℝ} (ht : k.d = some t) (hD : Elem t.xs i D) : q.density = some D ∨ q.density = none := by
  obtain ⟨n, hn, hdv⟩ := name_d hp ht
  cases ho with
  | hp hi hpa =>
    rename_i j _ _ _ _ _ _ _ _ _ _ _ _ _ _ _ _ _ _
    refine (rules_three hr (name_inv hp hi) hn (name_p hp hpa) ?_ (inv_name_ne j).2.2.1
      (dv_ne hdv).2.2.1 (inv_name_ne j).1).elim
    rcases hdv with rfl | rfl
    exacts [(inv_name_ne j).2.2.2.2.1, (inv_name_ne j).2.2.2.2.2]
  | hd _ _ hda _ hD' hT =>
    rw [ht] at hda; cases hda
    rw [elem_unique hD hD']
    refine match_cases (P := fun q => q.density = _ ∨ q.density = none) (fun x hx => ?_) (fun _ => Or.inl rfl)
    unfold satTD at hx
    obtain ⟨T, hTi, hx⟩ := Option.bind_eq_some_iff.mp hx
    split at hx
    · rename_i hlt
      have hm := hS.Thd _ _ _ hT i T hTi
      unfold satDens at hx
      split at hx
      · rename_i hc
        rw [hTi]
        exact satPt_density (hB.vapor T hm hlt.le) (hB.liquid T hm hlt) hc.1 (Option.some.inj hx).symm
      · cases hx
    · cases hx
  | hT _ _ hdn => rw [ht] at hdn; cases hdn
  | Tpx _ hta hpa =>
    exact (rules_three hr hn (name_T hp hta) (name_p hp hpa) (dv_ne hdv).2.1 (dv_ne hdv).2.2.1
      (by decide) (dv_ne hdv).1).elim
  | Td _ hta _ hda hT hD' =>
    rw [ht] at hda; cases hda
    rw [elem_unique hD hD']
    refine match_cases (P := fun q => q.density = _ ∨ q.density = none) (fun x hx => ?_) (fun _ => Or.inl rfl)
    unfold satTD at hx
    obtain ⟨T, hTi, hx⟩ := Option.bind_eq_some_iff.mp hx
    subst hTi
    obtain ⟨a, -, hxs, -⟩ := role_T hp hta
    rw [hxs] at hT
    obtain ⟨w, -, hw⟩ := elem_of_map hT
    have hm : Tmin ≤ T := le_trans hlo (clip_some hw).2.1
    rw [Option.bind_some] at hx
    split at hx
    · rename_i hlt
      unfold satDensStrict at hx
      split at hx
      · rename_i hc
        exact satPt_density (hB.vapor T hm hlt.le) (hB.liquid T hm hlt) hc.2.le (Option.some.inj hx).symm
      · cases hx
    · cases hx
  | Tx _ _ _ hdn => rw [ht] at hdn; cases hdn
  | pd _ _ _ hda _ hD' _ hTs =>
    rw [ht] at hda; cases hda
    rw [elem_unique hD hD']
    refine match_cases (P := fun q => q.density = _ ∨ q.density = none) (fun x hx => ?_) (fun _ => Or.inl rfl)
    unfold satPD at hx
    split at hx
    · obtain ⟨T, hTi, hx⟩ := Option.bind_eq_some_iff.mp hx
      obtain ⟨b1, b2⟩ := askTs_bound hB hS hTs i T hTi
      unfold satDens at hx
      split at hx
      · rename_i hc
        rw [hTi]
        have hv := hB.vapor T b1 b2
        rcases b2.lt_or_eq with h | h
        · exact satPt_density hv (hB.liquid T b1 h) hc.1 (Option.some.inj hx).symm
        · rcases lt_or_eq_of_le (le_trans hc.1 hc.2) with h | h
          · exact satPt_density hv h hc.1 (Option.some.inj hx).symm
          · right
            have : x = none := by
              rw [← Option.some.inj hx]
              unfold quot
              rw [if_pos]
              rw [← h, div_self hv.ne', sub_self]
            rw [this]; simp [satPt, Pt.density]
      · cases hx
    · cases hx
  | px _ _ _ hdn => rw [ht] at hdn; cases hdn

end

section
variable {E : Env} {U : Sys} {B : Sub} {S : Sol} {kw : Kw} {k : MStd} {i : Nat} {q : Pt}

theorem satInv_mix {j : Mp.Inv} {T y : ℝ} {x : Nan} (h : satInv B j T y = some x) :
    (satPt B (some T) x).mix (B.inv j) = some y ∨ (satPt B (some T) x).mix (B.inv j) = none := by
  unfold satInv at h
  dsimp only at h
  split at h
  · have hx := (Option.some.inj h).symm
    unfold quot at hx
    split at hx
    · right; rw [hx]; simp [satPt, Pt.mix]
    · rename_i hne
      left
      rw [hx]
      simp only [satPt, Pt.mix, onCurve, if_true, Option.map_some, Option.bind_some, Pt.at, nan2,
        Option.some.injEq]
      field_simp
      ring
  · cases h

/-- A given energy, enthalpy or entropy of a mixture is kept (or becomes NaN) unless it came with a
density. -/
theorem origin_inv (ho : Origin B S k i q) {j : Mp.Inv} {t : Arg} {y : ℝ} (ht : k.inv = some (j, t))
    (hy : Elem t.xs i y) (hd : k.d = none) (hI : q.I = true) :
    q.mix (B.inv j) = some y ∨ q.mix (B.inv j) = none := by
  cases ho with
  | hp hi _ hy' =>
    rw [ht] at hi; cases hi
    rw [elem_unique hy hy']
    revert hI
    refine match_cases (P := fun q => q.I = true → q.mix (B.inv j) = _ ∨ q.mix (B.inv j) = none)
      (fun x hx _ => ?_) (fun _ h => by cases h)
    unfold satHP at hx
    split at hx
    · obtain ⟨T, hTi, hx⟩ := Option.bind_eq_some_iff.mp hx
      rw [hTi]
      exact satInv_mix hx
    · cases hx
  | hd _ _ hda => rw [hd] at hda; cases hda
  | hT hi _ _ _ _ hy' =>
    rw [ht] at hi; cases hi
    rw [elem_unique hy hy']
    revert hI
    refine match_cases (P := fun q => q.I = true → q.mix (B.inv j) = _ ∨ q.mix (B.inv j) = none)
      (fun x hx _ => ?_) (fun _ h => by cases h)
    unfold satHT at hx
    obtain ⟨T, hTi, hx⟩ := Option.bind_eq_some_iff.mp hx
    split at hx
    · dsimp only at hTi; rw [hTi]
      exact satInv_mix hx
    · cases hx
  | Tpx hi => rw [ht] at hi; cases hi
  | Td hi => rw [ht] at hi; cases hi
  | Tx hi => rw [ht] at hi; cases hi
  | pd hi => rw [ht] at hi; cases hi
  | px hi => rw [ht] at hi; cases hi

end

/-! ## User level -/

/-- C69, direct properties.  In any valid unit system, if a call is given temperature, density, specific
volume or quality, alone or with any second property, by position or by keyword, then wherever the
method of the same name returns a number for that call it is the number given. -/
theorem C69_direct (E : Env) (U : Sys) (hU : Uses E U) (B : Sub) (Tmin : ℝ) (hB : Dome B Tmin)
    (S : Sol) (hS : Bounded S B Tmin) (hlo : Tmin ≤ B.Tlo) (varg : List (Val ℝ)) (kw : Kw)
    (hkw : (kw.map (·.1)).Nodup) (m : MQuantity) (hm : m = .T ∨ m = .d ∨ m = .v ∨ m = .x) (v : Val ℝ)
    (hv : (m.name, v) ∈ supplied varg kw) (i : Nat) (y z : ℝ) (hy : Elem (Val.elems v) i y)
    (hz : MpGives E B S varg kw m i z) : z = y := by
  have hmw := hB.mw.ne'
  have hcv : m ≠ .cv := by rcases hm with rfl | rfl | rfl | rfl <;> simp
  obtain ⟨r, q, hr, hq⟩ := gives_pt hU hmw hcv hz
  have hz' := (gives_iff hU hmw hr hcv hq z).mp hz
  obtain ⟨kw', k, hn', hsub, -, -, hrules, hpar, ho⟩ := argparse_origin hU hmw hkw hr hq
  rcases hm with rfl | rfl | rfl | rfl
  · obtain ⟨t, ht, hel⟩ := given_T hpar hn' (hsub _ hv) hy
    simp only [ptValue] at hz'
    obtain ⟨T, hT, rfl⟩ := Option.map_eq_some_iff.mp hz'
    rcases origin_T hpar hrules ho ht hel with h | h
    · rw [hT] at h
      rw [(clip_some h.symm).1]
      exact from_to _ _
    · rw [hT] at h; cases h
  · obtain ⟨t, ht, hel⟩ := given_d hpar hn' hrules (hsub _ hv) hy
    simp only [ptValue] at hz'
    obtain ⟨D, hD, rfl⟩ := Option.map_eq_some_iff.mp hz'
    rcases origin_d hB hS hlo hpar hrules ho ht hel with h | h
    · rw [hD] at h; cases h
      exact inUnitsKg_internalKg hU hmw _ _
    · rw [hD] at h; cases h
  · obtain ⟨t, ht, hel⟩ := given_v hpar hn' (hsub _ hv) hy
    simp only [ptValue] at hz'
    obtain ⟨D', hD', rfl⟩ := Option.map_eq_some_iff.mp hz'
    obtain ⟨D, hD, rfl⟩ := Option.map_eq_some_iff.mp hD'
    rcases origin_d hB hS hlo hpar hrules ho ht hel with h | h
    · rw [hD] at h; cases h
      rw [← inUnitsKg_recip hU hmw, one_div_one_div]
      exact inUnitsKg_internalKg hU hmw _ _
    · rw [hD] at h; cases h
  · obtain ⟨t, ht, hel⟩ := given_x hpar hn' (hsub _ hv) hy
    simp only [ptValue] at hz'
    rcases origin_x hpar hrules ho ht hel with h | h
    · rw [hz'] at h; cases h; rfl
    · rw [hz'] at h; cases h

/-- C69, mixtures.  In any valid unit system, if a call is given energy, enthalpy or entropy, with
temperature or pressure, then wherever the quality returned is a number `x ≥ 0` the method of the same
name returns the number given. -/
theorem C69_mixture (E : Env) (U : Sys) (hU : Uses E U) (B : Sub) (Tmin : ℝ) (hB : Dome B Tmin)
    (S : Sol) (hS : Bounded S B Tmin) (hlo : Tmin ≤ B.Tlo) (varg : List (Val ℝ)) (kw : Kw)
    (hkw : (kw.map (·.1)).Nodup) (m : MQuantity) (hm : m = .e ∨ m = .h ∨ m = .s) (v : Val ℝ)
    (hv : (m.name, v) ∈ supplied varg kw) (hd : ∀ w, ("d", w) ∉ supplied varg kw ∧ ("v", w) ∉ supplied varg kw)
    (i : Nat) (x y z : ℝ) (hy : Elem (Val.elems v) i y)
    (hx : MpGives E B S varg kw .x i x) (h0 : 0 ≤ x) (hz : MpGives E B S varg kw m i z) : z = y := by
  have hmw := hB.mw.ne'
  have hcv : m ≠ .cv := by rcases hm with rfl | rfl | rfl <;> simp
  obtain ⟨r, q, hr, hq⟩ := gives_pt hU hmw hcv hz
  have hz' := (gives_iff hU hmw hr hcv hq z).mp hz
  have hx' := (gives_iff hU hmw hr (by simp) hq x).mp hx
  obtain ⟨kw', k, hn', hsub, -, hall, hrules, hpar, ho⟩ := argparse_origin hU hmw hkw hr hq
  have hg := argparse_good hB hS hU hlo hr q (List.mem_of_getElem? hq)
  have hI : q.I = true := by
    cases hI : q.I with
    | true => rfl
    | false => exact absurd ((hg.one hI).2 x hx').2 (not_lt.mpr h0)
  have hkd : k.d = none := by
    cases hk : k.d with
    | none => rfl
    | some a =>
      obtain ⟨n, hn, hdv⟩ := name_d hpar hk
      obtain ⟨⟨n', w⟩, hw, rfl⟩ := List.mem_map.mp hn
      rcases hall _ hw with h | h | h
      · rcases hdv with rfl | rfl
        exacts [absurd h (hd w).1, absurd h (hd w).2]
      · exact absurd h (dv_ne hdv).2.1
      · exact absurd h (dv_ne hdv).2.2.1
  have fin : ∀ j : Mp.Inv, (j.name, v) ∈ supplied varg kw →
      (q.mix (B.inv j)).map (inUnitsKg E.a U B.mw (kindOf j.name)) = some z → z = y := by
    intro j hj hz
    obtain ⟨t, ht, hel⟩ := given_inv hpar hn' hrules (hsub _ hj) hy
    obtain ⟨Y, hY, rfl⟩ := Option.map_eq_some_iff.mp hz
    rcases origin_inv ho ht hel hkd hI with h | h
    · rw [hY] at h; cases h
      exact inUnitsKg_internalKg hU hmw _ _
    · rw [hY] at h; cases h
  rcases hm with rfl | rfl | rfl
  · exact fin .e hv hz'
  · exact fin .h hv hz'
  · exact fin .s hv hz'

/-- An element made from a temperature and a quality that is not negative, whatever else was given. -/
theorem origin_Tx {E : Env} {U : Sys} {B : Sub} {S : Sol} {kw : Kw} {k : MStd} {i : Nat} {q : Pt}
    (hpar : Parsed E U B kw k) (hrules : RulesOk (kw.map (·.1))) (ho : Origin B S k i q)
    {ta : NArg} {xa : Arg} {T : Nan} {x : ℝ} (hT : k.T = some ta) (hx : k.x = some xa)
    (eT : Elem ta.xs i T) (ex : Elem xa.xs i x) (h0 : 0 ≤ x) :
    q = satPt B T (some x) ∨ q = ⟨none, none, none, none, false⟩ := by
  have nT := name_T hpar hT
  have nx := name_x hpar hx
  have ninv : ∀ j a, k.inv ≠ some (j, a) := by
    intro j a hj
    have := inv_name_ne j
    exact rules_three hrules (name_inv hpar hj) nT nx this.2.1 this.2.2.2.1 (by decide) this.1
  have nd : ∀ a, k.d ≠ some a := by
    intro a ha
    obtain ⟨n, hn, hdv⟩ := name_d hpar ha
    have := dv_ne hdv
    exact rules_three hrules hn nT nx this.2.1 this.2.2.2 (by decide) this.1
  cases ho with
  | hp h => exact absurd h (ninv _ _)
  | hd h => exact absurd h (ninv _ _)
  | hT h => exact absurd h (ninv _ _)
  | Td _ _ _ h => exact absurd h (nd _)
  | pd _ h => rw [h] at hT; cases hT
  | px _ h => rw [h] at hT; cases hT
  | Tx _ h1 _ _ h2 h3 h4 =>
    rw [h1] at hT; cases hT
    rw [h2] at hx; cases hx
    rw [elem_unique eT h3, elem_unique ex h4]
    exact Or.inl rfl
  | Tpx _ h1 _ h2 h3 _ _ _ =>
    rw [h1] at hT; cases hT
    rcases h2 with ⟨h2, -⟩ | ⟨xa', h2, h4⟩
    · rw [h2] at hx; cases hx
    rw [h2] at hx; cases hx
    rw [← elem_unique eT h3, ← elem_unique ex h4]
    unfold ptTPX
    by_cases hb : badTX B T x = true
    · rw [if_pos hb]; exact Or.inr rfl
    · rw [if_neg hb, if_neg (not_lt.mpr h0)]; exact Or.inl rfl

/-- C69, temperature and quality.  A temperature and a quality that is not negative fix every property:
two calls given the same temperature and the same quality for an element, whatever else they are given,
return the same number wherever both return one.  In particular a pressure given with them is ignored. -/
theorem C69_pressure_ignored (E : Env) (U : Sys) (hU : Uses E U) (B : Sub) (hmw : B.mw ≠ 0)
    (S S' : Sol) (varg varg' : List (Val ℝ)) (kw kw' : Kw)
    (hkw : (kw.map (·.1)).Nodup) (hkw' : (kw'.map (·.1)).Nodup) (vT vx vT' vx' : Val ℝ)
    (hT : ("T", vT) ∈ supplied varg kw) (hx : ("x", vx) ∈ supplied varg kw)
    (hT' : ("T", vT') ∈ supplied varg' kw') (hx' : ("x", vx') ∈ supplied varg' kw')
    (i i' : Nat) (t x : ℝ) (h0 : 0 ≤ x)
    (eT : Elem (Val.elems vT) i t) (ex : Elem (Val.elems vx) i x)
    (eT' : Elem (Val.elems vT') i' t) (ex' : Elem (Val.elems vx') i' x)
    (m : MQuantity) (hm : m ≠ .cv) (z z' : ℝ)
    (hz : MpGives E B S varg kw m i z) (hz' : MpGives E B S' varg' kw' m i' z') : z = z' := by
  have key : ∀ {S : Sol} {varg : List (Val ℝ)} {kw : Kw}, (kw.map (·.1)).Nodup → ∀ {vT vx : Val ℝ},
      ("T", vT) ∈ supplied varg kw → ("x", vx) ∈ supplied varg kw → ∀ {i : Nat},
      Elem (Val.elems vT) i t → Elem (Val.elems vx) i x → ∀ {z : ℝ}, MpGives E B S varg kw m i z →
      ptValue E U B m (satPt B (clip B.Tlo B.Thi (toKelvin U.T.name t)) (some x)) = some z := by
    intro S varg kw hkw vT vx hT hx i eT ex z hz
    obtain ⟨r, q, hr, hq⟩ := gives_pt hU hmw hm hz
    have hv := (gives_iff hU hmw hr hm hq z).mp hz
    obtain ⟨kw', k, hn', hsub, -, -, hrules, hpar, ho⟩ := argparse_origin hU hmw hkw hr hq
    obtain ⟨ta, ht, et⟩ := given_T hpar hn' (hsub _ hT) eT
    obtain ⟨xa, hxa, exa⟩ := given_x hpar hn' (hsub _ hx) ex
    rcases origin_Tx hpar hrules ho ht hxa et exa h0 with rfl | rfl
    · exact hv
    · cases m <;> simp [ptValue, Pt.at, nan2, Pt.density, Pt.mix] at hv hm
  have a := key hkw hT hx eT ex hz
  have b := key hkw' hT' hx' eT' ex' hz'
  rw [a] at b
  exact Option.some.inj b

/-- A substance whose entropy rises from liquid to vapor. -/
noncomputable def mixSub : Sub :=
  { demoSub with F := ⟨461, 1, 1, 1, 1, fun _ d => ⟨d, 0, 0, 0, 0, 0⟩, fun _ _ => ⟨0, 0, 0, 0, 0, 0⟩⟩ }

theorem mix_dome : Dome mixSub 273 := ⟨demo_dome.mw, demo_dome.vapor, demo_dome.liquid⟩

theorem mix_bounded : Bounded demoSol mixSub 273 := ⟨demo_bounded.Ts, demo_bounded.Thd⟩

/-- The hypotheses of `C69_direct` and `C69_mixture` are met: at 500 K and an entropy half way between
liquid and vapor the methods return that temperature, that entropy and quality one half. -/
example : ∃ y, (MQuantity.T.name, .scalar 500) ∈ supplied [] [("T", .scalar 500), ("s", .scalar y)] ∧
    (MQuantity.s.name, .scalar y) ∈ supplied [] [("T", .scalar 500), ("s", .scalar y)] ∧
    MpGives fullEnv mixSub demoSol [] [("T", .scalar 500), ("s", .scalar y)] .T 0 500 ∧
    MpGives fullEnv mixSub demoSol [] [("T", .scalar 500), ("s", .scalar y)] .x 0 0.5 ∧
    MpGives fullEnv mixSub demoSol [] [("T", .scalar 500), ("s", .scalar y)] .s 0 y := by
  have hmw : mixSub.mw ≠ 0 := mix_dome.mw.ne'
  have hK : ∀ x : ℝ, toKelvin exampleSys.T.name x = x := fun x => by
    show toKelvin Scale.K.name x = x; exact toK_K x
  have hK' : ∀ x : ℝ, fromKelvin exampleSys.T.name x = x := fun x => by
    show fromKelvin Scale.K.name x = x; exact frK_K x
  obtain ⟨y, hy⟩ : ∃ y, y = inUnitsKg fullEnv.a exampleSys mixSub.mw (kindOf "s") (-461 * 150.5) := ⟨_, rfl⟩
  have hy' : internalKg fullEnv.a exampleSys mixSub.mw (kindOf "s") y = -461 * 150.5 := by
    rw [hy]; exact internalKg_inUnitsKg fullEnv_uses hmw _ _
  have hL : mixSub.inv .s 500 (mixSub.dsl 500) = -461 * 300 := by
    norm_num [mixSub, demoSub, Sub.inv, Fluid.s, Fluid.ao, Fluid.ar]
  have hV : mixSub.inv .s 500 (mixSub.dsv 500) = -461 := by
    norm_num [mixSub, demoSub, Sub.inv, Fluid.s, Fluid.ao, Fluid.ar]
  have hsat : satHT mixSub .s (-461 * 150.5, some 500) = some (some 0.5) := by
    unfold satHT satInv
    rw [Option.bind_some, if_pos (by norm_num [mixSub, demoSub])]
    dsimp only
    rw [hL, hV, if_pos (by norm_num), quot, if_neg (by norm_num)]
    norm_num
  obtain ⟨o, hr⟩ : ∃ o, mpArgparse fullEnv mixSub demoSol [] [("T", .scalar 500), ("s", .scalar y)]
      = .ok { pts := [satPt mixSub (some 500) (some 0.5)], callerT := o } := by
    rw [argparse_two fullEnv_uses hmw]
    have r : mpRules [("T", .scalar 500), ("s", .scalar y)] = .ok () := by
      simp [mpRules, mpLegal, Kw.has, List.lookup]
    have e1 : argKg fullEnv exampleSys mixSub.mw [("T", .scalar 500), ("s", .scalar y)] "T"
        = some ⟨[500], false⟩ := by
      show some (Arg.mk [internalKg fullEnv.a exampleSys mixSub.mw (kindOf "T") 500] _) = _
      have : internalKg fullEnv.a exampleSys mixSub.mw (kindOf "T") 500 = 500 := hK 500
      rw [this]; rfl
    have e2 : argKg fullEnv exampleSys mixSub.mw [("T", .scalar 500), ("s", .scalar y)] "s"
        = some ⟨[-461 * 150.5], false⟩ := by
      show some (Arg.mk [internalKg fullEnv.a exampleSys mixSub.mw (kindOf "s") y] _) = _
      rw [hy']; rfl
    have e3 : ∀ n, n ≠ "T" → n ≠ "s" →
        argKg fullEnv exampleSys mixSub.mw [("T", .scalar 500), ("s", .scalar y)] n = none := by
      intro n h1 h2
      simp [argKg, List.lookup, beq_false_of_ne h1, beq_false_of_ne h2]
    have hc : clip mixSub.Tlo mixSub.Thi 500 = some 500 :=
      clip_of_mem (by norm_num [mixSub, demoSub]) (by norm_num [mixSub, demoSub])
    rw [r, exOk, parsed, e1, mpRange_some ⟨500, by simp, by norm_num [mixSub, demoSub], by norm_num [mixSub, demoSub]⟩,
      exOk, e3 "p" (by decide) (by decide), mpRange_none, exOk,
      e3 "x" (by decide) (by decide), e3 "e" (by decide) (by decide), e3 "h" (by decide) (by decide),
      e3 "d" (by decide) (by decide), e3 "v" (by decide) (by decide), e2]
    refine ⟨none, ?_⟩
    simp only [mpQuality, exOk, mpDensity, mpInv, mpSolve, mpSolveInv, mpHT, broadcast, List.map_cons, List.map_nil, hc,
      List.length_cons, List.length_nil, if_true, List.zip_cons_cons, List.zip_nil_right, hsat, demoSol,
      List.mapIdx_cons, List.mapIdx_nil]
    rfl
  refine ⟨y, List.mem_cons_self, by simp [supplied, MQuantity.name], ?_, ?_, ?_⟩
  · refine (gives_iff fullEnv_uses hmw hr (by simp) rfl _).mpr ?_
    show some (fromKelvin exampleSys.T.name 500) = some 500
    rw [hK']
  · exact (gives_iff fullEnv_uses hmw hr (by simp) rfl _).mpr rfl
  · refine (gives_iff fullEnv_uses hmw hr (by simp) rfl _).mpr ?_
    show some (inUnitsKg fullEnv.a exampleSys mixSub.mw (kindOf "s")
      (mixSub.inv .s 500 (mixSub.dsl 500) * (1 - 0.5) + mixSub.inv .s 500 (mixSub.dsv 500) * 0.5)) = some y
    rw [hL, hV, hy]
    norm_num

end PyroMat.Mp.Props
