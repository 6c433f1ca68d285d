import Verif.Mp.PropsForms

/-!
# C51: saturated mixtures obey the lever rule
-/

set_option linter.unusedSimpArgs false

namespace PyroMat.Mp.Props

open PyroMat PyroMat.Units PyroMat.Units.Spec PyroMat.Units.Props PyroMat.Gas PyroMat.Gas.Spec
open PyroMat.Gas.Props PyroMat.Mp PyroMat.Mp.Spec PyroMat.Config.Defaults

/-- What every element `_argparse` returns satisfies. -/
structure PtGood (B : Sub) (q : Pt) : Prop where
  sat : q.I = true → q.d1 = onCurve B.dsl q.T ∧ q.d2 = onCurve B.dsv q.T ∧
    (∀ x, q.x = some x → 0 ≤ x ∧ x ≤ 1) ∧ ∀ T, q.T = some T → T ≤ B.Tc
  one : q.I = false → q.d1 = q.d2 ∧ ∀ x, q.x = some x → -1 ≤ x ∧ x < 0

theorem quot_mem {a b x : ℝ} (h0 : 0 ≤ a) (h1 : a ≤ b) (h : quot a b = some x) : 0 ≤ x ∧ x ≤ 1 := by
  unfold quot at h
  split at h
  · cases h
  · rename_i hb
    cases h
    have hb' : 0 < b := lt_of_le_of_ne (le_trans h0 h1) (Ne.symm hb)
    exact ⟨div_nonneg h0 hb'.le, (div_le_one hb').mpr h1⟩

theorem satInv_mem {B : Sub} {i : Inv} {T y x : ℝ} {o : Nan} (h : satInv B i T y = some o)
    (ho : o = some x) : 0 ≤ x ∧ x ≤ 1 := by
  unfold satInv at h
  dsimp only at h
  split at h
  · rename_i hc
    cases h
    exact quot_mem (by linarith [hc.1]) (by linarith [hc.2]) ho
  · cases h

theorem dens_le {l v d : ℝ} (hv : 0 < v) (h1 : v ≤ d) (h2 : d ≤ l) :
    0 ≤ l / d - 1 ∧ l / d - 1 ≤ l / v - 1 := by
  have hd : 0 < d := lt_of_lt_of_le hv h1
  have hl : 0 ≤ l := by linarith
  constructor
  · rw [sub_nonneg, le_div_iff₀ hd]; linarith
  · have := div_le_div_of_nonneg_left hl hv h1
    linarith

theorem satDens_mem {B : Sub} {T d x : ℝ} {o : Nan} (hv : 0 < B.dsv T) (h : satDens B T d = some o)
    (ho : o = some x) : 0 ≤ x ∧ x ≤ 1 := by
  unfold satDens at h
  split at h
  · rename_i hc
    cases h
    obtain ⟨a, b⟩ := dens_le hv hc.1 hc.2
    exact quot_mem a b ho
  · cases h

theorem satDensStrict_mem {B : Sub} {T d x : ℝ} {o : Nan} (hv : 0 < B.dsv T)
    (h : satDensStrict B T d = some o) (ho : o = some x) : 0 ≤ x ∧ x ≤ 1 := by
  unfold satDensStrict at h
  split at h
  · rename_i hc
    cases h
    obtain ⟨a, b⟩ := dens_le hv hc.2.le hc.1.le
    exact quot_mem a b ho
  · cases h

theorem good_onePt (B : Sub) (T d : Nan) : PtGood B (onePt T d) :=
  ⟨fun h => (by cases h), fun _ => ⟨rfl, fun x hx => (by cases hx; norm_num)⟩⟩

theorem good_satPt {B : Sub} {T x : Nan} (hT : ∀ t, T = some t → t ≤ B.Tc)
    (hx : ∀ a, x = some a → 0 ≤ a ∧ a ≤ 1) : PtGood B (satPt B T x) :=
  ⟨fun _ => ⟨rfl, rfl, hx, hT⟩, fun h => by cases h⟩

/-! ## Every case -/

theorem mem_mapIdx' {α β : Type} {f : Nat → α → β} {l : List α} {b : β} (h : b ∈ l.mapIdx f) :
    ∃ (n : Nat) (a : α), a ∈ l ∧ f n a = b := by
  rw [List.mem_mapIdx] at h
  obtain ⟨n, hn, h⟩ := h
  exact ⟨n, _, List.getElem_mem hn, h⟩

/-- The result of a bind. -/
theorem bind_ok {α β : Type} {m : Except Err α} {f : α → Except Err β} {y : β} (h : (m >>= f) = .ok y) :
    ∃ x, m = .ok x ∧ f x = .ok y := by
  cases m with
  | error e => rw [exErr] at h; cases h
  | ok x => exact ⟨x, rfl, h⟩

section
variable {B : Sub} {S : Sol} {Tmin : ℝ} (hB : Dome B Tmin) (hS : Bounded S B Tmin)
include hB hS

theorem askTs_bound {sel : Nan → Bool} {p : List Nan} {f : Nat → Nan} (h : askTs S sel p = .ok f) :
    ∀ n T, f n = some T → Tmin ≤ T ∧ T ≤ B.Tc := by
  unfold askTs at h
  split at h
  · exact hS.Ts _ _ h
  · cases h; intro n T hT; cases hT

theorem mpHP_good {i : Inv} {y : List ℝ} {p : List Nan} {r : List Pt} (h : mpHP B S i y p = .ok r) :
    ∀ q ∈ r, PtGood B q := by
  unfold mpHP at h
  obtain ⟨⟨y', p'⟩, -, h⟩ := bind_ok h
  dsimp only at h
  obtain ⟨Ts, hTs, h⟩ := bind_ok h
  obtain ⟨T, -, h⟩ := bind_ok h
  obtain ⟨d, -, h⟩ := bind_ok h
  cases h
  intro q hq
  obtain ⟨n, e, -, rfl⟩ := mem_mapIdx' hq
  have hb := askTs_bound hB hS hTs
  cases hx : satHP B i (Ts n) e with
  | none => exact good_onePt _ _ _
  | some x =>
    refine good_satPt (fun t ht => (hb n t ht).2) (fun a ha => ?_)
    unfold satHP at hx
    split at hx
    · cases hT : Ts n with
      | none => rw [hT] at hx; cases hx
      | some t => rw [hT] at hx; exact satInv_mem hx ha
    · cases hx

theorem mpHD_good {i : Inv} {y d : List ℝ} {r : List Pt} (h : mpHD B S i y d = .ok r) :
    ∀ q ∈ r, PtGood B q := by
  unfold mpHD at h
  obtain ⟨⟨y', d'⟩, -, h⟩ := bind_ok h
  dsimp only at h
  obtain ⟨T, hT, h⟩ := bind_ok h
  cases h
  intro q hq
  obtain ⟨n, e, -, rfl⟩ := mem_mapIdx' hq
  cases hx : satTD B (satDens B) (T n) e.2 with
  | none => exact good_onePt _ _ _
  | some x =>
    unfold satTD at hx
    cases hTn : T n with
    | none => rw [hTn] at hx; cases hx
    | some t =>
      rw [hTn, Option.bind_some] at hx
      split at hx
      · rename_i hlt
        have hmin := hS.Thd _ _ _ hT n t hTn
        refine good_satPt (fun t' ht => by cases ht; exact hlt.le) (fun a ha => ?_)
        exact satDens_mem (hB.vapor t hmin hlt.le) hx ha
      · cases hx

omit hB hS in
theorem mpHT_good {i : Inv} {y : List ℝ} {T : List Nan} {r : List Pt} (h : mpHT B S i y T = .ok r) :
    ∀ q ∈ r, PtGood B q := by
  unfold mpHT at h
  obtain ⟨⟨y', T'⟩, -, h⟩ := bind_ok h
  dsimp only at h
  obtain ⟨d, -, h⟩ := bind_ok h
  cases h
  intro q hq
  obtain ⟨n, e, -, rfl⟩ := mem_mapIdx' hq
  cases hx : satHT B i e with
  | none => exact good_onePt _ _ _
  | some x =>
    unfold satHT at hx
    cases hTn : e.2 with
    | none => rw [hTn] at hx; cases hx
    | some t =>
      rw [hTn, Option.bind_some] at hx
      split at hx
      · rename_i hlt
        exact good_satPt (fun t' ht => by cases ht; exact hlt.le) (fun a ha => satInv_mem hx ha)
      · cases hx

omit hB hS in
theorem mpTPX_good {T p : List Nan} {x : List ℝ} {r} (hx : ∀ a ∈ x, -1 ≤ a ∧ a ≤ 1)
    (h : mpTPX B S T p x = .ok r) : ∀ q ∈ r.1, PtGood B q := by
  unfold mpTPX at h
  obtain ⟨⟨T', p'⟩, -, h⟩ := bind_ok h
  dsimp only at h
  obtain ⟨⟨w, x'⟩, h2, h⟩ := bind_ok h
  obtain ⟨d, -, h⟩ := bind_ok h
  cases h
  intro q hq
  dsimp only at hq
  obtain ⟨n, e, he, rfl⟩ := mem_mapIdx' hq
  have hxe := hx e.2 ((broadcast_mem h2).2 _ (List.of_mem_zip he).2)
  unfold ptTPX
  by_cases hb : badTX B e.1.1 e.2 = true
  · rw [if_pos hb]
    exact ⟨fun h => (by cases h), fun _ => ⟨rfl, fun x hx => by cases hx⟩⟩
  rw [if_neg hb]
  by_cases hneg : e.2 < 0
  · rw [if_pos hneg]
    exact ⟨fun h => (by cases h), fun _ => ⟨rfl, fun x hx => by cases hx; exact ⟨hxe.1, hneg⟩⟩⟩
  · rw [if_neg hneg]
    refine good_satPt (fun t ht => ?_) (fun a ha => by cases ha; exact ⟨not_lt.mp hneg, hxe.2⟩)
    by_contra hc
    apply hb
    unfold badTX
    rw [ht]
    simp only [decide_eq_true_eq]
    exact ⟨hneg, not_le.mp hc⟩

omit hS in
theorem mpTD_good {T : List Nan} {d : List ℝ} {r : List Pt} (hT : ∀ t, some t ∈ T → Tmin ≤ t)
    (h : mpTD B T d = .ok r) : ∀ q ∈ r, PtGood B q := by
  unfold mpTD at h
  obtain ⟨⟨T', d'⟩, h1, h⟩ := bind_ok h
  cases h
  intro q hq
  rw [List.mem_map] at hq
  obtain ⟨e, he, rfl⟩ := hq
  have hmem := (broadcast_mem h1).1 _ (List.of_mem_zip he).1
  cases hx : satTD B (satDensStrict B) e.1 e.2 with
  | none => exact good_onePt _ _ _
  | some x =>
    unfold satTD at hx
    cases hTn : e.1 with
    | none => rw [hTn] at hx; cases hx
    | some t =>
      rw [hTn, Option.bind_some] at hx
      rw [hTn] at hmem
      split at hx
      · rename_i hlt
        refine good_satPt (fun t' ht => by cases ht; exact hlt.le) (fun a ha => ?_)
        exact satDensStrict_mem (hB.vapor t (hT t hmem) hlt.le) hx ha
      · cases hx

omit hB hS in
theorem mpTX_good {T : List Nan} {x : List ℝ} {r : List Pt} (hx : ∀ a ∈ x, -1 ≤ a ∧ a ≤ 1)
    (h : mpTX B T x = .ok r) : ∀ q ∈ r, PtGood B q := by
  unfold mpTX at h
  obtain ⟨⟨T', x'⟩, h1, h⟩ := bind_ok h
  dsimp only at h
  split at h
  · cases h
  rename_i c1
  split at h
  · cases h
  rename_i c2
  cases h
  intro q hq
  rw [List.mem_map] at hq
  obtain ⟨e, he, rfl⟩ := hq
  have m1 := (List.of_mem_zip he).1
  have m2 := (List.of_mem_zip he).2
  refine good_satPt (fun t ht => ?_) (fun a ha => ?_)
  · by_contra hc
    apply c1
    rw [List.any_eq_true]
    exact ⟨e.1, m1, by rw [ht]; simpa using not_le.mp hc⟩
  · cases ha
    refine ⟨?_, (hx _ ((broadcast_mem h1).2 _ m2)).2⟩
    by_contra hc
    apply c2
    rw [List.any_eq_true]
    exact ⟨e.2, m2, by simpa using not_le.mp hc⟩

theorem mpPD_good {d : List ℝ} {p : List Nan} {r} (h : mpPD B S d p = .ok r) :
    ∀ q ∈ r.1, PtGood B q := by
  unfold mpPD at h
  obtain ⟨⟨d', p'⟩, -, h⟩ := bind_ok h
  dsimp only at h
  obtain ⟨Ts, hTs, h⟩ := bind_ok h
  obtain ⟨T, -, h⟩ := bind_ok h
  cases h
  intro q hq
  dsimp only at hq
  obtain ⟨n, e, -, rfl⟩ := mem_mapIdx' hq
  have hb := askTs_bound hB hS hTs
  cases hx : satPD B (Ts n) e with
  | none => exact good_onePt _ _ _
  | some x =>
    refine good_satPt (fun t ht => (hb n t ht).2) (fun a ha => ?_)
    unfold satPD at hx
    split at hx
    · cases hT : Ts n with
      | none => rw [hT] at hx; cases hx
      | some t =>
        rw [hT, Option.bind_some] at hx
        obtain ⟨b1, b2⟩ := hb n t hT
        exact satDens_mem (hB.vapor t b1 b2) hx ha
    · cases hx

theorem mpPX_good {p : List Nan} {x : List ℝ} {r : List Pt} (hx : ∀ a ∈ x, -1 ≤ a ∧ a ≤ 1)
    (h : mpPX B S p x = .ok r) : ∀ q ∈ r, PtGood B q := by
  unfold mpPX at h
  split at h
  · cases h
  split at h
  · cases h
  rename_i c2
  obtain ⟨⟨p', x'⟩, h1, h⟩ := bind_ok h
  dsimp only at h
  obtain ⟨Ts, hTs, h⟩ := bind_ok h
  cases h
  intro q hq
  obtain ⟨n, e, he, rfl⟩ := mem_mapIdx' hq
  have m2 := (broadcast_mem h1).2 _ (List.of_mem_zip he).2
  refine good_satPt (fun t ht => (hS.Ts _ _ hTs n t ht).2) (fun a ha => ?_)
  cases ha
  refine ⟨?_, (hx _ m2).2⟩
  by_contra hc
  apply c2
  rw [List.any_eq_true]
  exact ⟨e.2, m2, by simpa using not_le.mp hc⟩

theorem mpSolve_good {k : MStd} {r : MOut} (hT : ∀ t, k.T = some t → ∀ z, some z ∈ t.xs → Tmin ≤ z)
    (hx : ∀ a, k.x = some a → ∀ x ∈ a.xs, -1 ≤ x ∧ x ≤ 1) (h : mpSolve B S k = .ok r) :
    ∀ q ∈ r.pts, PtGood B q := by
  unfold mpSolve at h
  split at h
  · unfold mpSolveInv at h
    split at h
    · obtain ⟨l, hl, h⟩ := bind_ok h; cases h; exact mpHP_good hB hS hl
    · obtain ⟨l, hl, h⟩ := bind_ok h; cases h; exact mpHD_good hB hS hl
    · cases h
    · obtain ⟨l, hl, h⟩ := bind_ok h; cases h; exact mpHT_good hl
    · cases h
  · unfold mpSolveBasic at h
    split at h
    · obtain ⟨l, hl, h⟩ := bind_ok h; cases h
      refine mpTPX_good (fun a ha => ?_) hl
      simp at ha; subst ha; norm_num
    · rename_i hx'
      obtain ⟨l, hl, h⟩ := bind_ok h; cases h; exact mpTPX_good (hx _ hx') hl
    · rename_i hT' _ _
      obtain ⟨l, hl, h⟩ := bind_ok h; cases h; exact mpTD_good hB (hT _ hT') hl
    · rename_i hx'
      obtain ⟨l, hl, h⟩ := bind_ok h; cases h; exact mpTX_good (hx _ hx') hl
    · obtain ⟨l, hl, h⟩ := bind_ok h; cases h; exact mpPD_good hB hS hl
    · rename_i hx'
      obtain ⟨l, hl, h⟩ := bind_ok h; cases h; exact mpPX_good hB hS (hx _ hx') hl
    · cases h

/-- Every element of every call. -/
theorem argparse_good {E : Env} {U : Sys} (hU : Uses E U) (hlo : Tmin ≤ B.Tlo) {varg : List (Val ℝ)}
    {kw : Kw} {r : MOut} (h : mpArgparse E B S varg kw = .ok r) : ∀ q ∈ r.pts, PtGood B q := by
  rw [mpArgparse_eq hU hB.mw.ne'] at h
  obtain ⟨kw1, -, h⟩ := bind_ok h
  unfold afterPos at h
  obtain ⟨kw2, -, h⟩ := bind_ok h
  obtain ⟨-, -, h⟩ := bind_ok h
  obtain ⟨k, hk, h⟩ := bind_ok h
  rcases parsed_cases E U B kw2 with hp | ⟨k', hp, hk'⟩
  · rw [hp] at hk; cases hk
  rw [hp] at hk
  cases hk
  refine mpSolve_good hB hS (fun t ht z hz => ?_) hk'.quality h
  obtain ⟨a, -, hx, -⟩ := role_T hk' ht
  rw [hx, List.mem_map] at hz
  obtain ⟨w, -, hc⟩ := hz
  exact le_trans hlo (clip_some hc).2.1

end

/-! ## User level -/

theorem getElem?_outs {a : SetupArgs ℝ} {U : Sys} {mw : ℝ} {k : Kind} {f : Pt → Nan} {pts : List Pt} {i : Nat}
    {q : Pt} (hq : pts[i]? = some q) :
    (outsKg a U mw k (pts.map f))[i]? = some ((f q).map (inUnitsKg a U mw k)) := by
  simp [outsKg, hq]

section
variable {E : Env} {U : Sys} (hU : Uses E U) {B : Sub} (hmw : B.mw ≠ 0) {S : Sol}
  {varg : List (Val ℝ)} {kw : Kw}
include hU hmw

/-- The value a method computes at an element, in the working units (`cv` only where it does not
raise). -/
noncomputable def ptValue (E : Env) (U : Sys) (B : Sub) (m : MQuantity) (q : Pt) : Nan :=
  match m with
  | .T => q.T.map (inUnitsKg E.a U B.mw .temperature)
  | .p => (Pt.at (fun T d => (B.F.p T d).v) q.T q.d2).map (inUnitsKg E.a U B.mw .pressure)
  | .d => q.density.map (inUnitsKg E.a U B.mw .density)
  | .v => (q.density.map (inUnitsKg E.a U B.mw .density)).map (fun x => 1 / x)
  | .x => q.x
  | .e => (q.mix (fun T d => (B.F.e T d).v)).map (inUnitsKg E.a U B.mw .energy)
  | .f => (q.mix (fun T d => (B.F.f T d).v)).map (inUnitsKg E.a U B.mw .energy)
  | .g => (q.mix (fun T d => (B.F.g T d).v)).map (inUnitsKg E.a U B.mw .energy)
  | .h => (q.mix (fun T d => (B.F.h T d).v)).map (inUnitsKg E.a U B.mw .energy)
  | .s => (q.mix (fun T d => (B.F.s T d).v)).map (inUnitsKg E.a U B.mw .entropy)
  | .cv => (q.cv B).map (inUnitsKg E.a U B.mw .entropy)

/-- Every method but `cv` evaluates the elements one by one. -/
theorem method_pts {r : MOut} (h : mpArgparse E B S varg kw = .ok r) {m : MQuantity} (hm : m ≠ .cv) :
    mpMethod m E B S varg kw = .ok (r.pts.map (ptValue E U B m)) := by
  have key : ∀ (k : Kind) (f : Pt → Nan), (Except.ok (outsKg E.a U B.mw k (r.pts.map f)) : Except Err (List Nan))
      = .ok (r.pts.map (fun q => (f q).map (inUnitsKg E.a U B.mw k))) := by
    intro k f; simp [outsKg, Function.comp_def]
  cases m <;> simp only [mpMethod]
  · rw [mpT_eq hU hmw, h, exOk, key]; rfl
  · rw [mpP_eq hU hmw, h, exOk, key]; rfl
  · rw [mpD_eq hU hmw, h, exOk, key]; rfl
  · rw [mpV_eq hU hmw, h, exOk]; simp [outsKg, Function.comp_def, ptValue]
  · rw [mpX, h, exOk]; rfl
  · rw [mpE_eq hU hmw, h, exOk, key]; rfl
  · rw [mpF_eq hU hmw, h, exOk, key]; rfl
  · rw [mpG_eq hU hmw, h, exOk, key]; rfl
  · rw [mpH_eq hU hmw, h, exOk, key]; rfl
  · rw [mpS_eq hU hmw, h, exOk, key]; rfl
  · exact absurd rfl hm

/-- A method that returns numbers got its arguments parsed. -/
theorem method_parsed {m : MQuantity} {ys : List Nan} (h : mpMethod m E B S varg kw = .ok ys) :
    ∃ r, mpArgparse E B S varg kw = .ok r := by
  cases m <;> simp only [mpMethod] at h
  · rw [mpT_eq hU hmw] at h; exact ⟨_, (bind_ok h).choose_spec.1⟩
  · rw [mpP_eq hU hmw] at h; exact ⟨_, (bind_ok h).choose_spec.1⟩
  · rw [mpD_eq hU hmw] at h; exact ⟨_, (bind_ok h).choose_spec.1⟩
  · rw [mpV_eq hU hmw] at h; exact ⟨_, (bind_ok h).choose_spec.1⟩
  · exact ⟨_, (bind_ok h).choose_spec.1⟩
  · rw [mpE_eq hU hmw] at h; exact ⟨_, (bind_ok h).choose_spec.1⟩
  · rw [mpF_eq hU hmw] at h; exact ⟨_, (bind_ok h).choose_spec.1⟩
  · rw [mpG_eq hU hmw] at h; exact ⟨_, (bind_ok h).choose_spec.1⟩
  · rw [mpH_eq hU hmw] at h; exact ⟨_, (bind_ok h).choose_spec.1⟩
  · rw [mpS_eq hU hmw] at h; exact ⟨_, (bind_ok h).choose_spec.1⟩
  · rw [mpCv_eq hU hmw] at h; exact ⟨_, (bind_ok h).choose_spec.1⟩

theorem gives_iff {r : MOut} (h : mpArgparse E B S varg kw = .ok r) {m : MQuantity} (hm : m ≠ .cv)
    {i : Nat} {q : Pt} (hq : r.pts[i]? = some q) (y : ℝ) :
    MpGives E B S varg kw m i y ↔ ptValue E U B m q = some y := by
  unfold MpGives
  rw [method_pts hU hmw h hm]
  constructor
  · rintro ⟨ys, h1, h2⟩
    cases h1
    simpa [hq] using h2
  · intro hy
    exact ⟨_, rfl, by simp [hq, hy]⟩

theorem gives_pt {m : MQuantity} {i : Nat} {y : ℝ} (hm : m ≠ .cv) (h : MpGives E B S varg kw m i y) :
    ∃ r q, mpArgparse E B S varg kw = .ok r ∧ r.pts[i]? = some q := by
  obtain ⟨ys, h1, h2⟩ := h
  obtain ⟨r, hr⟩ := method_parsed hU hmw h1
  rw [method_pts hU hmw hr hm] at h1
  cases h1
  rw [List.getElem?_map, Option.map_eq_some_iff] at h2
  obtain ⟨q, hq, -⟩ := h2
  exact ⟨r, q, hr, hq⟩

end

theorem inUnitsKg_lin (a : SetupArgs ℝ) (S : Sys) (mw : ℝ) {k : Kind} (hk : k ≠ .temperature) (l v x : ℝ) :
    inUnitsKg a S mw k (l * (1 - x) + v * x)
      = (1 - x) * inUnitsKg a S mw k l + x * inUnitsKg a S mw k v := by
  rw [← inUnitsKg_mul a S mw hk, ← inUnitsKg_mul a S mw hk l, ← inUnitsKg_mul a S mw hk v]; ring

/-- What `_sat_argparse` makes of a scalar temperature in range. -/
theorem satArgparse_scalar {E : Env} {U : Sys} (hU : Uses E U) {B : Sub} (hmw : B.mw ≠ 0) (S : Sol) {t : ℝ}
    (h1 : B.Tt ≤ toKelvin U.T.name t) (h2 : toKelvin U.T.name t ≤ B.Tc) :
    satArgparse E B S (some (.scalar t)) none = .ok [(some (toKelvin U.T.name t),
      some (B.dsl (toKelvin U.T.name t)), some (B.dsv (toKelvin U.T.name t)))] := by
  unfold satArgparse
  dsimp only
  rw [exOk, mpConvArg_eq hU hmw _ (show "T" ∈ mpLegal by simp [mpLegal]), exOk]
  have e : (Val.elems (.scalar t)).map (internalKg E.a U B.mw (kindOf "T")) = [toKelvin U.T.name t] := rfl
  dsimp only
  rw [e]
  simp [not_lt.mpr h1, not_lt.mpr h2]

/-- C51, quality.  A quality that a call returns lies between -1 and 1. -/
theorem C51_quality_range (E : Env) (U : Sys) (hU : Uses E U) (B : Sub) (Tmin : ℝ) (hB : Dome B Tmin)
    (S : Sol) (hS : Bounded S B Tmin) (hlo : Tmin ≤ B.Tlo) (varg : List (Val ℝ)) (kw : Kw) (i : Nat) (x : ℝ)
    (hx : MpGives E B S varg kw .x i x) : -1 ≤ x ∧ x ≤ 1 := by
  obtain ⟨r, q, hr, hq⟩ := gives_pt hU hB.mw.ne' (by simp) hx
  have hx' := (gives_iff hU hB.mw.ne' hr (by simp) hq x).mp hx
  have hg := argparse_good hB hS hU hlo hr q (List.mem_of_getElem? hq)
  simp only [ptValue] at hx'
  cases hI : q.I with
  | true => have := (hg.sat hI).2.2.1 x hx'; constructor <;> linarith
  | false => have := (hg.one hI).2 x hx'; constructor <;> linarith

/-- C51, the lever rule.  In any valid unit system, for any form of call, wherever the quality returned
is a number `x ≥ 0` and the temperature a number `t` at or above the triple point, the temperature is at
most critical, the saturation methods at `t` return the saturated liquid and vapor values, and the call
returns their mixtures: energy, enthalpy and entropy are `(1-x)` times the liquid value plus `x` times
the vapor value, and so is the specific volume. -/
theorem C51_lever (E : Env) (U : Sys) (hU : Uses E U) (B : Sub) (Tmin : ℝ) (hB : Dome B Tmin)
    (S : Sol) (hS : Bounded S B Tmin) (hlo : Tmin ≤ B.Tlo) (varg : List (Val ℝ)) (kw : Kw) (i : Nat)
    (x t : ℝ) (hx : MpGives E B S varg kw .x i x) (h0 : 0 ≤ x) (ht : MpGives E B S varg kw .T i t)
    (htt : B.Tt ≤ toKelvin U.T.name t) :
    toKelvin U.T.name t ≤ B.Tc ∧
    (∃ l v, satEs E B S (some (.scalar t)) none = .ok ([some l], [some v]) ∧
      MpGives E B S varg kw .e i ((1 - x) * l + x * v)) ∧
    (∃ l v, satHs E B S (some (.scalar t)) none = .ok ([some l], [some v]) ∧
      MpGives E B S varg kw .h i ((1 - x) * l + x * v)) ∧
    (∃ l v, satSs E B S (some (.scalar t)) none = .ok ([some l], [some v]) ∧
      MpGives E B S varg kw .s i ((1 - x) * l + x * v)) ∧
    (∃ l v, satVs E B S (some (.scalar t)) none = .ok ([some l], [some v]) ∧
      MpGives E B S varg kw .v i ((1 - x) * l + x * v)) := by
  have hmw := hB.mw.ne'
  obtain ⟨r, q, hr, hq⟩ := gives_pt hU hmw (by simp) hx
  have hx' := (gives_iff hU hmw hr (by simp) hq x).mp hx
  have ht' := (gives_iff hU hmw hr (by simp) hq t).mp ht
  have hg := argparse_good hB hS hU hlo hr q (List.mem_of_getElem? hq)
  simp only [ptValue] at hx' ht'
  have hI : q.I = true := by
    cases hI : q.I with
    | true => rfl
    | false => exact absurd ((hg.one hI).2 x hx').2 (not_lt.mpr h0)
  obtain ⟨g1, g2, -, g4⟩ := hg.sat hI
  obtain ⟨T, hT, hTt⟩ := Option.map_eq_some_iff.mp ht'
  have hTk : toKelvin U.T.name t = T := by
    rw [← hTt]
    show toKelvin U.T.name (fromKelvin U.T.name T) = T
    exact to_from _ _
  rw [hTk] at htt ⊢
  have hTc := g4 T hT
  have hsat : satArgparse E B S (some (.scalar t)) none
      = .ok [(some T, some (B.dsl T), some (B.dsv T))] := by
    have := satArgparse_scalar hU hmw S (t := t) (by rw [hTk]; exact htt) (by rw [hTk]; exact hTc)
    rwa [hTk] at this
  rw [hT] at g1 g2
  have mix : ∀ f : ℝ → ℝ → ℝ, q.mix f = some (f T (B.dsl T) * (1 - x) + f T (B.dsv T) * x) := by
    intro f
    simp [Pt.mix, hI, hT, g1, g2, hx', Pt.at, nan2, onCurve]
  have main : ∀ (f : ℝ → ℝ → ℝ) (k : Kind), k ≠ .temperature →
      ((q.mix f).map (inUnitsKg E.a U B.mw k)) = some ((1 - x) * inUnitsKg E.a U B.mw k (f T (B.dsl T))
        + x * inUnitsKg E.a U B.mw k (f T (B.dsv T))) := by
    intro f k hk
    rw [mix, Option.map_some, inUnitsKg_lin _ _ _ hk]
  have sat : ∀ (f : ℝ → ℝ → ℝ) (k : Kind) (c : Except Err ℝ), k ≠ .temperature →
      c = .ok (inUnitsKg E.a U B.mw k 1) →
      satOf E B S f c (some (.scalar t)) none = .ok ([some (inUnitsKg E.a U B.mw k (f T (B.dsl T)))],
        [some (inUnitsKg E.a U B.mw k (f T (B.dsv T)))]) := by
    intro f k c hk hc
    unfold satOf
    rw [hsat, exOk, hc, exOk]
    simp only [scaleBy_kg E.a U B.mw hk]
    simp [Pt.at, nan2]
  refine ⟨hTc, ⟨_, _, sat _ .energy _ (by simp) (factor_energy hU hmw _), ?_⟩,
    ⟨_, _, sat _ .energy _ (by simp) (factor_energy hU hmw _), ?_⟩,
    ⟨_, _, sat _ .entropy _ (by simp) (factor_entropy hU hmw _), ?_⟩, ?_⟩
  · exact (gives_iff hU hmw hr (by simp) hq _).mpr (main _ _ (by simp))
  · exact (gives_iff hU hmw hr (by simp) hq _).mpr (main _ _ (by simp))
  · exact (gives_iff hU hmw hr (by simp) hq _).mpr (main _ _ (by simp))
  · have hds : satDs E B S (some (.scalar t)) none
        = .ok ([some (inUnitsKg E.a U B.mw .density (B.dsl T))],
          [some (inUnitsKg E.a U B.mw .density (B.dsv T))]) := by
      unfold satDs
      rw [hsat, exOk, factor_density hU hmw, exOk]
      simp only [scaleBy_kg E.a U B.mw (show Kind.density ≠ .temperature by simp)]
      simp
    refine ⟨_, _, by unfold satVs; rw [hds, exOk]; rfl, ?_⟩
    refine (gives_iff hU hmw hr (by simp) hq _).mpr ?_
    have hdens : q.density = some (1 / ((1 - x) / B.dsl T + x / B.dsv T)) := by
      simp [Pt.density, hI, g1, g2, hx', onCurve]
    simp only [ptValue, hdens, Option.map_some, Option.some.injEq]
    simp only [← inUnitsKg_mul E.a U B.mw (show Kind.density ≠ .temperature by simp) (B.dsl T),
      ← inUnitsKg_mul E.a U B.mw (show Kind.density ≠ .temperature by simp) (B.dsv T),
      ← inUnitsKg_mul E.a U B.mw (show Kind.density ≠ .temperature by simp)
        (1 / ((1 - x) / B.dsl T + x / B.dsv T))]
    rw [one_div, mul_inv, one_div, inv_inv, one_div, mul_inv, one_div, mul_inv]
    ring

/-- C51.  Density and specific volume returned by the same call are reciprocal. -/
theorem C51_reciprocal (E : Env) (U : Sys) (hU : Uses E U) (B : Sub) (hmw : B.mw ≠ 0) (S : Sol)
    (varg : List (Val ℝ)) (kw : Kw) (i : Nat) (d v : ℝ) (hd0 : d ≠ 0)
    (hd : MpGives E B S varg kw .d i d) (hv : MpGives E B S varg kw .v i v) : d * v = 1 := by
  obtain ⟨r, q, hr, hq⟩ := gives_pt hU hmw (by simp) hd
  have hd' := (gives_iff hU hmw hr (by simp) hq d).mp hd
  have hv' := (gives_iff hU hmw hr (by simp) hq v).mp hv
  simp only [ptValue] at hd' hv'
  rw [hd'] at hv'
  simp at hv'
  rw [← hv']
  field_simp

/-- C51, one phase.  Wherever the quality returned is negative, the other properties are those of the
single phase at the temperature and density returned. -/
theorem C51_single_phase (E : Env) (U : Sys) (hU : Uses E U) (B : Sub) (Tmin : ℝ) (hB : Dome B Tmin)
    (S : Sol) (hS : Bounded S B Tmin) (hlo : Tmin ≤ B.Tlo) (varg : List (Val ℝ)) (kw : Kw) (i : Nat)
    (x t d : ℝ) (hx : MpGives E B S varg kw .x i x) (h0 : x < 0) (ht : MpGives E B S varg kw .T i t)
    (hd : MpGives E B S varg kw .d i d) :
    let T := toKelvin U.T.name t
    let D := internalKg E.a U B.mw .density d
    MpGives E B S varg kw .p i (inUnitsKg E.a U B.mw .pressure (B.F.p T D).v) ∧
    MpGives E B S varg kw .e i (inUnitsKg E.a U B.mw .energy (B.F.e T D).v) ∧
    MpGives E B S varg kw .f i (inUnitsKg E.a U B.mw .energy (B.F.f T D).v) ∧
    MpGives E B S varg kw .g i (inUnitsKg E.a U B.mw .energy (B.F.g T D).v) ∧
    MpGives E B S varg kw .h i (inUnitsKg E.a U B.mw .energy (B.F.h T D).v) ∧
    MpGives E B S varg kw .s i (inUnitsKg E.a U B.mw .entropy (B.F.s T D).v) := by
  have hmw := hB.mw.ne'
  obtain ⟨r, q, hr, hq⟩ := gives_pt hU hmw (by simp) hx
  have hx' := (gives_iff hU hmw hr (by simp) hq x).mp hx
  have ht' := (gives_iff hU hmw hr (by simp) hq t).mp ht
  have hd' := (gives_iff hU hmw hr (by simp) hq d).mp hd
  have hg := argparse_good hB hS hU hlo hr q (List.mem_of_getElem? hq)
  simp only [ptValue] at hx' ht' hd'
  have hI : q.I = false := by
    cases hI : q.I with
    | false => rfl
    | true => exact absurd ((hg.sat hI).2.2.1 x hx').1 (not_le.mpr h0)
  obtain ⟨T, hT, hTt⟩ := Option.map_eq_some_iff.mp ht'
  have hTk : toKelvin U.T.name t = T := by
    rw [← hTt]
    show toKelvin U.T.name (fromKelvin U.T.name T) = T
    exact to_from _ _
  simp only [Pt.density, hI] at hd'
  obtain ⟨D, hD, hDd⟩ := Option.map_eq_some_iff.mp hd'
  have hDk : internalKg E.a U B.mw .density d = D := by rw [← hDd, internalKg_inUnitsKg hU hmw]
  have hD1 : q.d1 = some D := by simpa using hD
  have hD2 : q.d2 = some D := (hg.one hI).1 ▸ hD1
  dsimp only
  rw [hTk, hDk]
  refine ⟨?_, ?_, ?_, ?_, ?_, ?_⟩ <;> refine (gives_iff hU hmw hr (by simp) hq _).mpr ?_ <;>
    simp [ptValue, Pt.mix, hI, hT, hD1, hD2, Pt.at, nan2]

end PyroMat.Mp.Props
