import Verif.Mp.PropsBundle
import Verif.Mp.PropsAccurate

/-!
# C79: multiphase calls and the caller's arrays
-/

set_option linter.unusedSimpArgs false

namespace PyroMat.Mp.Spec

open PyroMat PyroMat.Units PyroMat.Gas PyroMat.Gas.Spec PyroMat.Mp

/-- What a call leaves in the array the caller gave as argument `name`, if it was not copied. -/
def _root_.PyroMat.Mp.MOut.left (r : MOut) : String → Option (List Nan)
  | "T" => r.callerT | "p" => r.callerP | "d" => r.callerD | "x" => r.callerX | _ => none

/-- After a call that returns, the array `xs` the caller gave as argument `name` holds `l`. -/
def Leaves (E : Env) (B : Sub) (S : Sol) (varg : List (Val ℝ)) (kw : Kw) (name : String) (xs : List ℝ)
    (l : List Nan) : Prop :=
  ∃ r, mpArgparse E B S varg kw = .ok r ∧ (r.left name).getD (xs.map some) = l

end PyroMat.Mp.Spec

namespace PyroMat.Mp.Props

open PyroMat PyroMat.Units PyroMat.Units.Spec PyroMat.Units.Props PyroMat.Gas PyroMat.Gas.Spec
open PyroMat.Gas.Props PyroMat.Mp PyroMat.Mp.Spec PyroMat.Config.Defaults

/-! ## Lemmas -/

/-- An array that is not copied is in internal units, so its numbers are those given. -/
theorem own_id {E : Env} {U : Sys} (hU : Uses E U) {mw : ℝ} (hmw : mw ≠ 0) {n : String}
    (hn : n ∈ ["T", "p", "d", "x"]) (h : isInternalKg U n = true) (y : ℝ) :
    internalKg E.a U mw (kindOf n) y = y := by
  simp only [List.mem_cons, List.not_mem_nil, or_false] at hn
  rcases hn with rfl | rfl | rfl | rfl
  · have : U.T = .K := by simpa [isInternalKg] using h
    show toKelvin U.T.name y = y
    rw [this]; exact toK_K y
  · have : U.p = "Pa" := by simpa [isInternalKg] using h
    show y * size (pressure E.a) U.p = y
    rw [this]
    have : size (pressure E.a) "Pa" = 1 := by simp [size, pressure, List.lookup]
    rw [this, mul_one]
  · have h' : U.v = "m3" ∧ U.m = "kg" := by simpa [isInternalKg] using h
    show y * msize E.a mw U.m / size volume U.v * mw = y
    have e1 : msize E.a mw U.m = 1 / mw := by rw [h'.2, msize, kg_scale hU]; rfl
    have e2 : size (volume : Conv ℝ) U.v = 1 := by
      rw [h'.1]; show ((1 : ℝ) ^ 3) = 1; norm_num
    rw [e1, e2]
    field_simp
  · rfl

/-- The arrays of the caller after step 7. -/
structure Left (B : Sub) (k : MStd) (r : MOut) : Prop where
  T : r.callerT = none ∨ ∃ t l, k.T = some t ∧ t.own = true ∧ r.callerT = some l ∧
    (k.x = none ∨ (∀ T, some T ∈ t.xs → T ≤ B.Tc) → l = t.xs) ∧ ∀ i : Nat, t.xs[i]? = some none → l[i]? = some none
  p : r.callerP = none ∨ ∃ t, k.p = some t ∧ t.own = true ∧ r.callerP = some t.xs
  d : r.callerD = none ∨ ∃ d, k.d = some d ∧ d.own = true ∧ (r.callerD = some (d.xs.map some) ∨
    k.inv = none ∧ k.T = none ∧ ∃ p, k.p = some p ∧ d.xs.length = p.xs.length ∧
      r.callerD = some (r.pts.map (·.d1)) ∧ r.pts.length = d.xs.length)
  x : r.callerX = none ∨ ∃ x l, k.x = some x ∧ x.own = true ∧ r.callerX = some l ∧
    ((∀ t, k.T = some t → ∀ T, some T ∈ t.xs → T ≤ B.Tc) → l = x.xs.map some)

theorem tpx_left {B : Sub} {S : Sol} {T p : List Nan} {x : List ℝ} {r : List Pt × Option (List Nan × List Nan)}
    (h : mpTPX B S T p x = .ok r) :
    (∀ i : Nat, T[i]? = some none → ((r.2.map (·.1)).getD T)[i]? = some none) ∧
    ((∀ y ∈ x, y < 0) ∨ (∀ t, some t ∈ T → t ≤ B.Tc) → (r.2.map (·.1)).getD T = T ∧
      (r.2.map (·.2)).getD (x.map some) = x.map some) := by
  unfold mpTPX at h
  obtain ⟨⟨T', p'⟩, h1, h⟩ := bind_ok h
  obtain ⟨⟨w, x'⟩, h2, h⟩ := bind_ok h
  obtain ⟨d, hd, h⟩ := bind_ok h
  dsimp only at h
  cases h
  by_cases hl : T.length = p.length ∧ p.length = x.length
  swap
  · dsimp only; rw [if_neg hl]
    exact ⟨fun i h => h, fun _ => ⟨rfl, rfl⟩⟩
  dsimp only
  rw [if_pos hl]
  rw [broadcast_same hl.1] at h1
  cases h1
  have hz : (T.zip p).length = x.length := by simp [hl.1, hl.2]
  rw [broadcast_same hz] at h2
  cases h2
  have e1 : ((T.zip p).zip x).map (fun e => e.1.1) = T := by
    show ((T.zip p).zip x).map (Prod.fst ∘ Prod.fst) = T
    rw [← List.map_map, List.map_fst_zip (by omega), List.map_fst_zip (by omega)]
  have e2 : ((T.zip p).zip x).map (fun e => some e.2) = x.map some := by
    show ((T.zip p).zip x).map (some ∘ Prod.snd) = x.map some
    rw [← List.map_map, List.map_snd_zip (by omega)]
  constructor
  · intro i hi
    rw [← e1, List.getElem?_map, Option.map_eq_some_iff] at hi
    obtain ⟨e, he, hn⟩ := hi
    show (((T.zip p).zip x).map _)[i]? = some none
    rw [List.getElem?_map, he, Option.map_some, hn]
    simp
  · intro hc
    have hb : ∀ e ∈ (T.zip p).zip x, badTX B e.1.1 e.2 = false := by
      intro e he
      have m1 := (List.of_mem_zip he)
      have m2 := (List.of_mem_zip m1.1)
      unfold badTX
      split
      · rename_i t ht
        rw [decide_eq_false_iff_not]
        rintro ⟨h1, h2⟩
        rcases hc with hc | hc
        · exact h1 (hc _ m1.2)
        · have := hc t (ht ▸ m2.1); linarith
      · rfl
    refine ⟨?_, ?_⟩
    · refine Eq.trans ?_ e1
      exact List.map_congr_left (fun e he => by simp [hb e he])
    · refine Eq.trans ?_ e2
      exact List.map_congr_left (fun e he => by simp [hb e he])

theorem mine_some {a : NArg} {xs l : List Nan} (h : a.mine xs = some l) : a.own = true ∧ l = xs := by
  unfold NArg.mine at h
  split at h
  · rename_i ho; cases h; exact ⟨ho, rfl⟩
  · cases h

theorem amine_some {a : Arg} {xs l : List Nan} (h : Arg.mine a xs = some l) : a.own = true ∧ l = xs := by
  unfold Arg.mine at h
  split at h
  · rename_i ho; cases h; exact ⟨ho, rfl⟩
  · cases h

theorem leftP {k : MStd} {p : NArg} (h : k.p = some p) : p.mine p.xs = none ∨
    ∃ t, k.p = some t ∧ t.own = true ∧ p.mine p.xs = some t.xs := by
  cases hm : p.mine p.xs with
  | none => exact .inl rfl
  | some l => obtain ⟨h1, rfl⟩ := mine_some hm; exact .inr ⟨p, h, h1, rfl⟩

theorem leftT {B : Sub} {k : MStd} {t : NArg} {w : List Nan} (h : k.T = some t)
    (h1 : k.x = none ∨ (∀ T, some T ∈ t.xs → T ≤ B.Tc) → w = t.xs)
    (h2 : ∀ i : Nat, t.xs[i]? = some none → w[i]? = some none) : t.mine w = none ∨
    ∃ t' l, k.T = some t' ∧ t'.own = true ∧ t.mine w = some l ∧
    (k.x = none ∨ (∀ T, some T ∈ t'.xs → T ≤ B.Tc) → l = t'.xs) ∧
      ∀ i : Nat, t'.xs[i]? = some none → l[i]? = some none := by
  cases hm : t.mine w with
  | none => exact .inl rfl
  | some l => obtain ⟨h3, rfl⟩ := mine_some hm; exact .inr ⟨t, l, h, h3, rfl, h1, h2⟩

theorem leftX {B : Sub} {k : MStd} {x : Arg} {w : List Nan} (h : k.x = some x)
    (h1 : (∀ t, k.T = some t → ∀ T, some T ∈ t.xs → T ≤ B.Tc) → w = x.xs.map some) : Arg.mine x w = none ∨
    ∃ x' l, k.x = some x' ∧ x'.own = true ∧ Arg.mine x w = some l ∧
    ((∀ t, k.T = some t → ∀ T, some T ∈ t.xs → T ≤ B.Tc) → l = x'.xs.map some) := by
  cases hm : Arg.mine x w with
  | none => exact .inl rfl
  | some l => obtain ⟨h3, rfl⟩ := amine_some hm; exact .inr ⟨x, l, h, h3, rfl, h1⟩

theorem solve_left {B : Sub} {S : Sol} {k : MStd} {r : MOut} (h : mpSolve B S k = .ok r) : Left B k r := by
  unfold mpSolve at h
  split at h
  · rename_i j a hinv
    unfold mpSolveInv at h
    split at h
    · rename_i pa hp
      obtain ⟨pts, -, h⟩ := bind_ok h
      cases h
      exact ⟨.inl rfl, leftP hp, .inl rfl, .inl rfl⟩
    · rename_i da hp hd
      obtain ⟨pts, -, h⟩ := bind_ok h
      cases h
      refine ⟨.inl rfl, .inl rfl, ?_, .inl rfl⟩
      dsimp only
      cases hm : Arg.mine da (da.xs.map some) with
      | none => exact .inl rfl
      | some l => obtain ⟨h3, rfl⟩ := amine_some hm; exact .inr ⟨da, hd, h3, .inl rfl⟩
    · cases h
    · rename_i ta hp hd hx hT
      obtain ⟨pts, -, h⟩ := bind_ok h
      cases h
      exact ⟨leftT hT (fun _ => rfl) (fun _ h => h), .inl rfl, .inl rfl, .inl rfl⟩
    · cases h
  · rename_i hinv
    unfold mpSolveBasic at h
    split at h
    · rename_i ta pa hT hp hx
      obtain ⟨w, hw, h⟩ := bind_ok h
      cases h
      have := tpx_left hw
      exact ⟨leftT hT (fun _ => (this.2 (.inl (by simp))).1) this.1, leftP hp, .inl rfl, .inl rfl⟩
    · rename_i ta pa xa hT hp hx
      obtain ⟨w, hw, h⟩ := bind_ok h
      cases h
      have := tpx_left hw
      refine ⟨leftT hT (fun hc => (this.2 (.inr (hc.resolve_left (by simp [hx])))).1) this.1, leftP hp, .inl rfl,
        leftX hx (fun hc => (this.2 (.inr (hc ta hT))).2)⟩
    · rename_i ta da hT hp hd
      obtain ⟨pts, -, h⟩ := bind_ok h
      cases h
      refine ⟨leftT hT (fun _ => rfl) (fun _ h => h), .inl rfl, ?_, .inl rfl⟩
      dsimp only
      cases hm : Arg.mine da (da.xs.map some) with
      | none => exact .inl rfl
      | some l => obtain ⟨h3, rfl⟩ := amine_some hm; exact .inr ⟨da, hd, h3, .inl rfl⟩
    · rename_i ta xa hT hp hd hx
      obtain ⟨pts, -, h⟩ := bind_ok h
      cases h
      exact ⟨leftT hT (fun _ => rfl) (fun _ h => h), .inl rfl, .inl rfl, leftX hx (fun _ => rfl)⟩
    · rename_i pa da hT hp hd
      obtain ⟨w, hw, h⟩ := bind_ok h
      cases h
      refine ⟨.inl rfl, leftP hp, ?_, .inl rfl⟩
      dsimp only
      unfold mpPD at hw
      obtain ⟨⟨d', p'⟩, h1, hw⟩ := bind_ok hw
      dsimp only at hw
      obtain ⟨Ts, -, hw⟩ := bind_ok hw
      obtain ⟨T, -, hw⟩ := bind_ok hw
      cases hw
      dsimp only
      by_cases hl : da.xs.length = pa.xs.length
      · rw [if_pos hl]
        rw [broadcast_same hl] at h1
        cases h1
        show Arg.mine da (List.map _ _) = none ∨ _
        cases hm : Arg.mine da _ with
        | none => exact .inl rfl
        | some l =>
          obtain ⟨h3, rfl⟩ := amine_some hm
          exact .inr ⟨da, hd, h3, .inr ⟨hinv, hT, pa, hp, hl, hm, by simp [hl]⟩⟩
      · rw [if_neg hl]
        show Arg.mine da (da.xs.map some) = none ∨ _
        cases hm : Arg.mine da (da.xs.map some) with
        | none => exact .inl rfl
        | some l => obtain ⟨h3, rfl⟩ := amine_some hm; exact .inr ⟨da, hd, h3, .inl hm⟩
    · rename_i pa xa hT hp hd hx
      obtain ⟨pts, -, h⟩ := bind_ok h
      cases h
      exact ⟨.inl rfl, leftP hp, .inl rfl, leftX hx (fun _ => rfl)⟩
    · cases h

/-- The steps of a call that returns. -/
theorem argparse_parts {E : Env} {U : Sys} (hU : Uses E U) {B : Sub} (hmw : B.mw ≠ 0) {S : Sol}
    {varg : List (Val ℝ)} {kw : Kw} (hn : (kw.map (·.1)).Nodup) {r : MOut}
    (h : mpArgparse E B S varg kw = .ok r) :
    ∃ kw' k, (kw'.map (·.1)).Nodup ∧ (∀ q, q ∈ supplied varg kw → q ∈ kw') ∧
      (∀ q, q ∈ kw' → q ∈ supplied varg kw ∨ q.1 = "T" ∨ q.1 = "p") ∧
      (2 ≤ (supplied varg kw).length → ∀ q, q ∈ kw' → q ∈ supplied varg kw) ∧
      RulesOk (kw'.map (·.1)) ∧ Parsed E U B kw' k ∧ mpSolve B S k = .ok r := by
  rw [mpArgparse_eq hU hmw] at h
  obtain ⟨kw1, h1, h⟩ := bind_ok h
  unfold afterPos at h
  obtain ⟨kw2, h2, h⟩ := bind_ok h
  obtain ⟨u, h3, h⟩ := bind_ok h
  obtain ⟨k, h4, h⟩ := bind_ok h
  obtain ⟨n1, m1⟩ := bindPos_keeps hn h1
  obtain ⟨n2, m2, m3, m4⟩ := applyDefaults_keeps n1 h2
  rcases parsed_cases E U B kw2 with hp | ⟨k', hp, hk'⟩
  · rw [hp] at h4; cases h4
  rw [hp] at h4
  cases h4
  rcases mpRules_cases kw2 with ⟨-, hr⟩ | ⟨hr, -⟩
  swap
  · rw [hr] at h3; cases h3
  have hlen : (supplied varg kw).length = kw1.length := by
    match varg with
    | [] => cases h1; rfl
    | [T] =>
      simp only [bindPos] at h1
      split at h1 <;> cases h1
      simp [supplied]
    | [T, p] =>
      simp only [bindPos] at h1
      split at h1
      · cases h1
      split at h1 <;> cases h1
      simp [supplied]
    | _ :: _ :: _ :: _ => cases h1
  refine ⟨kw2, k, n2, fun q hq => m2 q ((m1 q).mp hq), fun q hq => (m4 q hq).imp_left (m1 q).mpr, fun hl q hq => ?_,
    hr, hk', h⟩
  rw [m3 (by omega)] at hq
  exact (m1 q).mpr hq

theorem own_parts {v : Val ℝ} {U : Sys} {n : String} (h : (v.isArr && isInternalKg U n) = true) :
    isInternalKg U n = true := (Bool.and_eq_true_iff.mp h).2

theorem map_own {E : Env} {U : Sys} (hU : Uses E U) {mw : ℝ} (hmw : mw ≠ 0) {n : String}
    (hn : n ∈ ["T", "p", "d", "x"]) (h : isInternalKg U n = true) (l : List ℝ) :
    l.map (internalKg E.a U mw (kindOf n)) = l := by
  rw [funext (own_id hU hmw hn h)]; simp

theorem map_clip {lo hi : ℝ} {l : List ℝ} (h : ∀ y ∈ l, lo ≤ y ∧ y ≤ hi) : l.map (clip lo hi) = l.map some :=
  List.map_congr_left (fun y hy => clip_of_mem (h y hy).1 (h y hy).2)

section
variable (E : Env) (U : Sys) (hU : Uses E U) (B : Sub) (hmw : B.mw ≠ 0) (S : Sol) (varg : List (Val ℝ)) (kw : Kw)
  (hkw : (kw.map (·.1)).Nodup) (v : Val ℝ) (l : List Nan)
include hU hmw hkw

/-- C79, temperatures.  A call leaves the array of temperatures it was given as it was, if they are all
within the range of the data and none is above the critical temperature when a quality is given
too. -/
theorem C79_temperature_partial (hv : ("T", v) ∈ supplied varg kw)
    (hr : ∀ y ∈ Val.elems v, B.Tlo ≤ si E U B .T y ∧ si E U B .T y ≤ B.Thi)
    (hx : (∀ x, ("x", x) ∉ supplied varg kw) ∨ ∀ y ∈ Val.elems v, si E U B .T y ≤ B.Tc)
    (h : Leaves E B S varg kw "T" (Val.elems v) l) : l = (Val.elems v).map some := by
  obtain ⟨r, hr', rfl⟩ := h
  obtain ⟨kw', k, hn, hsub, hback, -, -, hp, hs⟩ := argparse_parts hU hmw hkw hr'
  have hT := hp.T
  rw [argKg_of_mem hn (hsub _ hv)] at hT
  show r.callerT.getD _ = _
  rcases (solve_left hs).T with h | ⟨t, l, h1, h2, h3, h4, -⟩
  · rw [h]; rfl
  rw [hT] at h1
  cases h1
  have ho := map_own hU hmw (n := "T") (by simp) (own_parts h2) (Val.elems v)
  have hr2 : ∀ y ∈ Val.elems v, B.Tlo ≤ y ∧ y ≤ B.Thi := by
    intro y hy
    have e := own_id hU hmw (n := "T") (by simp) (own_parts h2) y
    have := hr y hy
    rwa [show si E U B .T y = y from e] at this
  rw [h3, Option.getD_some, h4]
  · show (List.map _ _).map _ = _
    rw [ho, map_clip hr2]
  · rcases hx with hx | hx
    · left
      rw [hp.x, ← isSome_eq_none, argKg_isSome, has_iff]
      intro hc
      obtain ⟨q, hq, hq'⟩ := List.mem_map.mp hc
      obtain ⟨n, w⟩ := q
      cases hq'
      rcases hback _ hq with h | h | h
      · exact hx _ h
      · exact absurd h (by simp)
      · exact absurd h (by simp)
    · right
      intro T hT
      replace hT : some T ∈ ((Val.elems v).map (internalKg E.a U B.mw (kindOf "T"))).map (clip B.Tlo B.Thi) := hT
      rw [ho, map_clip hr2] at hT
      obtain ⟨y, hy, hy'⟩ := List.mem_map.mp hT
      cases hy'
      have e := own_id hU hmw (n := "T") (by simp) (own_parts h2) T
      have := hx T hy
      rwa [show si E U B .T T = T from e] at this

/-- C79, pressures.  A call leaves the array of pressures it was given as it was, if they are all within
the range of the data. -/
theorem C79_pressure_partial (hv : ("p", v) ∈ supplied varg kw)
    (hr : ∀ y ∈ Val.elems v, B.plo ≤ si E U B .p y ∧ si E U B .p y ≤ B.phi)
    (h : Leaves E B S varg kw "p" (Val.elems v) l) : l = (Val.elems v).map some := by
  obtain ⟨r, hr', rfl⟩ := h
  obtain ⟨kw', k, hn, hsub, hback, -, -, hp, hs⟩ := argparse_parts hU hmw hkw hr'
  have hT := hp.p
  rw [argKg_of_mem hn (hsub _ hv)] at hT
  show r.callerP.getD _ = _
  rcases (solve_left hs).p with h | ⟨t, h1, h2, h3⟩
  · rw [h]; rfl
  rw [hT] at h1
  cases h1
  have ho := map_own hU hmw (n := "p") (by simp) (own_parts h2) (Val.elems v)
  have hr2 : ∀ y ∈ Val.elems v, B.plo ≤ y ∧ y ≤ B.phi := by
    intro y hy
    have e := own_id hU hmw (n := "p") (by simp) (own_parts h2) y
    have := hr y hy
    rwa [show si E U B .p y = y from e] at this
  rw [h3, Option.getD_some]
  show (List.map _ _).map _ = _
  rw [ho, map_clip hr2]

/-- C79, qualities.  A call of two or more arguments leaves the array of qualities it was given as it was,
if no temperature given with it is above the critical one. -/
theorem C79_quality_partial (hv : ("x", v) ∈ supplied varg kw) (h2 : 2 ≤ (supplied varg kw).length)
    (hT : ∀ t, ("T", t) ∈ supplied varg kw → ∀ y ∈ Val.elems t, si E U B .T y ≤ B.Tc)
    (h : Leaves E B S varg kw "x" (Val.elems v) l) : l = (Val.elems v).map some := by
  obtain ⟨r, hr', rfl⟩ := h
  obtain ⟨kw', k, hn, hsub, -, hback, -, hp, hs⟩ := argparse_parts hU hmw hkw hr'
  have hX := hp.x
  rw [argKg_of_mem hn (hsub _ hv)] at hX
  show r.callerX.getD _ = _
  rcases (solve_left hs).x with h | ⟨x, l, h1, h2', h3, h4⟩
  · rw [h]; rfl
  rw [hX] at h1
  cases h1
  rw [h3, Option.getD_some, h4]
  · show (List.map _ _).map some = _
    rw [map_own hU hmw (n := "x") (by simp) rfl]
  · intro t ht T hmem
    obtain ⟨a, ha, hxs, -⟩ := role_T hp ht
    obtain ⟨w, hw⟩ : ∃ w, ("T", w) ∈ kw' := by
      have := has_of_argKg ha
      obtain ⟨q, hq, hq'⟩ := List.mem_map.mp this
      obtain ⟨n, w⟩ := q
      cases hq'
      exact ⟨w, hq⟩
    rw [argKg_of_mem hn hw] at ha
    cases ha
    rw [hxs] at hmem
    obtain ⟨z, hz, hz'⟩ := List.mem_map.mp hmem
    obtain ⟨y, hy, rfl⟩ := List.mem_map.mp hz
    rw [(clip_some hz').1]
    exact hT w (hback h2 _ hw) y hy

omit hmw in
/-- What a call leaves in an array of densities. -/
theorem density_left (Tmin : ℝ) (hB : Dome B Tmin) (hv : ("d", v) ∈ supplied varg kw) {r : MOut}
    (hr : mpArgparse E B S varg kw = .ok r) :
    r.left "d" = none ∨ r.left "d" = some ((Val.elems v).map some) ∨
    (r.left "d" = some (r.pts.map (·.d1)) ∧ r.pts.length = (Val.elems v).length ∧
      (∃ (kw' : Kw) (k : MStd), (2 ≤ (supplied varg kw).length → ∀ q, q ∈ kw' → q ∈ supplied varg kw) ∧ "p" ∈ kw'.map (·.1) ∧
        k.T = none ∧ k.inv = none ∧ k.d = some ⟨Val.elems v, true⟩ ∧ mpSolve B S k = .ok r)) := by
  have hmw := hB.mw.ne'
  obtain ⟨kw', k, hn, hsub, -, hback, hrules, hp, hs⟩ := argparse_parts hU hmw hkw hr
  have hnv : argKg E U B.mw kw' "v" = none := by
    rw [← isSome_eq_none, argKg_isSome, has_iff]
    exact fun hc => hrules.not_dv ⟨List.mem_map_of_mem (f := (·.1)) (hsub _ hv), hc⟩
  have hD := hp.d
  rw [hnv, mpDensity, argKg_of_mem hn (hsub _ hv)] at hD
  show r.callerD = none ∨ r.callerD = _ ∨ r.callerD = _ ∧ _
  rcases (solve_left hs).d with h | ⟨d, h1, h2, h3⟩
  · exact .inl h
  have hk := h1
  rw [hD] at h1
  cases h1
  have ho := map_own hU hmw (n := "d") (by simp) (own_parts h2) (Val.elems v)
  rcases h3 with h3 | ⟨hi, hT, p, hp', -, h3, hlen⟩
  · right; left
    rw [h3]
    show some ((List.map _ _).map some) = _
    rw [ho]
  · right; right
    have hlen : r.pts.length = (List.map (internalKg E.a U B.mw (kindOf "d")) (Val.elems v)).length := hlen
    rw [ho] at hlen
    replace h2 : (v.isArr && isInternalKg U "d") = true := h2
    rw [ho, h2] at hk
    exact ⟨h3, hlen, kw', k, hback, name_p hp hp', hT, hi, hk, hs⟩

omit hmw in
/-- C79, densities.  A call of two or more arguments leaves the elements of the array of densities it was
given as they were where the state is single-phase, and everywhere if no pressure is given with
them. -/
theorem C79_density_partial (Tmin : ℝ) (hB : Dome B Tmin) (hS : Bounded S B Tmin) (hlo : Tmin ≤ B.Tlo)
    (hv : ("d", v) ∈ supplied varg kw) (h2 : 2 ≤ (supplied varg kw).length)
    (h : Leaves E B S varg kw "d" (Val.elems v) l) :
    ((∀ p, ("p", p) ∉ supplied varg kw) → l = (Val.elems v).map some) ∧
    ∀ i z, MpGives E B S varg kw .x i z → z < 0 → ∀ y, (Val.elems v)[i]? = some y → l[i]? = some (some y) := by
  have hmw := hB.mw.ne'
  obtain ⟨r, hr, rfl⟩ := h
  rcases density_left E U hU B S varg kw hkw v Tmin hB hv hr with h | h | ⟨h, hlen, kw', k, hback, hpm, hT, hinv, hd, hs⟩
  · rw [h]
    exact ⟨fun _ => rfl, fun i z _ _ y hy => by simp [hy]⟩
  · rw [h]
    exact ⟨fun _ => rfl, fun i z _ _ y hy => by simp [hy]⟩
  rw [h]
  constructor
  · intro hno
    obtain ⟨⟨n, w⟩, hq, hq'⟩ := List.mem_map.mp hpm
    cases hq'
    exact absurd (hback h2 _ hq) (hno w)
  · intro i z hz hneg y hy
    obtain ⟨r', q, hr', hq⟩ := gives_pt hU hmw (by simp) hz
    rw [hr] at hr'
    cases hr'
    have hx : q.x = some z := (gives_iff hU hmw hr (by simp) hq z).mp hz
    have hg := argparse_good hB hS hU hlo hr q (List.mem_of_getElem? hq)
    have hI : q.I = false := by
      rw [← Bool.not_eq_true]
      intro hI
      have := (hg.sat hI).2.2.1 z hx
      linarith [this.1]
    have ho := solve_origin hs hq
    simp only [Option.getD_some, List.getElem?_map, hq, Option.map_some, Option.some.injEq]
    cases ho with
    | hp h => rw [hinv] at h; cases h
    | hd h => rw [hinv] at h; cases h
    | hT h => rw [hinv] at h; cases h
    | Tpx _ h => rw [hT] at h; cases h
    | Td _ h => rw [hT] at h; cases h
    | Tx _ h => rw [hT] at h; cases h
    | px _ _ _ h => rw [hd] at h; cases h
    | pd _ _ _ h4 _ h5 =>
      rw [hd] at h4
      cases h4
      exact (match_cases (P := fun q => q.I = false → q.d1 = some y) (fun x _ hI => by cases hI)
        (fun _ _ => by rw [← elem_unique h5 (.inl hy)]; rfl)) hI

end

/-! ## Disagreements -/

theorem mine_own {a : NArg} {xs : List Nan} (h : a.own = true) : a.mine xs = some xs := by
  unfold NArg.mine; rw [if_pos h]

/-- Arrays that are not copied are the caller's after step 7. -/
theorem solve_own {B : Sub} {S : Sol} {k : MStd} {r : MOut} (h : mpSolve B S k = .ok r) :
    (∀ p, k.p = some p → p.own = true → r.callerP ≠ none) ∧
    (∀ t, k.T = some t → t.own = true → (k.inv ≠ none → k.p = none ∧ k.d = none) → r.callerT ≠ none) ∧
    (∀ p d, k.inv = none → k.T = none → k.p = some p → k.d = some d → d.own = true →
      d.xs.length = p.xs.length → r.callerD = some (r.pts.map (·.d1))) := by
  unfold mpSolve at h
  split at h
  · rename_i j a hinv
    unfold mpSolveInv at h
    split at h
    · rename_i pa hp
      obtain ⟨pts, -, h⟩ := bind_ok h
      cases h
      refine ⟨fun p h ho => ?_, fun t ht ho hc => ?_, fun p d hi => ?_⟩
      · rw [hp] at h; cases h; simp [mine_own ho]
      · have := (hc (by simp [hinv])).1; rw [hp] at this; cases this
      · rw [hinv] at hi; cases hi
    · rename_i da hp hd
      obtain ⟨pts, -, h⟩ := bind_ok h
      cases h
      refine ⟨fun p h ho => ?_, fun t ht ho hc => ?_, fun p d hi => ?_⟩
      · rw [hp] at h; cases h
      · have := (hc (by simp [hinv])).2; rw [hd] at this; cases this
      · rw [hinv] at hi; cases hi
    · cases h
    · rename_i ta hp hd hx hT
      obtain ⟨pts, -, h⟩ := bind_ok h
      cases h
      refine ⟨fun p h ho => ?_, fun t ht ho hc => ?_, fun p d hi => ?_⟩
      · rw [hp] at h; cases h
      · rw [hT] at ht; cases ht; simp [mine_own ho]
      · rw [hinv] at hi; cases hi
    · cases h
  · rename_i hinv
    unfold mpSolveBasic at h
    split at h
    · rename_i ta pa hT hp hx
      obtain ⟨w, hw, h⟩ := bind_ok h
      cases h
      refine ⟨fun p h ho => ?_, fun t ht ho hc => ?_, fun p d hi hT' => ?_⟩
      · rw [hp] at h; cases h; simp [mine_own ho]
      · rw [hT] at ht; cases ht; simp [mine_own ho]
      · rw [hT] at hT'; cases hT'
    · rename_i ta pa xa hT hp hx
      obtain ⟨w, hw, h⟩ := bind_ok h
      cases h
      refine ⟨fun p h ho => ?_, fun t ht ho hc => ?_, fun p d hi hT' => ?_⟩
      · rw [hp] at h; cases h; simp [mine_own ho]
      · rw [hT] at ht; cases ht; simp [mine_own ho]
      · rw [hT] at hT'; cases hT'
    · rename_i ta da hT hp hd
      obtain ⟨pts, -, h⟩ := bind_ok h
      cases h
      refine ⟨fun p h ho => ?_, fun t ht ho hc => ?_, fun p d hi hT' => ?_⟩
      · rw [hp] at h; cases h
      · rw [hT] at ht; cases ht; simp [mine_own ho]
      · rw [hT] at hT'; cases hT'
    · rename_i ta xa hT hp hd hx
      obtain ⟨pts, -, h⟩ := bind_ok h
      cases h
      refine ⟨fun p h ho => ?_, fun t ht ho hc => ?_, fun p d hi hT' => ?_⟩
      · rw [hp] at h; cases h
      · rw [hT] at ht; cases ht; simp [mine_own ho]
      · rw [hT] at hT'; cases hT'
    · rename_i pa da hT hp hd
      obtain ⟨w, hw, h⟩ := bind_ok h
      cases h
      refine ⟨fun p h ho => ?_, fun t ht ho hc => ?_, fun p d hi hT' hp' hd' ho hl => ?_⟩
      · rw [hp] at h; cases h; simp [mine_own ho]
      · rw [hT] at ht; cases ht
      · rw [hp] at hp'; cases hp'
        rw [hd] at hd'; cases hd'
        unfold mpPD at hw
        obtain ⟨⟨d', p'⟩, h1, hw⟩ := bind_ok hw
        dsimp only at hw
        obtain ⟨Ts, -, hw⟩ := bind_ok hw
        obtain ⟨T, -, hw⟩ := bind_ok hw
        cases hw
        dsimp only
        rw [if_pos hl]
        show Arg.mine da _ = _
        unfold Arg.mine
        rw [if_pos ho]
        rfl
    · rename_i pa xa hT hp hd hx
      obtain ⟨pts, -, h⟩ := bind_ok h
      cases h
      refine ⟨fun p h ho => ?_, fun t ht ho hc => ?_, fun p d hi hT' hp' hd' => ?_⟩
      · rw [hp] at h; cases h; simp [mine_own ho]
      · rw [hT] at ht; cases ht
      · rw [hd] at hd'; cases hd'
    · cases h

section
variable (E : Env) (U : Sys) (hU : Uses E U) (B : Sub) (S : Sol) (varg : List (Val ℝ)) (kw : Kw)
  (hkw : (kw.map (·.1)).Nodup) (l : List Nan)
include hU hkw

/-- **C79 disagreement.** With the temperature unit K, a call that returns overwrites with NaN every element
of the caller's array of temperatures that is out of range, and with the pressure unit Pa every
pressure that is. -/
theorem C79_range_defect (hmw : B.mw ≠ 0) (xs : List ℝ) (i : Nat) (y : ℝ) (hi : xs[i]? = some y) :
    (U.T = .K → ("T", .arr xs) ∈ supplied varg kw → (y < B.Tlo ∨ y > B.Thi) →
      Leaves E B S varg kw "T" xs l → l[i]? = some none) ∧
    (U.p = "Pa" → ("p", .arr xs) ∈ supplied varg kw → (y < B.plo ∨ y > B.phi) →
      Leaves E B S varg kw "p" xs l → l[i]? = some none) := by
  constructor
  · rintro hu hv hy ⟨r, hr, rfl⟩
    obtain ⟨kw', k, hn, hsub, -, -, hrules, hp, hs⟩ := argparse_parts hU hmw hkw hr
    have hT := hp.T
    rw [argKg_of_mem hn (hsub _ hv)] at hT
    have hint : isInternalKg U "T" = true := by simp [isInternalKg, hu]
    have hown : (Val.isArr (.arr xs) && isInternalKg U "T") = true := by rw [hint]; rfl
    show (r.callerT.getD _)[i]? = _
    rcases (solve_left hs).T with h | ⟨t, l, h1, h2, h3, -, h4⟩
    · refine absurd h ((solve_own hs).2.1 _ hT hown (fun hinv => ?_))
      obtain ⟨⟨j, a⟩, hj⟩ := Option.ne_none_iff_exists'.mp hinv
      have hname := name_inv hp hj
      have hTn := name_T hp hT
      constructor
      · by_contra hc
        obtain ⟨p, hpp⟩ := Option.ne_none_iff_exists'.mp hc
        exact rules_three hrules hname hTn (name_p hp hpp) (inv_name_ne j).2.1 (inv_name_ne j).2.2.1 (by simp)
          (inv_name_ne j).1
      · by_contra hc
        obtain ⟨d, hd⟩ := Option.ne_none_iff_exists'.mp hc
        obtain ⟨n, hn', hdv⟩ := name_d hp hd
        refine rules_three hrules hname hTn hn' (inv_name_ne j).2.1 ?_ (dv_ne hdv).2.1.symm (inv_name_ne j).1
        rcases hdv with rfl | rfl
        · exact (inv_name_ne j).2.2.2.2.1
        · exact (inv_name_ne j).2.2.2.2.2
    · rw [hT] at h1
      cases h1
      rw [h3, Option.getD_some]
      apply h4
      show ((xs.map _).map _)[i]? = _
      rw [map_own hU hmw (n := "T") (by simp) hint, List.getElem?_map, hi, Option.map_some, clip_none.mpr hy]
  · rintro hu hv hy ⟨r, hr, rfl⟩
    obtain ⟨kw', k, hn, hsub, -, -, hrules, hp, hs⟩ := argparse_parts hU hmw hkw hr
    have hT := hp.p
    rw [argKg_of_mem hn (hsub _ hv)] at hT
    have hint : isInternalKg U "p" = true := by simp [isInternalKg, hu]
    have hown : (Val.isArr (.arr xs) && isInternalKg U "p") = true := by rw [hint]; rfl
    show (r.callerP.getD _)[i]? = _
    rcases (solve_left hs).p with h | ⟨t, h1, h2, h3⟩
    · exact absurd h ((solve_own hs).1 _ hT hown)
    · rw [hT] at h1
      cases h1
      rw [h3, Option.getD_some]
      show ((xs.map _).map _)[i]? = _
      rw [map_own hU hmw (n := "p") (by simp) hint, List.getElem?_map, hi, Option.map_some, clip_none.mpr hy]

/-- **C79 disagreement.** In kg and m3, a call with an array of densities and an array of as many pressures
replaces, in the caller's array, the density of every element under the dome by the density of the
saturated liquid (the method `d` then writes the mixture's density back; no other method does). -/
theorem C79_density_defect (hu : U.v = "m3" ∧ U.m = "kg") (Tmin : ℝ) (hB : Dome B Tmin) (hS : Bounded S B Tmin)
    (hlo : Tmin ≤ B.Tlo) (ds : List ℝ) (p : Val ℝ) (hlen : ds.length = (Val.elems p).length)
    (hd : ("d", .arr ds) ∈ supplied varg kw) (hp : ("p", p) ∈ supplied varg kw)
    (h : Leaves E B S varg kw "d" ds l) (i : Nat) (t z : ℝ) (hT : MpGives E B S varg kw .T i t)
    (hz : MpGives E B S varg kw .x i z) (hz0 : 0 ≤ z) :
    l[i]? = some (some (B.dsl (si E U B .T t))) := by
  have hmw := hB.mw.ne'
  obtain ⟨r, hr, rfl⟩ := h
  obtain ⟨r', q, hr', hq⟩ := gives_pt hU hmw (by simp) hz
  rw [hr] at hr'
  cases hr'
  have hx : q.x = some z := (gives_iff hU hmw hr (by simp) hq z).mp hz
  have ht : q.T.map _ = some t := (gives_iff hU hmw hr (by simp) hq t).mp hT
  obtain ⟨T, hT', rfl⟩ := Option.map_eq_some_iff.mp ht
  have hg := argparse_good hB hS hU hlo hr q (List.mem_of_getElem? hq)
  have hI : q.I = true := by
    by_contra hI
    have := (hg.one (by simpa using hI)).2 z hx
    linarith [this.2]
  have hd1 := (hg.sat hI).1
  obtain ⟨kw', k, hn, hsub, -, -, hrules, hpar, hs⟩ := argparse_parts hU hmw hkw hr
  have hnv : argKg E U B.mw kw' "v" = none := by
    rw [← isSome_eq_none, argKg_isSome, has_iff]
    exact fun hc => hrules.not_dv ⟨List.mem_map_of_mem (f := (·.1)) (hsub _ hd), hc⟩
  have hD := hpar.d
  rw [hnv, mpDensity, argKg_of_mem hn (hsub _ hd)] at hD
  have hP := hpar.p
  rw [argKg_of_mem hn (hsub _ hp)] at hP
  have hint : isInternalKg U "d" = true := by simp [isInternalKg, hu.1, hu.2]
  have md : "d" ∈ kw'.map (·.1) := List.mem_map_of_mem (f := (·.1)) (hsub _ hd)
  have mp : "p" ∈ kw'.map (·.1) := List.mem_map_of_mem (f := (·.1)) (hsub _ hp)
  have hTn : k.T = none := by
    by_contra hc
    obtain ⟨t, ht⟩ := Option.ne_none_iff_exists'.mp hc
    exact rules_three hrules md mp (name_T hpar ht) (by simp) (by simp) (by simp) (by simp)
  have hin : k.inv = none := by
    by_contra hc
    obtain ⟨⟨j, a⟩, hj⟩ := Option.ne_none_iff_exists'.mp hc
    exact rules_three hrules md mp (name_inv hpar hj) (by simp) (inv_name_ne j).2.2.2.2.1.symm
      (inv_name_ne j).2.2.1.symm (by simp)
  have := (solve_own hs).2.2 _ _ hin hTn hP hD (by show (true && isInternalKg U "d") = true; rw [hint]; rfl)
    (by show (ds.map _).length = ((Val.elems p).map _ |>.map _).length; simpa using hlen)
  show (r.callerD.getD _)[i]? = _
  rw [this]
  simp only [Option.getD_some, List.getElem?_map, hq, Option.map_some, hd1, hT', onCurve]
  rw [show si E U B .T (inUnitsKg E.a U B.mw .temperature T) = T from internalKg_inUnitsKg hU hmw .temperature T]

end

end PyroMat.Mp.Props
