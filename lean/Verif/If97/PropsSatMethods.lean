import Verif.If97.PropsSteam
import Verif.If97.Sat

/-!
# C87: the saturation properties of steam
-/

set_option linter.unusedSimpArgs false

namespace PyroMat.If97.Spec

open PyroMat PyroMat.Units PyroMat.Gas PyroMat.Gas.Spec PyroMat.If97

/-- The argument can be compared by the code: it is an array, or a number that a conversion from the working
unit to the inner unit turns into one. -/
def Comparable (v : Val ℝ) (unit inner : String) : Prop := (∃ l, v = .arr l) ∨ unit ≠ inner

end PyroMat.If97.Spec

namespace PyroMat.If97.Props

open PyroMat PyroMat.Units PyroMat.Units.Props PyroMat.Gas PyroMat.Gas.Spec
open PyroMat.Units.Spec hiding kelvin
open PyroMat.Gas.Props PyroMat.Mp.Spec PyroMat.Mp.Props PyroMat.If97 PyroMat.If97.Spec

section
variable {E : Env} {S : Sys} {W : Water}

theorem comparable_iff (v : Val ℝ) (u w : String) : Comparable v u w ↔ ¬ (isNumber v = true ∧ u = w) := by
  unfold Comparable
  cases v <;> simp [isNumber]

theorem satT_eq (hU : Uses E S) {T : Val ℝ} (hc : Comparable T S.T.name "K") :
    satT E W T = if ∃ t ∈ Val.elems T, kelvin S t < W.Tt ∨ W.Tc < kelvin S t then .error .param
      else .ok ((Val.elems T).map (kelvin S)) := by
  unfold satT
  have : (Val.elems T).mapM (toK E) = .ok ((Val.elems T).map (kelvin S)) := by
    rw [mapM_congr (g := fun t => .ok (kelvin S t)) (fun t _ => toK_eq hU t), mapM_pure_map]
  rw [hU.T, exOk, this, exOk, if_neg ((comparable_iff _ _ _).mp hc)]
  by_cases h1 : ∃ t ∈ (Val.elems T).map (kelvin S), t < W.Tt
  · rw [if_pos ((any_lt _ _).mpr h1), if_pos]
    obtain ⟨t, ht, hl⟩ := h1
    obtain ⟨u, hu, rfl⟩ := List.mem_map.mp ht
    exact ⟨u, hu, Or.inl hl⟩
  · rw [if_neg (fun h => h1 ((any_lt _ _).mp h))]
    by_cases h2 : ∃ t ∈ (Val.elems T).map (kelvin S), W.Tc < t
    · rw [if_pos ((any_gt _ _).mpr h2), if_pos]
      obtain ⟨t, ht, hl⟩ := h2
      obtain ⟨u, hu, rfl⟩ := List.mem_map.mp ht
      exact ⟨u, hu, Or.inr hl⟩
    · rw [if_neg (fun h => h2 ((any_gt _ _).mp h)), if_neg]
      rintro ⟨t, ht, hl | hl⟩
      · exact h1 ⟨_, List.mem_map.mpr ⟨t, ht, rfl⟩, hl⟩
      · exact h2 ⟨_, List.mem_map.mpr ⟨t, ht, rfl⟩, hl⟩

theorem satP_eq (hU : Uses E S) {p : Val ℝ} (hc : Comparable p S.p "bar") :
    satP E W p = if ∃ x ∈ Val.elems p, bar E.a S x < W.pt ∨ W.pc < bar E.a S x then .error .param
      else .ok ((Val.elems p).map (bar E.a S)) := by
  unfold satP
  have : (Val.elems p).mapM (fun p =>
      scalarOf ((Units.pressure E.a).call E.c.str (.scalar p) none (some "bar") none false)) =
      .ok ((Val.elems p).map (bar E.a S)) := by
    rw [mapM_congr (g := fun t => .ok (bar E.a S t)) (fun t _ => toBar_eq hU t), mapM_pure_map]
  rw [hU.p, exOk, this, exOk, if_neg ((comparable_iff _ _ _).mp hc)]
  by_cases h1 : ∃ t ∈ (Val.elems p).map (bar E.a S), t < W.pt
  · rw [if_pos ((any_lt _ _).mpr h1), if_pos]
    obtain ⟨t, ht, hl⟩ := h1
    obtain ⟨u, hu, rfl⟩ := List.mem_map.mp ht
    exact ⟨u, hu, Or.inl hl⟩
  · rw [if_neg (fun h => h1 ((any_lt _ _).mp h))]
    by_cases h2 : ∃ t ∈ (Val.elems p).map (bar E.a S), W.pc < t
    · rw [if_pos ((any_gt _ _).mpr h2), if_pos]
      obtain ⟨t, ht, hl⟩ := h2
      obtain ⟨u, hu, rfl⟩ := List.mem_map.mp ht
      exact ⟨u, hu, Or.inr hl⟩
    · rw [if_neg (fun h => h2 ((any_gt _ _).mp h)), if_neg]
      rintro ⟨t, ht, hl | hl⟩
      · exact h1 ⟨_, List.mem_map.mpr ⟨t, ht, rfl⟩, hl⟩
      · exact h2 ⟨_, List.mem_map.mpr ⟨t, ht, rfl⟩, hl⟩

theorem satT_number (hU : Uses E S) (hS : S.T = .K) (t : ℝ) : satT E W (.scalar t) = .error .attribute := by
  unfold satT
  have : (Val.elems (.scalar t)).mapM (toK E) = .ok ((Val.elems (.scalar t)).map (kelvin S)) := by
    rw [mapM_congr (g := fun t => .ok (kelvin S t)) (fun t _ => toK_eq hU t), mapM_pure_map]
  rw [hU.T, exOk, this, exOk, if_pos ⟨rfl, by rw [hS]; rfl⟩]

theorem satP_number (hU : Uses E S) (hS : S.p = "bar") (p : ℝ) : satP E W (.scalar p) = .error .attribute := by
  unfold satP
  have : (Val.elems (.scalar p)).mapM (fun p =>
      scalarOf ((Units.pressure E.a).call E.c.str (.scalar p) none (some "bar") none false)) =
      .ok ((Val.elems (.scalar p)).map (bar E.a S)) := by
    rw [mapM_congr (g := fun t => .ok (bar E.a S t)) (fun t _ => toBar_eq hU t), mapM_pure_map]
  rw [hU.p, exOk, this, exOk, if_pos ⟨rfl, hS⟩]

/-- **C87 disagreement.** With the default units (K and bar) a single temperature or a single pressure given
as a Python number, and the documented call without arguments, make `hs`, `es`, `ds` and `ss` raise
`AttributeError`: they compare without making an array first, as `ps` and `Ts` do (`if97.py:1003-1012`). -/
theorem C87_scalar_defect (hU : Uses E S) (q : SatQ) :
    (S.T = .K → ∀ t p, mSat E W q (some (.scalar t)) p = .error .attribute) ∧
    (S.p = "bar" → ∀ p, mSat E W q none (some (.scalar p)) = .error .attribute) ∧
    (S.p = "bar" → mSat E W q none none = .error .attribute) := by
  refine ⟨fun h t p => ?_, fun h p => ?_, fun h => ?_⟩
  · unfold mSat satState
    cases p <;> simp only [satT_number hU h] <;> rfl
  · unfold mSat satState
    simp only [Option.getD_some, satP_number hU h]; rfl
  · unfold mSat satState
    simp only [Option.getD_none, satP_number hU h]; rfl

theorem SatQ.order (q : SatQ) : q.q.order = 1 := by cases q <;> rfl

theorem satScale_shown (hU : Uses E S) (hmw : W.mw ≠ 0) (q : SatQ) :
    q.scale E W = .ok (shown E.a S W.mw q.q 1 * (if q = .s then 1.8 / size temperature S.T.name else 1)) := by
  have h4 := ts_ne hU
  cases q
  · rw [if_neg (by decide), mul_one]; exact energyScale_eq hU hmw
  · rw [if_neg (by decide), mul_one]; exact energyScale_eq hU hmw
  · rw [if_neg (by decide), mul_one]; exact scale_eq hU hmw (q := .d) (by decide)
  · rw [if_pos rfl]
    show energyScale E W = _
    rw [energyScale_eq hU hmw]
    congr 1
    simp [SatQ.q, shown, kind, inUnitsKg, inUnits, perKmol]
    field_simp

theorem size_18 {S : Sys} (h : S.T = .K ∨ S.T = .C) : size (temperature : Conv ℝ) S.T.name = 1.8 := by
  rcases h with h | h <;> rw [h] <;> rfl

theorem satScale_factor (hU : Uses E S) (hmw : W.mw ≠ 0) {q : SatQ} (hq : q ≠ .s ∨ S.T = .K ∨ S.T = .C) :
    q.scale E W = .ok (factor E S W q.q) := by
  rw [satScale_shown hU hmw]
  congr 1
  unfold factor
  by_cases h : q = .s
  · have h8 := size_18 (hq.resolve_left (fun k => k h))
    rw [if_pos h, if_pos (by rw [h]; rfl), h8, h]
    norm_num [SatQ.q]
  · rw [if_neg h, if_neg (by cases q <;> simp_all [SatQ.q]), mul_one]

/-- One element with quality 0 or 1. -/
theorem mixed_ends (q : SatQ) {T p : ℝ} {a b : Nan} (hL : satElement W (g1 W) q.q (some T, some p) = .ok a)
    (hV : satElement W (g2 W) q.q (some T, some p) = .ok b) :
    (mixed W q.q T p 0).map some = .ok a ∧ (mixed W q.q T p 1).map some = .ok b := by
  unfold satElement at hL hV
  dsimp only at hL hV
  cases e1 : g1 W T p 1 with
  | error e => rw [e1] at hL; cases hL
  | ok g =>
    cases e2 : g2 W T p 1 with
    | error e => rw [e2] at hV; cases hV
    | ok k =>
      rw [e1] at hL; rw [e2] at hV
      cases hL; cases hV
      unfold mixed
      rw [SatQ.order, e1, exOk, exOk, e2, exOk, exOk]
      cases q <;> simp [SatQ.q, Q.mix, Q.sat, Q.gibbs, Except.map]

theorem nditer_T1 {T : List ℝ} (hne : T ≠ []) (d x : ℝ) :
    nditer3 T [d] [x] = .ok (T.map (fun t => (t, d, x))) := by
  have hb : broadcast T [x] = .ok (T, List.replicate T.length x) := by
    unfold broadcast
    match T, hne with
    | [a], _ => simp
    | a :: b :: l, _ => simp
  rw [nditer_Tx d hb hne]
  congr 1
  clear hb hne
  induction T with
  | nil => rfl
  | cons t T ih => simp [List.replicate_succ, ih]

theorem nditer_p1 {p : List ℝ} (hne : p ≠ []) (d x : ℝ) :
    nditer3 [d] p [x] = .ok (p.map (fun y => (d, y, x))) := by
  have hb : broadcast [d] p = .ok (List.replicate p.length d, p) := by
    unfold broadcast
    match p, hne with
    | [a], _ => simp
    | a :: b :: l, _ => simp
  have hz : (List.replicate p.length d).zip p = p.map (fun y => (d, y)) := by
    clear hb hne
    induction p with
    | nil => rfl
    | cons t p ih => simp [List.replicate_succ, ih]
  have hb2 : broadcast (p.map (fun y => (d, y))) [x] =
      .ok (p.map (fun y => (d, y)), List.replicate p.length x) := by
    unfold broadcast
    match p, hne with
    | [a], _ => simp
    | a :: b :: l, _ => simp
  unfold nditer3
  rw [hb, exOk]
  dsimp only
  rw [hz, hb2, exOk]
  dsimp only
  rw [if_neg (by simpa using hne)]
  congr 1
  clear hb hne hz hb2
  induction p with
  | nil => rfl
  | cons t p ih => simp [List.replicate_succ, ih]

theorem zip_maps {α β γ : Type} (f : α → β) (g : α → γ) (l : List α) :
    (l.map f).zip (l.map g) = l.map (fun a => (f a, g a)) := by
  induction l with
  | nil => rfl
  | cons a l ih => simp [ih]

theorem broadcast_maps {α β γ : Type} (f : α → β) (g : α → γ) (l : List α) :
    broadcast (l.map f) (l.map g) = .ok (l.map f, l.map g) := by
  unfold broadcast
  rw [if_pos (by simp)]

/-- What the call evaluates, once the arguments are accepted. -/
theorem mSat_list {α : Type} (hU : Uses E S) (hmw : W.mw ≠ 0) {q : SatQ} {T p : Option (Val ℝ)} {l : List α}
    {f g : α → Nan} (hs : satState E W T p = .ok (l.map f, l.map g)) :
    mSat E W q T p = (do
      let L ← l.mapM (fun a => satElement W (g1 W) q.q (f a, g a))
      let V ← l.mapM (fun a => satElement W (g2 W) q.q (f a, g a))
      .ok (scaleBy (shown E.a S W.mw q.q 1 * (if q = .s then 1.8 / size temperature S.T.name else 1)) L,
        scaleBy (shown E.a S W.mw q.q 1 * (if q = .s then 1.8 / size temperature S.T.name else 1)) V)) := by
  unfold mSat
  rw [hs, exOk, satScale_shown hU hmw, exOk]
  dsimp only
  rw [broadcast_maps, exOk]
  dsimp only
  rw [zip_maps, List.mapM_map, List.mapM_map]
  rfl

theorem state_sat_T (hU : Uses E S) {T : Val ℝ} (hc : Comparable T S.T.name "K")
    (h : ∀ t ∈ Val.elems T, W.Tt ≤ kelvin S t ∧ kelvin S t ≤ W.Tc) :
    satState E W (some T) none = .ok ((Val.elems T).map (fun t => some (kelvin S t)),
      (Val.elems T).map (fun t => ps W (kelvin S t))) := by
  unfold satState
  dsimp only
  rw [satT_eq hU hc, if_neg, exOk, List.map_map, List.map_map]
  · rfl
  · rintro ⟨t, ht, hl | hl⟩
    · linarith [(h t ht).1]
    · linarith [(h t ht).2]

theorem state_sat_p (hU : Uses E S) {p : Val ℝ} (hc : Comparable p S.p "bar")
    (h : ∀ x ∈ Val.elems p, W.pt ≤ bar E.a S x ∧ bar E.a S x ≤ W.pc) :
    satState E W none (some p) = .ok ((Val.elems p).map (fun x => Ts W (bar E.a S x)),
      (Val.elems p).map (fun x => some (bar E.a S x))) := by
  unfold satState
  dsimp only
  rw [Option.getD_some, satP_eq hU hc, if_neg, exOk, List.map_map, List.map_map]
  · rfl
  · rintro ⟨t, ht, hl | hl⟩
    · linarith [(h t ht).1]
    · linarith [(h t ht).2]

theorem sat_accepts_T (hU : Uses E S) {q : SatQ} {T : Val ℝ} (hc : Comparable T S.T.name "K")
    {r : List Nan × List Nan} (h : mSat E W q (some T) none = .ok r) :
    ∀ t ∈ Val.elems T, W.Tt ≤ kelvin S t ∧ kelvin S t ≤ W.Tc := by
  by_contra hn
  unfold mSat satState at h
  dsimp only at h
  rw [satT_eq hU hc, if_pos] at h
  · cases h
  · push Not at hn
    obtain ⟨t, ht, hl⟩ := hn
    by_cases k : W.Tt ≤ kelvin S t
    · exact ⟨t, ht, Or.inr (hl k)⟩
    · exact ⟨t, ht, Or.inl (not_le.mp k)⟩

theorem sat_accepts_p (hU : Uses E S) {q : SatQ} {p : Val ℝ} (hc : Comparable p S.p "bar")
    {r : List Nan × List Nan} (h : mSat E W q none (some p) = .ok r) :
    ∀ x ∈ Val.elems p, W.pt ≤ bar E.a S x ∧ bar E.a S x ≤ W.pc := by
  by_contra hn
  unfold mSat satState at h
  dsimp only at h
  rw [Option.getD_some, satP_eq hU hc, if_pos] at h
  · cases h
  · push Not at hn
    obtain ⟨t, ht, hl⟩ := hn
    by_cases k : W.pt ≤ bar E.a S t
    · exact ⟨t, ht, Or.inr (hl k)⟩
    · exact ⟨t, ht, Or.inl (not_le.mp k)⟩

/-- **C87.** The methods answer with one liquid and one vapour value for each temperature (or pressure) given
if all of them lie between the triple and the critical point, and raise the parameter error otherwise. -/
theorem C87_range (hU : Uses E S) (hd : GoodData W) (hmw : W.mw ≠ 0) (q : SatQ) (v : Val ℝ) :
    (Comparable v S.T.name "K" →
      ((∀ t ∈ Val.elems v, W.Tt ≤ kelvin S t ∧ kelvin S t ≤ W.Tc) →
        ∃ L V, mSat E W q (some v) none = .ok (L, V) ∧ L.length = (Val.elems v).length ∧
          V.length = (Val.elems v).length) ∧
      ((∃ t ∈ Val.elems v, ¬ (W.Tt ≤ kelvin S t ∧ kelvin S t ≤ W.Tc)) →
        mSat E W q (some v) none = .error .param)) ∧
    (Comparable v S.p "bar" →
      ((∀ p ∈ Val.elems v, W.pt ≤ bar E.a S p ∧ bar E.a S p ≤ W.pc) →
        ∃ L V, mSat E W q none (some v) = .ok (L, V) ∧ L.length = (Val.elems v).length ∧
          V.length = (Val.elems v).length) ∧
      ((∃ p ∈ Val.elems v, ¬ (W.pt ≤ bar E.a S p ∧ bar E.a S p ≤ W.pc)) →
        mSat E W q none (some v) = .error .param)) := by
  have el : ∀ a, (∃ x, satElement W (g1 W) q.q a = .ok x) ∧ ∃ x, satElement W (g2 W) q.q a = .ok x := by
    rintro ⟨T, p⟩
    unfold satElement
    cases T with
    | none => exact ⟨⟨_, rfl⟩, ⟨_, rfl⟩⟩
    | some T =>
      cases p with
      | none => exact ⟨⟨_, rfl⟩, ⟨_, rfl⟩⟩
      | some p =>
        obtain ⟨g, hg⟩ := g1_ok hd T p 1
        obtain ⟨k, hk⟩ := g2_ok hd T p 1
        dsimp only
        rw [hg, hk]
        exact ⟨⟨_, rfl⟩, ⟨_, rfl⟩⟩
  have all : ∀ {α : Type} (f : α → Except Err Nan) (l : List α), (∀ a, ∃ x, f a = .ok x) →
      ∃ r, l.mapM f = .ok r ∧ r.length = l.length := by
    intro α f l h
    induction l with
    | nil => exact ⟨[], rfl, rfl⟩
    | cons a l ih =>
      obtain ⟨r, h1, h2⟩ := ih
      obtain ⟨x, hx⟩ := h a
      exact ⟨x :: r, by rw [List.mapM_cons, hx, exOk, h1]; rfl, by simp [h2]⟩
  constructor
  · intro hc
    constructor
    · intro h
      rw [mSat_list hU hmw (state_sat_T hU hc h)]
      obtain ⟨L, l1, l2⟩ := all (fun t => satElement W (g1 W) q.q (some (kelvin S t), ps W (kelvin S t)))
        (Val.elems v) (fun a => (el _).1)
      obtain ⟨V, v1, v2⟩ := all (fun t => satElement W (g2 W) q.q (some (kelvin S t), ps W (kelvin S t)))
        (Val.elems v) (fun a => (el _).2)
      rw [l1, exOk, v1, exOk]
      exact ⟨_, _, rfl, by simp [scaleBy, l2], by simp [scaleBy, v2]⟩
    · rintro ⟨t, ht, hn⟩
      unfold mSat satState
      dsimp only
      rw [satT_eq hU hc, if_pos]
      · rfl
      · refine ⟨t, ht, ?_⟩
        by_contra h
        push Not at h
        exact hn h
  · intro hc
    constructor
    · intro h
      rw [mSat_list hU hmw (state_sat_p hU hc h)]
      obtain ⟨L, l1, l2⟩ := all (fun x => satElement W (g1 W) q.q (Ts W (bar E.a S x), some (bar E.a S x)))
        (Val.elems v) (fun a => (el _).1)
      obtain ⟨V, v1, v2⟩ := all (fun x => satElement W (g2 W) q.q (Ts W (bar E.a S x), some (bar E.a S x)))
        (Val.elems v) (fun a => (el _).2)
      rw [l1, exOk, v1, exOk]
      exact ⟨_, _, rfl, by simp [scaleBy, l2], by simp [scaleBy, v2]⟩
    · rintro ⟨t, ht, hn⟩
      unfold mSat satState
      dsimp only
      rw [Option.getD_some, satP_eq hU hc, if_pos]
      · rfl
      · refine ⟨t, ht, ?_⟩
        by_contra h
        push Not at h
        exact hn h

theorem factor_sat (hU : Uses E S) (hmw : W.mw ≠ 0) {q : SatQ} (hq : q ≠ .s ∨ S.T = .K ∨ S.T = .C) :
    shown E.a S W.mw q.q 1 * (if q = .s then 1.8 / size temperature S.T.name else 1) = factor E S W q.q := by
  have h1 := satScale_shown hU hmw q
  rw [satScale_factor hU hmw hq] at h1
  exact (Except.ok.inj h1).symm

/-- The answered parts of a list. -/
theorem mSat_inv {α : Type} (hU : Uses E S) (hmw : W.mw ≠ 0) {q : SatQ} {T p : Option (Val ℝ)} {l : List α}
    {f g : α → Nan} (hs : satState E W T p = .ok (l.map f, l.map g)) {L V : List Nan}
    (h : mSat E W q T p = .ok (L, V)) :
    ∃ l1 l2, l.mapM (fun a => satElement W (g1 W) q.q (f a, g a)) = .ok l1 ∧
      l.mapM (fun a => satElement W (g2 W) q.q (f a, g a)) = .ok l2 ∧
      L = scaleBy (shown E.a S W.mw q.q 1 * (if q = .s then 1.8 / size temperature S.T.name else 1)) l1 ∧
      V = scaleBy (shown E.a S W.mw q.q 1 * (if q = .s then 1.8 / size temperature S.T.name else 1)) l2 := by
  rw [mSat_list hU hmw hs] at h
  cases h1 : l.mapM (fun a => satElement W (g1 W) q.q (f a, g a)) with
  | error e => rw [h1] at h; cases h
  | ok l1 =>
    cases h2 : l.mapM (fun a => satElement W (g2 W) q.q (f a, g a)) with
    | error e => rw [h1, h2] at h; cases h
    | ok l2 =>
      rw [h1, h2] at h
      cases h
      exact ⟨l1, l2, rfl, rfl, rfl, rfl⟩

theorem mapM_two {α : Type} {f g f' g' : α → Except Err Nan} {l : List α} {a b : List Nan}
    (h1 : l.mapM f = .ok a) (h2 : l.mapM g = .ok b)
    (h : ∀ x u v, f x = .ok u → g x = .ok v → f' x = .ok u ∧ g' x = .ok v) :
    l.mapM f' = .ok a ∧ l.mapM g' = .ok b := by
  have f1 := mapM_ok h1
  have f2 := mapM_ok h2
  clear h1 h2
  induction f1 generalizing b with
  | nil => cases f2; exact ⟨rfl, rfl⟩
  | cons p1 q1 ih =>
    cases f2 with
    | cons p2 q2 =>
      obtain ⟨e1, e2⟩ := h _ _ _ p1 p2
      obtain ⟨i1, i2⟩ := ih q2
      constructor
      · rw [List.mapM_cons, e1, exOk, i1]; rfl
      · rw [List.mapM_cons, e2, exOk, i2]; rfl

/-- **C87.** The saturation methods agree with the property methods at quality 0 and 1. -/
theorem C87_agrees (hU : Uses E S) (hmw : W.mw ≠ 0) {q : SatQ} (hq : q ≠ .s ∨ S.T = .K ∨ S.T = .C)
    (v : Val ℝ) (hne : Val.elems v ≠ []) :
    (Comparable v S.T.name "K" → ∀ L V, mSat E W q (some v) none = .ok (L, V) →
      method E W q.q (some v) none (some (.scalar 0)) = .ok L ∧
      method E W q.q (some v) none (some (.scalar 1)) = .ok V) ∧
    (Comparable v S.p "bar" → ∀ L V, mSat E W q none (some v) = .ok (L, V) →
      method E W q.q none (some v) (some (.scalar 0)) = .ok L ∧
      method E W q.q none (some v) (some (.scalar 1)) = .ok V) := by
  constructor
  · intro hc L V h
    obtain ⟨l1, l2, e1, e2, rfl, rfl⟩ := mSat_inv hU hmw (state_sat_T hU hc (sat_accepts_T hU hc h)) h
    rw [factor_sat hU hmw hq, method_eq hU hmw q.q (some v) none (some (.scalar 0)) (nditer_T1 hne _ _),
      method_eq hU hmw q.q (some v) none (some (.scalar 1)) (nditer_T1 hne _ _), List.mapM_map, List.mapM_map]
    obtain ⟨m1, m2⟩ := mapM_two (f' := fun t => element W q.q false true (kelvin S t) (bar E.a S E.c.defp) 0)
      (g' := fun t => element W q.q false true (kelvin S t) (bar E.a S E.c.defp) 1) e1 e2 (by
        intro t u w h1 h2
        unfold element
        simp only [Bool.false_eq_true, if_false, if_true, lt_irrefl, not_lt.mpr (zero_le_one (α := ℝ))]
        cases hp : ps W (kelvin S t) with
        | none =>
          rw [hp] at h1 h2
          unfold satElement at h1 h2
          cases h1; cases h2
          exact ⟨rfl, rfl⟩
        | some P =>
          rw [hp] at h1 h2
          exact mixed_ends q h1 h2)
    constructor
    · show Except.map _ (List.mapM (fun t => element W q.q false true (kelvin S t) (bar E.a S E.c.defp) 0) _) = _
      rw [m1]; rfl
    · show Except.map _ (List.mapM (fun t => element W q.q false true (kelvin S t) (bar E.a S E.c.defp) 1) _) = _
      rw [m2]; rfl
  · intro hc L V h
    obtain ⟨l1, l2, e1, e2, rfl, rfl⟩ := mSat_inv hU hmw (state_sat_p hU hc (sat_accepts_p hU hc h)) h
    rw [factor_sat hU hmw hq, method_eq hU hmw q.q none (some v) (some (.scalar 0)) (nditer_p1 hne _ _),
      method_eq hU hmw q.q none (some v) (some (.scalar 1)) (nditer_p1 hne _ _), List.mapM_map, List.mapM_map]
    obtain ⟨m1, m2⟩ := mapM_two (f' := fun x => element W q.q true false (kelvin S E.c.defT) (bar E.a S x) 0)
      (g' := fun x => element W q.q true false (kelvin S E.c.defT) (bar E.a S x) 1) e1 e2 (by
        intro t u w h1 h2
        unfold element
        simp only [if_false, if_true, lt_irrefl, not_lt.mpr (zero_le_one (α := ℝ))]
        cases hp : Ts W (bar E.a S t) with
        | none =>
          rw [hp] at h1 h2
          unfold satElement at h1 h2
          cases h1; cases h2
          exact ⟨rfl, rfl⟩
        | some P =>
          rw [hp] at h1 h2
          exact mixed_ends q h1 h2)
    constructor
    · show Except.map _ (List.mapM (fun x => element W q.q true false (kelvin S E.c.defT) (bar E.a S x) 0) _) = _
      rw [m1]; rfl
    · show Except.map _ (List.mapM (fun x => element W q.q true false (kelvin S E.c.defT) (bar E.a S x) 1) _) = _
      rw [m2]; rfl

theorem element_value {l : List ℝ} {F : ℝ → Except Err Nan} {r : List Nan} (h : l.mapM F = .ok r) {i : Nat}
    {t : ℝ} (ht : l[i]? = some t) {v : ℝ} (hv : F t = .ok (some v)) (c : ℝ) :
    (scaleBy c r)[i]? = some (some (v * c)) := by
  have hf := mapM_ok h
  obtain ⟨hi, hget⟩ := List.getElem?_eq_some_iff.mp ht
  have hi' : i < r.length := by rw [← hf.length_eq]; exact hi
  have h3 := hf.get (i := i) hi hi'
  simp only [List.get_eq_getElem, hget, hv, Except.ok.injEq] at h3
  simp [scaleBy, List.getElem?_eq_getElem hi', ← h3]

/-- The ratio of the entropy the saturation method returns to the one in the documented units. -/
theorem sat_ratio (hU : Uses E S) (q : SatQ) (v : ℝ) :
    v * (shown E.a S W.mw q.q 1 * (if q = .s then 1.8 / size temperature S.T.name else 1)) =
      shown E.a S W.mw q.q v * (if q = .s then 1.8 / size temperature S.T.name else 1) := by
  rw [← mul_assoc, shown_mul hU]

/-- **C87.** For each temperature given, with saturation pressure `P` (for each pressure, with saturation
temperature `T`), the two values are those of the Gibbs energies of regions 1 and 2 on the saturation line,
in the documented units; the entropies are multiplied by the number of temperature units to a kelvin. -/
theorem C87_values_partial (hU : Uses E S) (hd : GoodData W) (hmw : W.mw ≠ 0) (hR : W.R ≠ 0) {q : SatQ}
    (v : Val ℝ) {i : Nat} {y T P : ℝ} (hy : (Val.elems v)[i]? = some y) (hT0 : T ≠ 0) (hP0 : P ≠ 0)
    (h1 : RegularAt W 1 T P) (h2 : RegularAt W 2 T P) :
    (Comparable v S.T.name "K" → T = kelvin S y → ps W T = some P → ∀ L V,
      mSat E W q (some v) none = .ok (L, V) → ∃ vL vV, Derives W 1 q.q T P vL ∧ Derives W 2 q.q T P vV ∧
        L[i]? = some (some (shown E.a S W.mw q.q vL * (if q = .s then 1.8 / size temperature S.T.name else 1))) ∧
        V[i]? = some (some (shown E.a S W.mw q.q vV * (if q = .s then 1.8 / size temperature S.T.name else 1)))) ∧
    (Comparable v S.p "bar" → P = bar E.a S y → Ts W P = some T → ∀ L V,
      mSat E W q none (some v) = .ok (L, V) → ∃ vL vV, Derives W 1 q.q T P vL ∧ Derives W 2 q.q T P vV ∧
        L[i]? = some (some (shown E.a S W.mw q.q vL * (if q = .s then 1.8 / size temperature S.T.name else 1))) ∧
        V[i]? = some (some (shown E.a S W.mw q.q vV * (if q = .s then 1.8 / size temperature S.T.name else 1)))) := by
  obtain ⟨g, e1, e2, -⟩ := derives1 hd.r1 q.q hR hT0 hP0 h1
  obtain ⟨k, f1, f2, -⟩ := derives2 hd q.q hR hT0 hP0 h2
  rw [SatQ.order] at e1 f1
  constructor
  · rintro hc rfl hP L V h
    obtain ⟨l1, l2, m1, m2, rfl, rfl⟩ := mSat_inv hU hmw (state_sat_T hU hc (sat_accepts_T hU hc h)) h
    refine ⟨_, _, e2, f2, ?_, ?_⟩
    · rw [element_value m1 hy (v := q.q.gibbs W.R (kelvin S y) P g)
        (by unfold satElement; rw [hP]; dsimp only; rw [e1]; rfl), sat_ratio hU]
    · rw [element_value m2 hy (v := q.q.gibbs W.R (kelvin S y) P k)
        (by unfold satElement; rw [hP]; dsimp only; rw [f1]; rfl), sat_ratio hU]
  · rintro hc rfl hP L V h
    obtain ⟨l1, l2, m1, m2, rfl, rfl⟩ := mSat_inv hU hmw (state_sat_p hU hc (sat_accepts_p hU hc h)) h
    refine ⟨_, _, e2, f2, ?_, ?_⟩
    · rw [element_value m1 hy (v := q.q.gibbs W.R T (bar E.a S y) g)
        (by unfold satElement; rw [hP]; dsimp only; rw [e1]; rfl), sat_ratio hU]
    · rw [element_value m2 hy (v := q.q.gibbs W.R T (bar E.a S y) k)
        (by unfold satElement; rw [hP]; dsimp only; rw [f1]; rfl), sat_ratio hU]

/-- **C87.** With `tp=True` the same two values are preceded by the state: the temperature given and what
`ps` returns for it, or what `Ts` returns for the pressure given and that pressure. -/
theorem C87_tp (hU : Uses E S) (q : SatQ) (v : Val ℝ) (T P L V : List Nan) :
    (Comparable v S.T.name "K" → (mSatTp E W q (some v) none = .ok (T, P, L, V) ↔
      T = (Val.elems v).map some ∧ mPs E W (some v) = .ok P ∧ mSat E W q (some v) none = .ok (L, V))) ∧
    (Comparable v S.p "bar" → (mSatTp E W q none (some v) = .ok (T, P, L, V) ↔
      mTs E W (some v) = .ok T ∧ P = (Val.elems v).map some ∧ mSat E W q none (some v) = .ok (L, V))) := by
  constructor
  · intro hc
    unfold mSatTp
    cases hm : mSat E W q (some v) none with
    | error e =>
      constructor
      · intro h
        cases h1 : satOutT E W (some v) none <;> cases h2 : satOutP E W (some v) none <;> rw [h1, h2] at h <;> cases h
      · rintro ⟨-, -, h⟩; cases h
    | ok r =>
      have ha := sat_accepts_T hU hc hm
      have hs := state_sat_T hU hc ha
      unfold satOutT satOutP
      rw [hs, exOk]
      dsimp only
      have hps := mPs_eq (W := W) hU v
      rw [if_neg (by
        rintro ⟨t, ht, hl | hl⟩
        · linarith [(ha t ht).1]
        · linarith [(ha t ht).2])] at hps
      have hcv : convNan (fun v => (Units.pressure E.a).call E.c.str v (some "bar") none none false)
          ((Val.elems v).map (fun t => ps W (kelvin S t))) = .ok ((Val.elems v).map (fun t =>
            (ps W (kelvin S t)).map (fun p => p * (1e5 / size (Units.pressure E.a) S.p)))) := by
        unfold convNan
        rw [mapM_congr (g := fun x => .ok (x.map (fun p => p * (1e5 / size (Units.pressure E.a) S.p)))),
          mapM_pure_map]
        · rw [List.map_map]; rfl
        · intro x _
          cases x with
          | none => rfl
          | some x => simp only [fromBar_eq hU]; rfl
      rw [exOk, exOk, hcv, exOk, exOk, hps]
      constructor
      · intro h; cases h; exact ⟨rfl, rfl, rfl⟩
      · rintro ⟨rfl, h1, h2⟩; cases h1; cases h2; rfl
  · intro hc
    unfold mSatTp
    cases hm : mSat E W q none (some v) with
    | error e =>
      constructor
      · intro h
        cases h1 : satOutT E W none (some v) <;> cases h2 : satOutP E W none (some v) <;> rw [h1, h2] at h <;> cases h
      · rintro ⟨-, -, h⟩; cases h
    | ok r =>
      have ha := sat_accepts_p hU hc hm
      have hs := state_sat_p hU hc ha
      unfold satOutT satOutP
      rw [hs, exOk]
      dsimp only
      have hts := mTs_eq (W := W) hU v
      rw [if_neg (by
        rintro ⟨t, ht, hl | hl⟩
        · linarith [(ha t ht).1]
        · linarith [(ha t ht).2])] at hts
      rw [convNan_T hU false 1, exOk, exOk, exOk, exOk, hts, List.map_map]
      constructor
      · intro h; cases h; exact ⟨rfl, rfl, rfl⟩
      · rintro ⟨h1, rfl, h2⟩; cases h1; cases h2; rfl

/-- **C87 disagreement.** The documented unit of `ss` is energy per matter and temperature in the working
units, but no temperature conversion is made (`if97.py:1251-1252`): in degrees Rankine or Fahrenheit, or eV,
the number returned is wrong by the size of a kelvin in that unit. -/
theorem C87_entropy_defect (hU : Uses E S) (hd : GoodData W) (hmw : W.mw ≠ 0) (hR : W.R ≠ 0)
    (hS : size (temperature : Conv ℝ) S.T.name ≠ 1.8) (v : Val ℝ) (hc : Comparable v S.T.name "K") {i : Nat}
    {y P : ℝ} (hy : (Val.elems v)[i]? = some y) (hT0 : kelvin S y ≠ 0) (hP0 : P ≠ 0)
    (hP : ps W (kelvin S y) = some P) (h1 : RegularAt W 1 (kelvin S y) P) (h2 : RegularAt W 2 (kelvin S y) P)
    {L V : List Nan} (h : mSat E W .s (some v) none = .ok (L, V)) :
    ∃ vL, Derives W 1 .s (kelvin S y) P vL ∧
      (vL ≠ 0 → L[i]? ≠ some (some (shown E.a S W.mw .s vL))) := by
  obtain ⟨vL, vV, d1, -, e, -⟩ := (C87_values_partial hU hd hmw hR v hy hT0 hP0 h1 h2).1 hc rfl hP L V h
  refine ⟨vL, d1, fun hv hn => ?_⟩
  rw [e, if_pos rfl] at hn
  have h4 := ts_ne hU
  have h5 := es_ne hU
  have h6 := ms_ne hU hmw
  simp only [Option.some.injEq] at hn
  have hs : shown E.a S W.mw .s vL ≠ 0 := by
    have hx : shown E.a S W.mw .s vL = vL * shown E.a S W.mw .s 1 := (shown_mul hU W.mw .s vL).symm
    rw [hx]
    refine mul_ne_zero hv ?_
    simp only [shown, kind, inUnitsKg, inUnits, perKmol]
    positivity
  have : 1.8 / size (temperature : Conv ℝ) S.T.name = 1 := by
    have := mul_left_cancel₀ hs (hn.trans (mul_one _).symm)
    exact this
  rw [div_eq_one_iff_eq h4] at this
  exact hS this.symm

/-- **C66 disagreement.** `gam`, documented as the ratio of `cp` and `cv`, raises `NameError` for all arguments
(`if97.py:1957`). -/
theorem C66_gam_defect (T p x : Option (Val ℝ)) : mGam T p x = .error .name := rfl

end

end PyroMat.If97.Props
