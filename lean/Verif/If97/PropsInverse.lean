import Verif.If97.PropsSatMethods
import Verif.If97.Inverse

/-!
# Steam: temperature from enthalpy and pressure (C88)
-/

set_option linter.unusedSimpArgs false

namespace PyroMat.If97.Props

open PyroMat PyroMat.Units PyroMat.Units.Props PyroMat.Gas PyroMat.Gas.Spec
open PyroMat.Units.Spec hiding kelvin
open PyroMat.Gas.Props PyroMat.Mp.Spec PyroMat.Mp.Props PyroMat.If97 PyroMat.If97.Spec

/-- The backward equations have well-formed coefficient lists. -/
structure GoodBack (B : Back) : Prop where
  th1 : WellFormed B.th1
  ts1 : WellFormed B.ts1
  th2a : WellFormed B.th2a
  th2b : WellFormed B.th2b
  th2c : WellFormed B.th2c
  ts2a : WellFormed B.ts2a
  ts2b : WellFormed B.ts2b
  ts2c : WellFormed B.ts2c

/-- Bar, and amounts by mass in kg. -/
structure BarKg (S : Sys) : Prop where
  p : S.p = "bar"
  m : S.m = "kg"

section
variable {E : Env} {S : Sys} {W : Water} {B : Back}

theorem fit_poly {A : List Term} (h : WellFormed A) {x y : ℝ} (hr : Regular A x y) :
    fit x y A = .ok (polyAt A x y) := by
  obtain ⟨F, h1, -, h3, -⟩ := peval_does A h
  unfold fit
  rw [h1, ← h3 0 x y hr]
  rfl

theorem derives_h_unique {r : Nat} {T p v w : ℝ} (h1 : Derives W r .h T p v) (h2 : Derives W r .h T p w) : v = w := by
  obtain ⟨j, hj, rfl⟩ := h1
  obtain ⟨k, hk, rfl⟩ := h2
  simp only [fromGibbs]
  rw [hj.val, hk.val, hj.dx.unique hk.dx]

theorem derives_s_unique {r : Nat} {T p v w : ℝ} (h1 : Derives W r .s T p v) (h2 : Derives W r .s T p w) : v = w := by
  obtain ⟨j, hj, rfl⟩ := h1
  obtain ⟨k, hk, rfl⟩ := h2
  simp only [fromGibbs]
  rw [hj.dx.unique hk.dx]

theorem hAt1 (hd : GoodData W) (hR : W.R ≠ 0) {T p v : ℝ} (hT : T ≠ 0) (hp : p ≠ 0) (hr : RegularAt W 1 T p)
    (hv : Derives W 1 .h T p v) : hAt W (g1 W) T p = .ok v := by
  obtain ⟨g, e1, e2, -⟩ := derives1 hd.r1 .h hR hT hp hr
  unfold hAt
  rw [show (1 : Nat) = Q.h.order from rfl, e1, derives_h_unique hv e2]
  rfl

theorem hAt2 (hd : GoodData W) (hR : W.R ≠ 0) {T p v : ℝ} (hT : T ≠ 0) (hp : p ≠ 0) (hr : RegularAt W 2 T p)
    (hv : Derives W 2 .h T p v) : hAt W (g2 W) T p = .ok v := by
  obtain ⟨g, e1, e2, -⟩ := derives2 hd .h hR hT hp hr
  unfold hAt
  rw [show (1 : Nat) = Q.h.order from rfl, e1, derives_h_unique hv e2]
  rfl

theorem regular5 {T p : ℝ} (hT : T ≠ 0) (hp : p ≠ 0) : RegularAt W 5 T p :=
  ⟨⟨Or.inl (by positivity), Or.inl (by positivity)⟩, ⟨Or.inl (by positivity), Or.inl (by positivity)⟩⟩

theorem hAt5 (hd : GoodData W) (hR : W.R ≠ 0) {T p v : ℝ} (hT : T ≠ 0) (hp : p ≠ 0)
    (hv : Derives W 5 .h T p v) : hAt W (g5 W) T p = .ok v := by
  obtain ⟨g, e1, e2⟩ := derives5 hd .h hR hT hp (regular5 hT hp)
  unfold hAt
  rw [show (1 : Nat) = Q.h.order from rfl, e1, derives_h_unique hv e2]
  rfl

theorem scalarOf_to (hU : Uses E S) {c : Conv ℝ} (hc : NonZero c) {k : String} (hk : c.configDefault = some k)
    {u w : String} (hu : E.c.str k = .ok u) (hcu : c.contains u = true) {y : ℝ}
    (hy : c.table.lookup w = some y) (x : ℝ) (e : Option ℤ) (ip : Bool) :
    scalarOf (c.call E.c.str (.scalar x) none (some w) e ip) = .ok (x * powS (size c u / y) e) := by
  rw [(call_none hk hu _ e ip w).1]
  obtain ⟨r, h1, h2⟩ := call_ret hc (size_lookup hU hcu) hy E.c.str (.scalar x) e ip
  rw [h1]
  simp [scalarOf, exOk, h2, Units.Val.map]

/-- The factor applied to enthalpies. -/
noncomputable def hFac (E : Env) (S : Sys) (W : Water) : ℝ :=
  size energy S.e / 1000 * (msize E.a W.mw S.m * W.mw)

theorem hFactor_eq (hU : Uses E S) (hmw : W.mw ≠ 0) : hFactor E W = .ok (hFac E S W) := by
  unfold hFactor
  rw [scalarOf_to hU (nz_energy hU) (k := "unit_energy") rfl hU.e hU.valid.e (w := "kJ") (y := 1000) rfl, exOk]
  rw [(matter_none hU.m _ none false "kg").1]
  obtain ⟨r, h1, h2⟩ := matter_ret E.a hU.pos W.mw hmw S.m "kg" _ _ (msize_lookup hU W.mw) (kg_scale hU W.mw)
    E.c.str (.scalar (1 * powS (size energy S.e / 1000) none)) none false
  rw [h1]
  simp [scalarOf, exOk, h2, Units.Val.map, powS, hFac]

theorem msize_kg (hU : Uses E S) (hm : S.m = "kg") (hmw : W.mw ≠ 0) : msize E.a W.mw S.m = 1 / W.mw := by
  have h1 := msize_lookup hU W.mw
  rw [hm, kg_scale hU W.mw] at h1
  rw [hm]
  exact (Option.some.inj h1).symm

theorem hFac_shown (hU : Uses E S) (hS : BarKg S) (hmw : W.mw ≠ 0) (v : ℝ) :
    shown E.a S W.mw .h v * hFac E S W = v := by
  have h1 := es_ne hU
  simp only [shown, kind, inUnitsKg, inUnits, perKmol, hFac, msize_kg hU hS.m hmw]
  field_simp

theorem nditer2_one (a b : ℝ) : nditer2 [a] [b] = .ok [(a, b)] := by
  simp [nditer2, broadcast, exOk]

/-- The call on numbers. -/
theorem mTh_one (hU : Uses E S) (hmw : W.mw ≠ 0) (h p : ℝ) :
    mTh E W B (.scalar h) (some (.scalar p)) =
      (thElement E W B (h * hFac E S W) p).map (fun w => ([fromKelvin S.T.name w.1], [w.2])) := by
  unfold mTh
  rw [toBar_eq hU, exOk, hFactor_eq hU hmw, exOk]
  show (nditer2 [h] [p] >>= _) = _
  rw [nditer2_one, exOk]
  unfold fromK
  simp only [List.mapM_cons, List.mapM_nil, scalarOf_tscale hU, exOk]
  cases thElement E W B (h * hFac E S W) p with
  | error e => rfl
  | ok w => rfl

theorem mTh_shown (hU : Uses E S) (hS : BarKg S) (hmw : W.mw ≠ 0) (v p : ℝ) :
    mTh E W B (.scalar (shown E.a S W.mw .h v)) (some (.scalar p)) =
      (thElement E W B v p).map (fun w => ([fromKelvin S.T.name w.1], [w.2])) := by
  rw [mTh_one hU hmw, hFac_shown hU hS hmw]

theorem mTh_list (hU : Uses E S) (hmw : W.mw ≠ 0) (h p : Val ℝ) {hs ps : List ℝ}
    (hb : broadcast (Val.elems h) (Val.elems p) = .ok (hs, ps)) (hne : hs ≠ []) :
    mTh E W B h (some p) = ((hs.zip ps).mapM (fun a =>
      (thElement E W B (a.1 * hFac E S W) a.2).map (fun w => (fromKelvin S.T.name w.1, w.2)))).map
        (fun r => (r.map (·.1), r.map (·.2))) := by
  have hn : nditer2 (Val.elems h) (Val.elems p) = .ok (hs.zip ps) := by
    unfold nditer2
    rw [hb, exOk, if_neg hne]
  unfold mTh
  rw [toBar_eq hU, exOk, hFactor_eq hU hmw, exOk]
  show (nditer2 (Val.elems h) (Val.elems p) >>= _) = _
  rw [hn, exOk]
  have : ∀ a ∈ hs.zip ps, (thElement E W B (a.1 * hFac E S W) a.2 >>= fun w => fromK E w.1 >>= fun T =>
      Except.ok (T, w.2)) = (thElement E W B (a.1 * hFac E S W) a.2).map (fun w => (fromKelvin S.T.name w.1, w.2)) := by
    intro a _
    unfold fromK
    simp only [scalarOf_tscale hU, exOk]
    cases thElement E W B (a.1 * hFac E S W) a.2 <;> rfl
  rw [mapM_congr this]
  cases (hs.zip ps).mapM (fun a =>
      (thElement E W B (a.1 * hFac E S W) a.2).map (fun w => (fromKelvin S.T.name w.1, w.2))) <;> rfl

theorem mapM_iff {α β : Type} (f : α → Except Err β) (l : List α) (r : List β) :
    l.mapM f = .ok r ↔ List.Forall₂ (fun a b => f a = .ok b) l r := by
  refine ⟨mapM_ok, fun h => ?_⟩
  induction h with
  | nil => rfl
  | cons h1 h2 ih => rw [List.mapM_cons, h1, exOk, ih]; rfl

/-- **C88.** With arrays every position holds what the call with its numbers alone returns, and the call is
answered when they all are. -/
theorem C88_arrays (hU : Uses E S) (hmw : W.mw ≠ 0) (h p : Val ℝ) {hs ps : List ℝ}
    (hb : broadcast (Val.elems h) (Val.elems p) = .ok (hs, ps)) (hne : hs ≠ []) (r : List (ℝ × ℝ)) :
    mTh E W B h (some p) = .ok (r.map (·.1), r.map (·.2)) ↔
      List.Forall₂ (fun (a b : ℝ × ℝ) => mTh E W B (.scalar a.1) (some (.scalar a.2)) = .ok ([b.1], [b.2]))
        (hs.zip ps) r := by
  rw [mTh_list hU hmw h p hb hne]
  have e : ∀ a b : ℝ × ℝ, mTh E W B (.scalar a.1) (some (.scalar a.2)) = .ok ([b.1], [b.2]) ↔
      (thElement E W B (a.1 * hFac E S W) a.2).map (fun w => (fromKelvin S.T.name w.1, w.2)) = .ok b := by
    rintro a ⟨b1, b2⟩
    rw [mTh_one hU hmw]
    cases thElement E W B (a.1 * hFac E S W) a.2 with
    | error e => simp [Except.map]
    | ok w => simp [Except.map]
  simp only [e]
  rw [← mapM_iff]
  cases (hs.zip ps).mapM (fun a =>
      (thElement E W B (a.1 * hFac E S W) a.2).map (fun w => (fromKelvin S.T.name w.1, w.2))) with
  | error e => simp [Except.map]
  | ok w =>
    simp only [Except.map, Except.ok.injEq, Prod.mk.injEq]
    constructor
    · rintro ⟨h1, h2⟩
      have : ∀ l : List (ℝ × ℝ), l = (l.map (·.1)).zip (l.map (·.2)) := by
        intro l
        induction l with
        | nil => rfl
        | cons a l ih => simp only [List.map_cons, List.zip_cons_cons, ← ih]
      rw [this w, this r, h1, h2]
    · rintro rfl
      exact ⟨rfl, rfl⟩

/-! ## Region by region -/

/-- **C88.** Below 165.292 bar, at an enthalpy from that of saturated liquid up to that of saturated vapour, the
temperature is the saturation temperature and the quality the share of vapour by mass. -/
theorem C88_mixture (hU : Uses E S) (hS : BarKg S) (hd : GoodData W) (hmw : W.mw ≠ 0) (hR : W.R ≠ 0)
    {p T hL hV v : ℝ} (hp0 : p ≠ 0) (hp : p < 165.292) (hT : Ts W p = some T) (hT0 : T ≠ 0)
    (r1 : RegularAt W 1 T p) (r2 : RegularAt W 2 T p) (hl : Derives W 1 .h T p hL) (hv : Derives W 2 .h T p hV)
    (h1 : hL ≤ v) (h2 : v < hV) :
    mTh E W B (.scalar (shown E.a S W.mw .h v)) (some (.scalar p)) =
      .ok ([fromKelvin S.T.name T], [(v - hL) / (hV - hL)]) := by
  rw [mTh_shown hU hS hmw]
  unfold thElement thLow
  rw [if_pos hp, hT]
  dsimp only
  rw [hAt1 hd hR hT0 hp0 r1 hl, exOk, hAt2 hd hR hT0 hp0 r2 hv, exOk, if_neg (not_lt.mpr h1), if_pos h2]
  rfl

/-- **C88.** Liquid: the backward equation of region 1, below the saturation line or left of 623.15 K. -/
theorem C88_liquid (hU : Uses E S) (hS : BarKg S) (hd : GoodData W) (hB : GoodBack B) (hmw : W.mw ≠ 0)
    (hR : W.R ≠ 0) {p v : ℝ} (hp0 : p ≠ 0) (hr : Regular B.th1 (p / 10) (v / 2500 + 1))
    (h : (p < 165.292 ∧ ∃ T hL, Ts W p = some T ∧ T ≠ 0 ∧ RegularAt W 1 T p ∧ Derives W 1 .h T p hL ∧ v < hL) ∨
      (165.292 ≤ p ∧ p ≤ 1000 ∧ RegularAt W 1 623.15 p ∧ ∃ h13, Derives W 1 .h 623.15 p h13 ∧ v < h13)) :
    mTh E W B (.scalar (shown E.a S W.mw .h v)) (some (.scalar p)) =
      .ok ([fromKelvin S.T.name (polyAt B.th1 (p / 10) (v / 2500 + 1))], [-1]) := by
  rw [mTh_shown hU hS hmw]
  unfold thElement
  rcases h with ⟨hp, T, hL, hT, hT0, r1, hl, hlt⟩ | ⟨hp, hp2, r1, h13, hl, hlt⟩
  · rw [if_pos hp]
    unfold thLow
    rw [hT]
    dsimp only
    obtain ⟨k, hk⟩ := g2_ok hd T p 1
    rw [hAt1 hd hR hT0 hp0 r1 hl, exOk]
    simp only [hAt, hk, Except.map, exOk]
    rw [if_pos hlt]
    unfold th1
    rw [fit_poly hB.th1 hr]
  · rw [if_neg (not_lt.mpr hp), if_pos hp2]
    unfold thHigh
    rw [hAt1 hd hR (by norm_num) hp0 r1 hl, exOk, if_pos hlt]
    unfold th1
    rw [fit_poly hB.th1 hr]
    rfl

/-- **C88.** Vapour below 165.292 bar and the 1073.15 K isotherm: the backward equations of regions 2a (below 40
bar), 2c (above 45.257578905948 bar and left of the boundary curve) and 2b (otherwise). -/
theorem C88_vapour (hU : Uses E S) (hS : BarKg S) (hd : GoodData W) (hB : GoodBack B) (hmw : W.mw ≠ 0)
    (hR : W.R ≠ 0) {p T hV h25 v : ℝ} (hp0 : p ≠ 0) (hp : p < 165.292) (hT : Ts W p = some T) (hT0 : T ≠ 0)
    (r2 : RegularAt W 2 T p) (hv : Derives W 2 .h T p hV) (h1 : hV ≤ v)
    (hle : ∀ hL, Derives W 1 .h T p hL → hL ≤ hV) (r1 : RegularAt W 1 T p)
    (h5 : Derives W 5 .h 1073.15 p h25) :
    (p < 40 → v < h25 → Regular B.th2a (p / 10) (v / 2000 - 2.1) →
      mTh E W B (.scalar (shown E.a S W.mw .h v)) (some (.scalar p)) =
        .ok ([fromKelvin S.T.name (polyAt B.th2a (p / 10) (v / 2000 - 2.1))], [-1])) ∧
    (45.257578905948 < p → v < b2bc B p → Regular B.th2c (p / 10 + 25) (v / 2000 - 1.8) →
      mTh E W B (.scalar (shown E.a S W.mw .h v)) (some (.scalar p)) =
        .ok ([fromKelvin S.T.name (polyAt B.th2c (p / 10 + 25) (v / 2000 - 1.8))], [-1])) ∧
    (40 ≤ p → (p ≤ 45.257578905948 ∨ b2bc B p ≤ v) → v < h25 → Regular B.th2b (p / 10 - 2) (v / 2000 - 2.6) →
      mTh E W B (.scalar (shown E.a S W.mw .h v)) (some (.scalar p)) =
        .ok ([fromKelvin S.T.name (polyAt B.th2b (p / 10 - 2) (v / 2000 - 2.6))], [-1])) := by
  obtain ⟨g, e1, e2, -⟩ := derives1 hd.r1 .h hR hT0 hp0 r1
  have hk := hle _ e2
  have key : mTh E W B (.scalar (shown E.a S W.mw .h v)) (some (.scalar p)) =
      (thVapour W B v p).map (fun T => ([fromKelvin S.T.name T], [-1])) := by
    rw [mTh_shown hU hS hmw]
    unfold thElement thLow
    rw [if_pos hp, hT]
    dsimp only
    rw [hAt1 hd hR hT0 hp0 r1 e2, exOk, hAt2 hd hR hT0 hp0 r2 hv, exOk, if_neg (by linarith),
      if_neg (by linarith)]
    cases thVapour W B v p <;> rfl
  rw [key]
  unfold thVapour
  refine ⟨fun a b c => ?_, fun a b c => ?_, fun a b c d => ?_⟩
  · rw [if_pos a, hAt5 hd hR (by norm_num) hp0 h5, exOk, if_pos b]
    unfold th2a
    rw [fit_poly hB.th2a c]; rfl
  · rw [if_neg (by linarith), if_pos ⟨a, b⟩]
    unfold th2c
    rw [fit_poly hB.th2c c]; rfl
  · rw [if_neg (by linarith), if_neg (by
      rintro ⟨k1, k2⟩
      rcases b with b | b
      · linarith
      · linarith), hAt5 hd hR (by norm_num) hp0 h5, exOk, if_pos c]
    unfold th2b
    rw [fit_poly hB.th2b d]; rfl

/-! ## The iterations -/

theorem g5_orders (hd : GoodData W) (T p : ℝ) : ∃ g k, g5 W T p 2 = .ok g ∧ g5 W T p 1 = .ok k ∧
    k.j.py = g.j.py ∧ k.j.p = g.j.p ∧ k.t = 1000 / T := by
  obtain ⟨F, f1, -, -, f4⟩ := peval_does W.r5o hd.r5o
  obtain ⟨G, k1, -, -, k4⟩ := peval_does W.r5r hd.r5r
  unfold g5
  simp only [f1, k1, exOk]
  refine ⟨_, _, rfl, rfl, ?_, ?_, rfl⟩
  · rw [f4 1, k4 1]
    simp [addLog, Mp.J6.cut]
  · rw [f4 1, k4 1]
    simp [addLog, Mp.J6.cut]

theorem th5Loop_inv {hh p T : ℝ} {k : Nat} {t : ℝ} (h : th5Loop W hh p k t = .ok T) :
    ∃ t g, g5 W (1000 / t) p 2 = .ok g ∧ |g.j.py - hh| < 1e-6 * hh ∧ T = 1000 / t := by
  induction k generalizing t with
  | zero => cases h
  | succ k ih =>
    unfold th5Loop at h
    cases hg : g5 W (1000 / t) p 2 with
    | error e => rw [hg] at h; cases h
    | ok g =>
      rw [hg, exOk] at h
      dsimp only at h
      split_ifs at h with hc
      · cases h
        exact ⟨t, g, hg, hc, rfl⟩
      · exact ih h

/-- What region 5 returns solves the enthalpy equation to the relative tolerance 1e-6. -/
theorem th5_near (hd : GoodData W) (hR : 0 < W.R) {h p Ti T : ℝ} (hp : p ≠ 0) (ho : th5 W h p Ti = .ok T)
    (hT : T ≠ 0) : ∃ v, Derives W 5 .h T p v ∧ |v - h| < 1e-6 * h := by
  obtain ⟨t, g, h1, h2, rfl⟩ := th5Loop_inv ho
  obtain ⟨g', k, e1, e2, e3, -, e5⟩ := g5_orders hd (1000 / t) p
  rw [h1] at e1
  cases e1
  obtain ⟨m, m1, m2⟩ := derives5 hd .h hR.ne' hT hp (regular5 hT hp)
  rw [show Q.h.order = 1 from rfl, e2] at m1
  cases m1
  refine ⟨_, m2, ?_⟩
  have : Q.h.gibbs W.R (1000 / t) p k = 1000 * W.R * g.j.py := by
    have ht : t ≠ 0 := fun h0 => hT (by rw [h0, div_zero])
    simp only [Q.gibbs, e5, e3]
    field_simp
  rw [this]
  have hm : 1000 * W.R * g.j.py - h = 1000 * W.R * (g.j.py - h / W.R / 1000) := by
    field_simp
  rw [hm, abs_mul, abs_of_pos (by linarith)]
  have := mul_lt_mul_of_pos_left h2 (show 0 < 1000 * W.R by linarith)
  calc _ < _ := this
    _ = _ := by field_simp

theorem th3Loop_inv {pp hh T : ℝ} {k : Nat} {s : Iter3} (h : th3Loop W pp hh k s = .ok T) :
    ∃ n t r, pfromd W t n = .ok r ∧ T = W.Tc / t ∧
      (n * n * r.2.px / t - pp) ^ 2 + (n * r.2.px / t + r.2.py - hh) ^ 2 < 1e-10 := by
  induction k generalizing s with
  | zero => cases h
  | succ k ih =>
    unfold th3Loop at h
    cases hg : pfromd W s.t s.n with
    | error e => rw [hg] at h; cases h
    | ok r =>
      rw [hg, exOk] at h
      dsimp only at h
      split_ifs at h with h1 h2
      · cases h
        refine ⟨s.n, s.t, r, hg, rfl, ?_⟩
        rw [pow_two, pow_two]
        exact lt_of_lt_of_eq h1 (by norm_num)
      · exact ih h
      · cases hs : solve2 (s.n / s.t * (2 * r.2.px + s.n * r.2.pxx)) (s.n * s.n / s.t * (r.2.pxy - r.2.px / s.t))
          (r.2.pxy + (r.2.px + s.n * r.2.pxx) / s.t) (r.2.pyy + s.n / s.t * (r.2.pxy - r.2.px / s.t))
          (-(s.n * s.n * r.2.px / s.t - pp)) (-(s.n * r.2.px / s.t + r.2.py - hh)) with
        | error e => rw [hs] at h; cases h
        | ok dx => rw [hs, exOk] at h; exact ih h

/-- The state equation of region 3 with its derivatives, at any density but zero. -/
theorem pfromd_is (hW : Good3 W) (hTc : W.Tc ≠ 0) {n t : ℝ} (hn : n ≠ 0) (ht : t ≠ 0) :
    ∃ F, pfromd W t n = .ok (n * n * (phiJet W F n t).px, phiJet W F n t) ∧
      Is2 (helmholtz W) (W.Tc / t) (W.dc * n) (fullJet W.R W.Tc W.dc (phiJet W F) (W.Tc / t) (W.dc * n)) := by
  obtain ⟨F, k1, k2, k3, -⟩ := peval_does W.r3 hW.r3
  have hdc := hW.dc.ne'
  have hreg : ∀ n t : ℝ, n ≠ 0 → t ≠ 0 → Regular W.r3 n t := fun n t hn ht => ⟨Or.inl hn, Or.inl ht⟩
  have hV : IsOpen {a : ℝ × ℝ | a.1 ≠ 0 ∧ a.2 ≠ 0} :=
    (isOpen_ne_fun continuous_fst continuous_const).inter (isOpen_ne_fun continuous_snd continuous_const)
  refine ⟨F, by unfold pfromd; rw [k1]; rfl, ?_⟩
  refine is_full hdc hV (fun x y hxy => phiJet_jet hxy.1 (k2 x y (hreg x y hxy.1 hxy.2))) ?_ (by positivity) ?_
  · intro T d _ h
    show W.R * T * ((F 2 _ _).p + _) = _
    rw [k3 2 _ _ (hreg _ _ h.1 h.2), helmholtz]
    ring
  · refine ⟨?_, ?_⟩
    · show W.dc * n / W.dc ≠ 0
      rw [mul_div_cancel_left₀ _ hdc]; exact hn
    · show W.Tc / (W.Tc / t) ≠ 0
      positivity

/-- Temperature `T` and some density give pressure `p` and value `v` of the property by the Helmholtz energy,
to the tolerance of the code: the squares of the deviations in units of `P` and `V` add up to less than 1e-10. -/
def Matches3 (W : Water) (q : Q) (T p v P V : ℝ) : Prop :=
  ∃ d j, Is2 (helmholtz W) T d j ∧ ((pressureOf d j - p) / P) ^ 2 + ((fromHelm q T d j - v) / V) ^ 2 < 1e-10

theorem th3_near (hW : Good3 W) (hTc : 0 < W.Tc) {h p Ti T : ℝ} (hp : 1e-5 * (W.dc * W.R * W.Tc) ≤ p * 100)
    (ho : th3 W h p Ti = .ok T) (hT : T ≠ 0) :
    Matches3 W .h T p h (W.dc * W.R * W.Tc / 100) (W.R * W.Tc) := by
  obtain ⟨n, t, r, h1, rfl, h3⟩ := th3Loop_inv ho
  have ht : t ≠ 0 := fun h0 => hT (by rw [h0, div_zero])
  have hR := hW.R
  have hdc := hW.dc
  have hD : 0 < W.dc * W.R * W.Tc := by positivity
  have hn : n ≠ 0 := by
    rintro rfl
    have h4 : (1e-5 : ℝ) ≤ p * 1e2 / (W.dc * W.R * W.Tc) := by
      rw [le_div_iff₀ hD]; norm_num at hp ⊢; linarith
    have h5 : (0 * 0 * r.2.px / t - p * 1e2 / (W.dc * W.R * W.Tc)) ^ 2 = (p * 1e2 / (W.dc * W.R * W.Tc)) ^ 2 := by
      ring
    rw [h5] at h3
    have h6 := pow_le_pow_left₀ (by norm_num) h4 2
    norm_num at h6 h3
    nlinarith [sq_nonneg (r.2.py - h / (W.R * W.Tc))]
  obtain ⟨F, k1, k2⟩ := pfromd_is hW hTc.ne' hn ht
  rw [h1] at k1
  cases k1
  have hTT : W.Tc / t ≠ 0 := hT
  have hcc : W.Tc / (W.Tc / t) = t := by field_simp
  refine ⟨_, _, k2, ?_⟩
  have e1 := helm_pressure (R := W.R) (Tc := W.Tc) (T := W.Tc / t) (n := n) hdc.ne' (phiJet W F)
  have e2 := helm_value .h (R := W.R) (Tc := W.Tc) (T := W.Tc / t) (n := n) hR.ne' hTT hdc.ne' hn (phiJet W F)
  rw [hcc] at e1 e2
  rw [e1, ← e2]
  simp only [Q.helm]
  refine lt_of_eq_of_lt ?_ h3
  congr 1
  · congr 1
    field_simp
    norm_num
    ring
  · congr 1
    field_simp

theorem thHot_cases (hd : GoodData W) (hR : 0 < W.R) {v p h25 h5 : ℝ} (hp : p ≠ 0)
    (e5 : Derives W 5 .h 2273.15 p h5) :
    (h5 < v → thHot W v p h25 = .error .param) ∧
    (v ≤ h5 → thHot W v p h25 = .error .analysis ∨ ∃ T, thHot W v p h25 = .ok T ∧
      (T ≠ 0 → ∃ w, Derives W 5 .h T p w ∧ |w - v| < 1e-6 * v)) := by
  unfold thHot
  rw [hAt5 hd hR.ne' (by norm_num) hp e5, exOk]
  refine ⟨fun h => by rw [if_pos h], fun h => ?_⟩
  rw [if_neg (not_lt.mpr h)]
  cases ho : th5 W v p (1073.15 + (2273.15 - 1073.15) * (v - h25) / (h5 - h25)) with
  | ok T => exact Or.inr ⟨T, rfl, fun hT => th5_near hd hR hp ho hT⟩
  | error e =>
    left
    have : ∀ k hh t, th5Loop W hh p k t = .error e → e = .analysis := by
      intro k
      induction k with
      | zero => intro hh t h; cases h; rfl
      | succ k ih =>
        intro hh t h
        unfold th5Loop at h
        obtain ⟨g, hg⟩ := g5_ok hd (1000 / t) p 2
        rw [hg, exOk] at h
        dsimp only at h
        split_ifs at h with hc
        exact ih _ _ h
    rw [this _ _ _ ho]

/-- Enthalpies beyond those of the vapour equations, below 165.292 bar and between there and 500 bar. -/
inductive Beyond (S : Sys) (W : Water) (B : Back) (p v : ℝ) : Prop
  | low {T hL hV : ℝ} (hp : p < 165.292) (hT : Ts W p = some T) (hT0 : T ≠ 0) (r1 : RegularAt W 1 T p)
      (r2 : RegularAt W 2 T p) (hl : Derives W 1 .h T p hL) (hv : Derives W 2 .h T p hV) (h1 : hL ≤ v) (h2 : hV ≤ v)
      (hb : p < 40 ∨ p ≤ 45.257578905948 ∨ b2bc B p ≤ v)
  | high {h13 h23 : ℝ} (hp : 165.292 ≤ p) (hp2 : p < 500) (hval : Valid (kelvin S (b23T W p)) p)
      (r1 : RegularAt W 1 623.15 p) (r2 : RegularAt W 2 (b23T W p) p) (hT0 : b23T W p ≠ 0)
      (hl : Derives W 1 .h 623.15 p h13) (hv : Derives W 2 .h (b23T W p) p h23) (h1 : h13 ≤ v) (h2 : h23 ≤ v)
      (hb : b2bc B p ≤ v)

theorem stray (hU : Uses E S) (hS : BarKg S) (hd : GoodData W) (hmw : W.mw ≠ 0) {T p : ℝ}
    (hv : Valid (kelvin S T) p) :
    ∃ r, method E W .h (some (.scalar T)) (some (.scalar p)) none = .ok r := by
  have hbar : bar E.a S p = p := by
    have : size (Units.pressure E.a) S.p = 1e5 := by rw [hS.p]; rfl
    rw [bar, this]; norm_num
  obtain ⟨vs, h, -⟩ := (C60_range hU hd hmw .h (.scalar T) (.scalar p) (ts := [T]) (ps := [p]) rfl (by simp)).1 (by
    intro a ha
    simp at ha
    subst ha
    simp only [hbar]
    exact hv)
  exact ⟨_, h⟩

/-- **C88.** Region 5: above the highest enthalpy of the formulation the call is refused; below, it returns a
temperature whose enthalpy is the one given to the relative tolerance 1e-6, or reports that the iteration did
not converge.  (A temperature of zero stands for an infinite one.) -/
theorem C88_hot (hU : Uses E S) (hS : BarKg S) (hd : GoodData W) (hmw : W.mw ≠ 0) (hR : 0 < W.R)
    {p v h25 h5 : ℝ} (hp0 : p ≠ 0) (hz : Beyond S W B p v) (e25 : Derives W 5 .h 1073.15 p h25)
    (e5 : Derives W 5 .h 2273.15 p h5) (h : h25 ≤ v) :
    (h5 < v → mTh E W B (.scalar (shown E.a S W.mw .h v)) (some (.scalar p)) = .error .param) ∧
    (v ≤ h5 → mTh E W B (.scalar (shown E.a S W.mw .h v)) (some (.scalar p)) = .error .analysis ∨
      ∃ T, mTh E W B (.scalar (shown E.a S W.mw .h v)) (some (.scalar p)) = .ok ([fromKelvin S.T.name T], [-1]) ∧
        (T ≠ 0 → ∃ w, Derives W 5 .h T p w ∧ |w - v| < 1e-6 * v)) := by
  have key : mTh E W B (.scalar (shown E.a S W.mw .h v)) (some (.scalar p)) =
      (thHot W v p h25).map (fun T => ([fromKelvin S.T.name T], [-1])) := by
    rw [mTh_shown hU hS hmw]
    cases hz with
    | low hp hT hT0 r1 r2 hl hv h1 h2 hb =>
      unfold thElement thLow
      rw [if_pos hp, hT]
      dsimp only
      rw [hAt1 hd hR.ne' hT0 hp0 r1 hl, exOk, hAt2 hd hR.ne' hT0 hp0 r2 hv, exOk, if_neg (by linarith),
        if_neg (by linarith)]
      have : thVapour W B v p = thHot W v p h25 := by
        unfold thVapour
        by_cases h40 : p < 40
        · rw [if_pos h40, hAt5 hd hR.ne' (by norm_num) hp0 e25, exOk, if_neg (by linarith)]
        · rw [if_neg h40, if_neg, hAt5 hd hR.ne' (by norm_num) hp0 e25, exOk, if_neg (by linarith)]
          rintro ⟨k1, k2⟩
          rcases hb with hb | hb | hb <;> linarith
      rw [this]
      cases thHot W v p h25 <;> rfl
    | high hp hp2 hval r1 r2 hT0 hl hv h1 h2 hb =>
      obtain ⟨r, hr⟩ := stray hU hS hd hmw hval
      unfold thElement
      rw [if_neg (not_lt.mpr hp), if_pos (by linarith)]
      have : thHigh E W B v p = thHot W v p h25 := by
        unfold thHigh
        rw [hAt1 hd hR.ne' (by norm_num) hp0 r1 hl, exOk, if_neg (by linarith), hr, exOk,
          hAt2 hd hR.ne' hT0 hp0 r2 hv, exOk, if_neg (by linarith), if_neg (by linarith),
          hAt5 hd hR.ne' (by norm_num) hp0 e25, exOk, if_neg (by linarith), if_pos hp2]
      rw [this]
      cases thHot W v p h25 <;> rfl
  obtain ⟨c1, c2⟩ := thHot_cases (v := v) (h25 := h25) hd hR hp0 e5
  rw [key]
  refine ⟨fun h => by rw [c1 h]; rfl, fun h => ?_⟩
  rcases c2 h with e | ⟨T, e, k⟩
  · left; rw [e]; rfl
  · exact Or.inr ⟨T, by rw [e]; rfl, k⟩

/-- **C88.** From 165.292 to 1000 bar, right of the boundary with region 2: the backward equations of regions 2c
and 2b. -/
theorem C88_vapour_high (hU : Uses E S) (hS : BarKg S) (hd : GoodData W) (hB : GoodBack B) (hmw : W.mw ≠ 0)
    (hR : W.R ≠ 0) {p h13 h23 h25 v : ℝ} (hp : 165.292 ≤ p) (hp2 : p ≤ 1000)
    (hval : Valid (kelvin S (b23T W p)) p) (r1 : RegularAt W 1 623.15 p) (r2 : RegularAt W 2 (b23T W p) p)
    (hT0 : b23T W p ≠ 0) (hl : Derives W 1 .h 623.15 p h13) (hv : Derives W 2 .h (b23T W p) p h23)
    (h5 : Derives W 5 .h 1073.15 p h25) (h1 : h13 ≤ v) (h2 : h23 ≤ v) :
    (v < b2bc B p → Regular B.th2c (p / 10 + 25) (v / 2000 - 1.8) →
      mTh E W B (.scalar (shown E.a S W.mw .h v)) (some (.scalar p)) =
        .ok ([fromKelvin S.T.name (polyAt B.th2c (p / 10 + 25) (v / 2000 - 1.8))], [-1])) ∧
    (b2bc B p ≤ v → v < h25 → Regular B.th2b (p / 10 - 2) (v / 2000 - 2.6) →
      mTh E W B (.scalar (shown E.a S W.mw .h v)) (some (.scalar p)) =
        .ok ([fromKelvin S.T.name (polyAt B.th2b (p / 10 - 2) (v / 2000 - 2.6))], [-1])) := by
  have hp0 : p ≠ 0 := by linarith
  obtain ⟨r, hr⟩ := stray hU hS hd hmw hval
  rw [mTh_shown hU hS hmw]
  unfold thElement thHigh
  rw [if_neg (not_lt.mpr hp), if_pos hp2, hAt1 hd hR (by norm_num) hp0 r1 hl, exOk, if_neg (by linarith), hr, exOk,
    hAt2 hd hR hT0 hp0 r2 hv, exOk, if_neg (by linarith)]
  refine ⟨fun a b => ?_, fun a b c => ?_⟩
  · rw [if_pos a]
    unfold th2c
    rw [fit_poly hB.th2c b]; rfl
  · rw [if_neg (by linarith), hAt5 hd hR (by norm_num) hp0 h5, exOk, if_pos b]
    unfold th2b
    rw [fit_poly hB.th2b c]; rfl

/-- **C88.** Region 3: the temperature returned, with some density, matches pressure and enthalpy to the
tolerance of the iteration; otherwise the call reports that it did not converge, or `numpy` a singular matrix. -/
theorem C88_region3 (hU : Uses E S) (hS : BarKg S) (hd : GoodData W) (hW : Good3 W) (hTc : 0 < W.Tc)
    (hmw : W.mw ≠ 0) {p h13 h23 v : ℝ} (hp : 165.292 ≤ p) (hp2 : p ≤ 1000)
    (hpp : 1e-5 * (W.dc * W.R * W.Tc) ≤ p * 100)
    (hval : Valid (kelvin S (b23T W p)) p) (r1 : RegularAt W 1 623.15 p) (r2 : RegularAt W 2 (b23T W p) p)
    (hT0 : b23T W p ≠ 0) (hl : Derives W 1 .h 623.15 p h13) (hv : Derives W 2 .h (b23T W p) p h23)
    (h1 : h13 ≤ v) (h2 : v < h23) :
    mTh E W B (.scalar (shown E.a S W.mw .h v)) (some (.scalar p)) = .error .analysis ∨
    mTh E W B (.scalar (shown E.a S W.mw .h v)) (some (.scalar p)) = .error .exception ∨
      ∃ T, mTh E W B (.scalar (shown E.a S W.mw .h v)) (some (.scalar p)) = .ok ([fromKelvin S.T.name T], [-1]) ∧
        (T ≠ 0 → Matches3 W .h T p v (W.dc * W.R * W.Tc / 100) (W.R * W.Tc)) := by
  have hp0 : p ≠ 0 := by linarith
  have hR := hW.R.ne'
  obtain ⟨r, hr⟩ := stray hU hS hd hmw hval
  rw [mTh_shown hU hS hmw]
  unfold thElement thHigh
  rw [if_neg (not_lt.mpr hp), if_pos hp2, hAt1 hd hR (by norm_num) hp0 r1 hl, exOk, if_neg (by linarith), hr, exOk,
    hAt2 hd hR hT0 hp0 r2 hv, exOk, if_pos h2]
  cases ho : th3 W v p (623.15 + (b23T W p - 623.15) * (v - h13) / (h23 - h13)) with
  | ok T => exact Or.inr (Or.inr ⟨T, rfl, fun hT => th3_near hW hTc hpp ho hT⟩)
  | error e =>
    have : ∀ k pp hh s, th3Loop W pp hh k s = .error e → e = .analysis ∨ e = .exception := by
      intro k
      induction k with
      | zero => intro pp hh s h; cases h; exact Or.inl rfl
      | succ k ih =>
        intro pp hh s h
        unfold th3Loop at h
        obtain ⟨F, f1, -⟩ := peval_does W.r3 hd.r3
        have : ∃ w, pfromd W s.t s.n = .ok w := by
          unfold pfromd; rw [f1]; exact ⟨_, rfl⟩
        obtain ⟨w, hw⟩ := this
        rw [hw, exOk] at h
        dsimp only at h
        split_ifs at h with q1 q2
        · exact ih _ _ _ h
        · unfold solve2 at h
          split_ifs at h with q3
          · cases h; exact Or.inr rfl
          · rw [exOk] at h
            exact ih _ _ _ h
    rcases this _ _ _ _ ho with rfl | rfl
    · exact Or.inl rfl
    · exact Or.inr (Or.inl rfl)

/-- **C88.** Above 1000 bar the call is refused, whatever the enthalpy. -/
theorem C88_refused (hU : Uses E S) (hmw : W.mw ≠ 0) {p : ℝ} (hp : 1000 < p) (h : ℝ) :
    mTh E W B (.scalar h) (some (.scalar p)) = .error .param := by
  rw [mTh_one hU hmw]
  unfold thElement
  rw [if_neg (by linarith), if_neg (by linarith)]
  rfl

/-! ## Round trips -/

theorem bar_bar (hS : S.p = "bar") (p : ℝ) : bar E.a S p = p := by
  have : size (Units.pressure E.a) S.p = 1e5 := by rw [hS]; rfl
  rw [bar, this]; norm_num

theorem h_mixture (hU : Uses E S) (hS : S.p = "bar") (hd : GoodData W) (hmw : W.mw ≠ 0) (hR : W.R ≠ 0)
    {q : Q} (hq : q ≠ .s ∨ S.T = .K ∨ S.T = .C) {p T x : ℝ} (hp0 : p ≠ 0) (hT : Ts W p = some T) (hT0 : T ≠ 0)
    (r1 : RegularAt W 1 T p) (r2 : RegularAt W 2 T p) (hx : 0 ≤ x) :
    ∃ v vL vV, method E W q none (some (.scalar p)) (some (.scalar x)) = .ok [some (shown E.a S W.mw q v)] ∧
      Derives W 1 q T p vL ∧ Derives W 2 q T p vV ∧ Lever q x v vL vV := by
  obtain ⟨v, vL, vV, e1, e2, e3, e4⟩ := mixed_lever hd q (x := x) hR hT0 hp0 r1 r2
  refine ⟨v, vL, vV, ?_, e2, e3, e4⟩
  rw [method_eq hU hmw q none (some (.scalar p)) (some (.scalar x)) (nditer_p1 (p := [p]) (by simp) _ x)]
  simp only [List.map_cons, List.map_nil, List.mapM_cons, List.mapM_nil, element, bar_bar hS, not_lt.mpr hx, if_false,
    Option.isNone_none, if_true, hT, e1]
  rw [← factor_shown hU]
  · rfl
  · rcases hq with hq | hq
    · exact Or.inl hq
    · exact Or.inr (size_18 hq)

/-- **C88.** Round trip: `T_h` gives the saturation temperature and the quality back from the enthalpy of a
mixture of liquid and vapour and its pressure. -/
theorem C88_roundtrip_mixture (hU : Uses E S) (hS : BarKg S) (hd : GoodData W) (hmw : W.mw ≠ 0) (hR : W.R ≠ 0)
    {p T hL hV x : ℝ} (hp0 : p ≠ 0) (hp : p < 165.292) (hT : Ts W p = some T) (hT0 : T ≠ 0)
    (r1 : RegularAt W 1 T p) (r2 : RegularAt W 2 T p) (hl : Derives W 1 .h T p hL) (hv : Derives W 2 .h T p hV)
    (hlt : hL < hV) (hx : 0 ≤ x) (hx1 : x < 1) :
    ∃ h, method E W .h none (some (.scalar p)) (some (.scalar x)) = .ok [some h] ∧
      mTh E W B (.scalar h) (some (.scalar p)) = .ok ([fromKelvin S.T.name T], [x]) := by
  obtain ⟨v, vL, vV, e1, e2, e3, e4⟩ := h_mixture hU hS.p hd hmw hR (q := .h) (Or.inl (by simp)) hp0 hT hT0 r1 r2 hx
  have k1 := derives_h_unique hl e2
  have k2 := derives_h_unique hv e3
  subst k1 k2
  have hx' : v = x * hV + (1 - x) * hL := by
    simp only [Lever] at e4
    linarith
  have h3 : 0 < hV - hL := sub_pos.mpr hlt
  refine ⟨_, e1, ?_⟩
  rw [C88_mixture hU hS hd hmw hR hp0 hp hT hT0 r1 r2 hl hv (by rw [hx']; nlinarith) (by rw [hx']; nlinarith), hx']
  congr 3
  field_simp
  ring

/-- The value of a call on a state outside region 3. -/
theorem h_state (hU : Uses E S) (hS : S.p = "bar") (hd : GoodData W) (hmw : W.mw ≠ 0) (hR : W.R ≠ 0)
    {q : Q} (hq : q ≠ .s ∨ S.T = .K ∨ S.T = .C) {t p : ℝ} {r : Nat} (hr : r ≠ 3) (hin : InRegion W r (kelvin S t) p)
    (hT0 : kelvin S t ≠ 0) (hp0 : p ≠ 0) (hreg : RegularAt W r (kelvin S t) p) :
    ∃ v, method E W q (some (.scalar t)) (some (.scalar p)) none = .ok [some (shown E.a S W.mw q v)] ∧
      Derives W r q (kelvin S t) p v := by
  obtain ⟨v, h3, h4⟩ := single_derives hd q hr hR hT0 hp0 hreg hin
  refine ⟨v, ?_, h4⟩
  rw [states_eq hU hmw q (.scalar t) (.scalar p) (ts := [t]) (ps := [p]) rfl (by simp)]
  simp only [List.zip_cons_cons, List.zip_nil_right, List.mapM_cons, List.mapM_nil, bar_bar hS, h3]
  rw [← factor_shown hU]
  · rfl
  · rcases hq with hq | hq
    · exact Or.inl hq
    · exact Or.inr (size_18 hq)

/-- **C88.** Round trip in region 5, where the enthalpy increases with temperature: the temperature returned has
the enthalpy of the state to the tolerance 1e-6, or the iteration did not converge. -/
theorem C88_roundtrip_hot (hU : Uses E S) (hS : BarKg S) (hd : GoodData W) (hmw : W.mw ≠ 0) (hR : 0 < W.R)
    {t p v : ℝ} (hp0 : 0 < p) (hin : InRegion W 5 (kelvin S t) p) (hv : Derives W 5 .h (kelvin S t) p v)
    (hz : Beyond S W B p v)
    (hmono : ∀ T1 T2 v1 v2, 1073.15 ≤ T1 → T1 ≤ T2 → T2 ≤ 2273.15 → Derives W 5 .h T1 p v1 →
      Derives W 5 .h T2 p v2 → v1 ≤ v2) :
    ∃ h, method E W .h (some (.scalar t)) (some (.scalar p)) none = .ok [some h] ∧
      (mTh E W B (.scalar h) (some (.scalar p)) = .error .analysis ∨
        ∃ T, mTh E W B (.scalar h) (some (.scalar p)) = .ok ([fromKelvin S.T.name T], [-1]) ∧
          (T ≠ 0 → ∃ w, Derives W 5 .h T p w ∧ |w - v| < 1e-6 * v)) := by
  have hT : 1073.15 < kelvin S t ∧ kelvin S t ≤ 2273.15 := ⟨hin.1, hin.2.1⟩
  obtain ⟨v', e1, e2⟩ := h_state hU hS.p hd hmw hR.ne' (q := .h) (Or.inl (by simp)) (r := 5) (by norm_num) hin
    (by linarith) hp0.ne' (regular5 (by linarith) hp0.ne')
  have := derives_h_unique e2 hv
  subst this
  obtain ⟨g, -, k1⟩ := derives5 hd .h hR.ne' (T := 1073.15) (by norm_num) hp0.ne' (regular5 (by norm_num) hp0.ne')
  obtain ⟨g', -, k2⟩ := derives5 hd .h hR.ne' (T := 2273.15) (by norm_num) hp0.ne' (regular5 (by norm_num) hp0.ne')
  refine ⟨_, e1, ?_⟩
  exact (C88_hot hU hS hd hmw hR hp0.ne' hz k1 k2 (hmono _ _ _ _ (le_refl _) (by linarith) (by linarith) k1 hv)).2
    (hmono _ _ _ _ (by linarith) (by linarith) (le_refl _) hv k2)

/-- **C88**, liquid below the saturation pressure's enthalpy: the round trip is as accurate as the backward
equation.  Missing: that the coefficients of the report make it accurate to 25 mK. -/
theorem C88_roundtrip_liquid_partial (hU : Uses E S) (hS : BarKg S) (hd : GoodData W) (hB : GoodBack B)
    (hmw : W.mw ≠ 0) (hR : W.R ≠ 0) {t p v ε : ℝ} (hp0 : p ≠ 0) (hin : InRegion W 1 (kelvin S t) p)
    (hT0 : kelvin S t ≠ 0) (hreg : RegularAt W 1 (kelvin S t) p) (hv : Derives W 1 .h (kelvin S t) p v)
    (hr : Regular B.th1 (p / 10) (v / 2500 + 1))
    (hacc : |polyAt B.th1 (p / 10) (v / 2500 + 1) - kelvin S t| ≤ ε)
    (h : (p < 165.292 ∧ ∃ T hL, Ts W p = some T ∧ T ≠ 0 ∧ RegularAt W 1 T p ∧ Derives W 1 .h T p hL ∧ v < hL) ∨
      (165.292 ≤ p ∧ p ≤ 1000 ∧ RegularAt W 1 623.15 p ∧ ∃ h13, Derives W 1 .h 623.15 p h13 ∧ v < h13)) :
    ∃ h t', method E W .h (some (.scalar t)) (some (.scalar p)) none = .ok [some h] ∧
      mTh E W B (.scalar h) (some (.scalar p)) = .ok ([t'], [-1]) ∧ |kelvin S t' - kelvin S t| ≤ ε := by
  obtain ⟨v', e1, e2⟩ := h_state hU hS.p hd hmw hR (q := .h) (Or.inl (by simp)) (r := 1) (by norm_num) hin hT0 hp0 hreg
  have := derives_h_unique e2 hv
  subst this
  refine ⟨_, _, e1, C88_liquid hU hS hd hB hmw hR hp0 hr h, ?_⟩
  rw [show kelvin S (fromKelvin S.T.name (polyAt B.th1 (p / 10) (v' / 2500 + 1))) =
    polyAt B.th1 (p / 10) (v' / 2500 + 1) from to_from S.T _]
  exact hacc

/-! ## Other units -/

/-- **C88 disagreement.** `T_h` does not convert pressures: with pressures in Pa every pressure above 1000 Pa is
refused, whatever the enthalpy, though `h` answers there. -/
theorem C88_pressure_defect (hU : Uses E S) (hS : S.p = "Pa") (hd : GoodData W) (hmw : W.mw ≠ 0) {t p : ℝ}
    (hp : 1000 < p) (hp2 : p ≤ 5e7) (ht : kelvin S t ≤ 2273.15) :
    ∃ h, method E W .h (some (.scalar t)) (some (.scalar p)) none = .ok [some h] ∧
      mTh E W B (.scalar h) (some (.scalar p)) = .error .param := by
  have hbar : bar E.a S p = p / 1e5 := by
    have : size (Units.pressure E.a) S.p = 1 := by rw [hS]; rfl
    rw [bar, this]; ring
  obtain ⟨vs, h3, h4⟩ := (C60_range hU hd hmw .h (.scalar t) (.scalar p) (ts := [t]) (ps := [p]) rfl (by simp)).1
    (by
      intro a ha
      simp at ha
      subst ha
      simp only [hbar]
      refine ⟨by positivity, Or.inr ⟨ht, ?_⟩⟩
      rw [div_le_iff₀ (by norm_num)]
      norm_num at hp2 ⊢
      linarith)
  match vs, h4 with
  | [h], _ => exact ⟨h, h3, C88_refused hU hmw hp h⟩

theorem fac_shown (hU : Uses E S) (hmw : W.mw ≠ 0) (v : ℝ) :
    shown E.a S W.mw .h v * hFac E S W = v * (msize E.a W.mw S.m * W.mw) ^ 2 := by
  have h1 := es_ne hU
  simp only [shown, kind, inUnitsKg, inUnits, perKmol, hFac]
  field_simp

/-- **C88 disagreement.** With an amount of matter other than kg, the enthalpy of a mixture of liquid and vapour
is not read in its units, and the answer is never temperature and quality of the mixture. -/
theorem C88_matter_defect (hU : Uses E S) (hS : S.p = "bar") (hd : GoodData W) (hmw : 0 < W.mw) (hR : W.R ≠ 0)
    (hm : msize E.a W.mw S.m * W.mw ≠ 1) (hmp : 0 < msize E.a W.mw S.m)
    {p T hL hV x v : ℝ} (hp0 : p ≠ 0) (hp : p < 165.292) (hT : Ts W p = some T) (hT0 : T ≠ 0)
    (r1 : RegularAt W 1 T p) (r2 : RegularAt W 2 T p) (hl : Derives W 1 .h T p hL) (hv : Derives W 2 .h T p hV)
    (hlt : hL < hV) (hx : 0 ≤ x) (hxv : v = (1 - x) * hL + x * hV) (hv0 : v ≠ 0) :
    ∃ h, method E W .h none (some (.scalar p)) (some (.scalar x)) = .ok [some h] ∧
      mTh E W B (.scalar h) (some (.scalar p)) ≠ .ok ([fromKelvin S.T.name T], [x]) := by
  obtain ⟨v', vL, vV, e1, e2, e3, e4⟩ := h_mixture hU hS hd hmw.ne' hR (q := .h) (Or.inl (by simp)) hp0 hT hT0 r1 r2 hx
  have k1 := derives_h_unique hl e2
  have k2 := derives_h_unique hv e3
  subst k1 k2
  have hx' : v' = v := by
    simp only [Lever] at e4
    linarith
  subst hx'
  refine ⟨_, e1, fun hc => ?_⟩
  rw [mTh_one hU hmw.ne', fac_shown hU hmw.ne'] at hc
  set k := msize E.a W.mw S.m * W.mw with hk
  have hkp : 0 < k := mul_pos hmp hmw
  have hk2 : k ^ 2 ≠ 1 := by
    intro h0
    rcases (pow_eq_one_iff_of_ne_zero (n := 2) (by norm_num)).mp h0 with h1 | h1
    · exact hm h1
    · linarith [h1.1]
  have hne : v' * k ^ 2 ≠ v' := by
    intro h0
    exact hk2 (mul_left_cancel₀ hv0 (by rw [h0, mul_one]))
  have neg : ∀ r : Except Err ℝ, ((r.map (fun T => (T, (-1 : ℝ)))).map
      (fun w => ([fromKelvin S.T.name w.1], [w.2]))) ≠ .ok ([fromKelvin S.T.name T], [x]) := by
    intro r h0
    cases r with
    | error e => cases h0
    | ok w =>
      have := congrArg Prod.snd (Except.ok.inj h0)
      simp only [List.cons.injEq, and_true] at this
      linarith
  unfold thElement thLow at hc
  rw [if_pos hp, hT] at hc
  dsimp only at hc
  rw [hAt1 hd hR hT0 hp0 r1 hl, exOk, hAt2 hd hR hT0 hp0 r2 hv, exOk] at hc
  split_ifs at hc with c1 c2
  · exact neg _ hc
  · have := congrArg Prod.snd (Except.ok.inj hc)
    simp only [List.cons.injEq, and_true] at this
    have h3 : 0 < hV - hL := sub_pos.mpr hlt
    rw [div_eq_iff h3.ne'] at this
    apply hne
    linarith
  · exact neg _ hc

/-- **C88 disagreement.** At exactly 500 bar `h` answers above 1073.15 K, but `T_h` refuses these enthalpies. -/
theorem C88_limit_defect (hU : Uses E S) (hS : BarKg S) (hd : GoodData W) (hmw : W.mw ≠ 0) (hR : W.R ≠ 0)
    {t v h13 h23 h25 : ℝ} (hin : InRegion W 5 (kelvin S t) 500) (hv : Derives W 5 .h (kelvin S t) 500 v)
    (hval : Valid (kelvin S (b23T W 500)) 500) (r1 : RegularAt W 1 623.15 500)
    (r2 : RegularAt W 2 (b23T W 500) 500) (hT0 : b23T W 500 ≠ 0)
    (e1 : Derives W 1 .h 623.15 500 h13) (e2 : Derives W 2 .h (b23T W 500) 500 h23)
    (e3 : Derives W 5 .h 1073.15 500 h25) (h1 : h13 ≤ v) (h2 : h23 ≤ v) (h3 : h25 ≤ v) (h4 : b2bc B 500 ≤ v) :
    ∃ h, method E W .h (some (.scalar t)) (some (.scalar 500)) none = .ok [some h] ∧
      mTh E W B (.scalar h) (some (.scalar 500)) = .error .param := by
  have hT : 1073.15 < kelvin S t := hin.1
  obtain ⟨v', f1, f2⟩ := h_state hU hS.p hd hmw hR (q := .h) (Or.inl (by simp)) (r := 5) (by norm_num) hin
    (by linarith) (by norm_num) (regular5 (by linarith) (by norm_num))
  have := derives_h_unique f2 hv
  subst this
  obtain ⟨r, hr⟩ := stray hU hS hd hmw hval
  refine ⟨_, f1, ?_⟩
  rw [mTh_shown hU hS hmw]
  unfold thElement thHigh
  rw [if_neg (by norm_num), if_pos (by norm_num), hAt1 hd hR (by norm_num) (by norm_num) r1 e1, exOk,
    if_neg (by linarith), hr, exOk, hAt2 hd hR hT0 (by norm_num) r2 e2, exOk, if_neg (by linarith),
    if_neg (by linarith), hAt5 hd hR (by norm_num) (by norm_num) e3, exOk, if_neg (by linarith),
    if_neg (by norm_num)]
  rfl

end

end PyroMat.If97.Props
