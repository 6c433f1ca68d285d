import Verif.Float.PropsSat
import Verif.Float.ShippedResidual
import Verif.Shipped.MpGood

/-!
# The saturation curves of the shipped substances in double precision
-/

set_option linter.unusedSimpArgs false

namespace PyroMat.Shipped

open PyroMat.Gas PyroMat.Mp PyroMat.Mp.Spec PyroMat.Shipped.Data PyroMat.Float PyroMat.Float.Spec PyroMat.Float.Props

/-- The largest exponent inside. -/
def inner (s : SatFile) : Nat := (s.coef.flatMap fun g => g.terms.map (·.1)).foldl max 0

/-- A bound on the exponents outside. -/
def outer (s : SatFile) : Nat :=
  (s.coef.flatMap fun g => [g.pre, g.post]).foldl (fun a d => max a ((sc20 d).toNat / 10 ^ 20 + 1)) 1

/-- The sizes of the terms, in units of `10^-20 1000^-40`. -/
def sizes (X : Nat) (ts : List (Int × Int)) : Int := (ts.map fun t => |t.2| * wt X (t.1 / 10 ^ 20).toNat).sum

/-- A bound on the argument of the exponential. -/
def argument (f : MpFile) (s : SatFile) : Nat :=
  if s.fn ≤ 1 then 0
  else (sizes (reach f) (flat s.coef) * 1000 / (10 ^ 20 * 1000 ^ 40 * (1000 - reach f))).toNat + 1

/-- The checks of a curve. -/
def okCurve (f : MpFile) (s : SatFile) : Bool :=
  s.coef.all (fun g => g.terms.all (fun t => decide (t.1 ≤ inner s)) && atMost (outer s) g.pre && atMost (outer s) g.post) &&
    decide (1 ≤ outer s) &&
    (decide (s.fn ≤ 1) || decide (sizes (reach f) (flat s.coef) * 1000 ≤ argument f s * (10 ^ 20 * 1000 ^ 40 * (1000 - reach f)))) &&
    decide (satRoundings (inner s) (outer s) 1 (argument f s) s.coef.length ≤ 92000)

theorem curves_ok : shippedMp.all (fun f => decide (reach f < 1000) &&
    decide (1000 * (sc20 f.Tc - sc20 f.Tt) ≤ reach f * sc20 f.Tc) &&
    okCurve f f.ps && okCurve f f.dsl && okCurve f f.dsv) = true := by decide +kernel

/-- The sizes of the terms add up over the flattened list. -/
theorem size0_flat (gs : List G1) (h : gs.all okG = true) {x : ℝ} (hx : 0 ≤ x) :
    size0 (gs.map G1.group) x = ((flat gs).map fun t => |cf t| * x ^ xp t).sum := by
  induction gs with
  | nil => simp [size0, flat]
  | cons g gs ih =>
    simp only [List.all_cons, Bool.and_eq_true] at h
    have hg := h.1
    simp only [okG, Bool.and_eq_true, decide_eq_true_eq, List.all_eq_true] at hg
    obtain ⟨⟨⟨⟨h1, h2⟩, h3⟩, h4⟩, h5⟩ := hg
    have ih := ih h.2
    simp only [size0, flat, List.map_cons, List.sum_cons, List.flatMap_cons, List.map_append,
      List.sum_append] at ih ⊢
    rw [ih]
    congr 1
    simp only [G1.group, List.map_map, ← List.sum_map_mul_left]
    congr 1
    refine List.map_congr_left fun t ht => ?_
    simp only [Function.comp, cf, xp]
    have e1 := sc20_val h1
    have e2 := sc20_val h2
    have e3 := sc20_val (h5 t ht)
    have p1 : 0 ≤ g.pre.val := div_nonneg (by exact_mod_cast h3) (by positivity)
    have p2 : 0 ≤ g.post.val := div_nonneg (by exact_mod_cast h4) (by positivity)
    have e4 : (((sc20 g.pre * (t.1 : Int) + sc20 g.post : Int) : ℝ)) / 10 ^ 20
        = g.post.val + g.pre.val * (t.1 : ℝ) := by
      rw [e1, e2]; push_cast; ring
    rw [e4, Real.rpow_add_of_nonneg hx p2 (by positivity), Real.rpow_mul hx, Real.rpow_natCast, e3]
    ring

/-- A bound on the sizes by integer arithmetic. -/
theorem size0_le (gs : List G1) (h : gs.all okG = true) (hp : (flat gs).all (fun t => decide (0 ≤ t.1)) = true) {X : Nat}
    (hX : X ≤ 1000) {x : ℝ} (hx : 0 < x) (hxX : x ≤ X / 1000) :
    size0 (gs.map G1.group) x ≤ sizes X (flat gs) / (10 ^ 20 * 1000 ^ 40) := by
  rw [size0_flat gs h hx.le]
  generalize flat gs = ts at hp
  unfold sizes
  induction ts with
  | nil => simp
  | cons t ts ih =>
    simp only [List.all_cons, Bool.and_eq_true, decide_eq_true_eq] at hp
    simp only [List.map_cons, List.sum_cons]
    push_cast
    rw [add_div]
    push_cast at ih
    refine add_le_add ?_ (ih hp.2)
    have := rpow_le_wt hX hx hxX hp.1
    unfold cf xp
    rw [abs_div, abs_of_pos (by positivity : (0 : ℝ) < 10 ^ 20), mul_div_mul_comm]
    exact mul_le_mul_of_nonneg_left this (by positivity)

/-- The argument of the exponential. -/
theorem argument_bound (f : MpFile) (s : SatFile) (ok : SatOk f s) (hs : okSat f s = true) (hreach : reach f < 1000)
    (c3 : s.fn ≤ 1 ∨ sizes (reach f) (flat s.coef) * 1000 ≤ argument f s * (10 ^ 20 * 1000 ^ 40 * (1000 - reach f)))
    {t : ℝ} (t0 : 0 < t) (t1 : t < 1) (hx : 1 - t ≤ (reach f : ℝ) / 1000) :
    argSize s.group.fn s.group.coef t ≤ argument f s := by
  show argSize s.fn (s.coef.map G1.group) t ≤ _
  rcases c3 with h | h
  · have : s.fn = 0 ∨ s.fn = 1 := by omega
    rcases this with e | e <;> rw [e] <;> simp [argSize]
  · have hs2 := hs
    simp only [okSat, Bool.and_eq_true] at hs2
    have hle := size0_le s.coef ok.ok hs2.2 hreach.le (x := 1 - t) (by linarith) hx
    have hR : (0 : ℝ) < 1000 - reach f := by
      have : (reach f : ℝ) < 1000 := by exact_mod_cast hreach
      linarith
    have h' : ((sizes (reach f) (flat s.coef) * 1000 : Int) : ℝ) ≤
        ((argument f s * (10 ^ 20 * 1000 ^ 40 * (1000 - reach f)) : Int) : ℝ) := by exact_mod_cast h
    push_cast at h'
    have key : size0 (s.coef.map G1.group) (1 - t) ≤ argument f s * ((1000 - reach f) / 1000) := by
      refine hle.trans ?_
      rw [div_le_iff₀ (by positivity)]
      have : (argument f s : ℝ) * ((1000 - reach f) / 1000) * (10 ^ 20 * 1000 ^ 40)
          = argument f s * (10 ^ 20 * 1000 ^ 40 * (1000 - reach f)) / 1000 := by ring
      rw [this, le_div_iff₀ (by norm_num)]
      exact h'.trans_eq (by ring)
    have hR1 : (1000 - (reach f : ℝ)) / 1000 ≤ t := by
      have : (1000 - (reach f : ℝ)) / 1000 = 1 - reach f / 1000 := by ring
      rw [this]; linarith
    have a0 : (0 : ℝ) ≤ argument f s := Nat.cast_nonneg _
    have k2 : size0 (s.coef.map G1.group) (1 - t) ≤ argument f s * t := key.trans (mul_le_mul_of_nonneg_left hR1 a0)
    match h : s.fn with
    | 0 => simp [argSize]
    | 1 => simp [argSize]
    | 2 =>
      simp only [argSize]
      nlinarith
    | n + 3 =>
      simp only [argSize]
      rw [div_le_iff₀ t0]
      exact k2
/-- The number of roundings grows no faster than the loss of digits. -/
theorem roundings_grow (n w Q M l : Nat) (hQ1 : 1 ≤ Q) : satRoundings n w Q M l ≤ Q * satRoundings n w 1 M l := by
  unfold satRoundings
  have : (n + 1) * (6 * Q * w + 3) + 6 * Q * w + 6 + l ≤ Q * ((n + 1) * (6 * 1 * w + 3) + 6 * 1 * w + 6 + l) := by
    nlinarith [Nat.mul_le_mul_right (3 * (n + 1) + 6 + l) hQ1]
  nlinarith [Nat.mul_le_mul_right (2 * (M + 1)) this]

/-- What the checks of a curve say, for every temperature from the triple point to just below the critical point. -/
theorem curve_off (f : MpFile) (hf : f ∈ shippedMp) (s : SatFile) (hs : okSat f s = true) (hc : okCurve f s = true) (T : ℝ)
    (hT : f.Tt.val ≤ T) (hT' : T ≤ (1 - 1e-7) * f.Tc.val) :
    ∃ y, satCurve double pow53 exp53 s.group T = .ok y ∧
      |y - (satVal s T).1| ≤ 2.1e-11 * (f.Tc.val / (f.Tc.val - T)) * (s.scale.val * satSize s.fn s.group.coef (T / f.Tc.val)) := by
  have hr := List.all_eq_true.mp curves_ok f hf
  simp only [Bool.and_eq_true, decide_eq_true_eq] at hr
  obtain ⟨⟨⟨⟨hreach, hX⟩, -⟩, -⟩, -⟩ := hr
  have hb := basics_checked f hf
  simp only [basics, Bool.and_eq_true, decide_eq_true_eq] at hb
  have ok := satOk hs
  have hTt20 : f.Tt.e ≤ 20 := by tauto
  have hTc20 : f.Tc.e ≤ 20 := by tauto
  have hTt0 : 0 < sc20 f.Tt := by tauto
  have hTtTc : sc20 f.Tt < sc20 f.Tc := by tauto
  have p20 : (0 : ℝ) < 10 ^ 20 := by positivity
  have hTtp : 0 < f.Tt.val := by rw [sc20_val hTt20]; exact div_pos (by exact_mod_cast hTt0) p20
  have hTcp : 0 < f.Tc.val := by
    rw [sc20_val hTc20]; exact div_pos (by exact_mod_cast hTt0.trans hTtTc) p20
  have hT0 : 0 < T := hTtp.trans_le hT
  have hTlt : T < f.Tc.val := by nlinarith
  set Tc := f.Tc.val with hTc
  set t := T / Tc with ht
  have t0 : 0 < t := div_pos hT0 hTcp
  have t1 : t < 1 := (div_lt_one hTcp).mpr hTlt
  have hx : 1 - t ≤ (reach f : ℝ) / 1000 := by
    have h : 1 - f.Tt.val / Tc ≤ (reach f : ℝ) / 1000 := by
      have hX' : ((1000 * (sc20 f.Tc - sc20 f.Tt) : Int) : ℝ) ≤ ((reach f * sc20 f.Tc : Int) : ℝ) := by exact_mod_cast hX
      push_cast at hX'
      rw [← sub_nonneg]
      have : (reach f : ℝ) / 1000 - (1 - f.Tt.val / Tc) = (reach f * Tc - 1000 * (Tc - f.Tt.val)) / (1000 * Tc) := by
        field_simp
      rw [this]
      refine div_nonneg ?_ (by positivity)
      rw [hTc, sc20_val hTc20, sc20_val hTt20, ← sub_div, ← mul_div_assoc, ← mul_div_assoc, ← sub_div]
      exact div_nonneg (by linarith) p20.le
    have := div_le_div_of_nonneg_right hT hTcp.le
    rw [← ht] at this
    linarith
  simp only [okCurve, Bool.and_eq_true, decide_eq_true_eq, Bool.or_eq_true] at hc
  obtain ⟨⟨⟨c1, c2⟩, c3⟩, c4⟩ := hc
  have hgrp : ∀ q ∈ s.group.coef, (|q.pre| ≤ outer s ∧ |q.post| ≤ outer s) ∧ ∀ u ∈ q.terms, u.1 ≤ inner s := by
    intro q hq
    simp only [SatFile.group, List.mem_map] at hq
    obtain ⟨g, hg, rfl⟩ := hq
    have h := List.all_eq_true.mp c1 g hg
    simp only [Bool.and_eq_true] at h
    refine ⟨⟨by exact_mod_cast atMost_abs h.1.2, by exact_mod_cast atMost_abs h.2⟩, ?_⟩
    intro u hu
    simp only [G1.group, List.mem_map] at hu
    obtain ⟨u, hu, rfl⟩ := hu
    simpa using List.all_eq_true.mp h.1.1 u hu
  have hM := argument_bound f s ok hs hreach c3 t0 t1 hx
  set x := Tc / (Tc - T) with hxd
  have hdiff : 0 < Tc - T := by linarith
  have x1 : 1 ≤ x := by rw [hxd, le_div_iff₀ hdiff]; linarith
  have xbig : x ≤ 1e7 := by
    rw [hxd, div_le_iff₀ hdiff]
    nlinarith
  set Q := ⌈(Tc + T) / (Tc - T)⌉₊ with hQd
  have hQ : Tc + T ≤ Q * (Tc - T) := by
    have := Nat.le_ceil ((Tc + T) / (Tc - T))
    rwa [div_le_iff₀ hdiff] at this
  have hQx : (Q : ℝ) ≤ 2 * x := by
    have h := (Nat.ceil_lt_add_one (div_nonneg (by linarith : 0 ≤ Tc + T) hdiff.le)).le
    have e : (Tc + T) / (Tc - T) + 1 = 2 * x := by rw [hxd]; field_simp; ring
    rw [e] at h
    exact h
  have hQ1 : 1 ≤ Q := by
    rcases Nat.eq_zero_or_pos Q with h | h
    · rw [h] at hQ; norm_num at hQ; linarith
    · exact h
  set N := satRoundings (inner s) (outer s) Q (argument f s) s.group.coef.length with hNd
  have hNQ : N ≤ Q * 92000 := by
    have hlen : s.group.coef.length = s.coef.length := by simp [SatFile.group]
    rw [hNd, hlen]
    exact (roundings_grow _ _ Q _ _ hQ1).trans (Nat.mul_le_mul_left Q c4)
  have hNr : (N : ℝ) ≤ 184000 * x := by
    have : (N : ℝ) ≤ Q * 92000 := by exact_mod_cast hNQ
    linarith
  have he : (2 : ℝ) ^ (-53 : ℤ) ≤ 1.1103e-16 := by norm_num [zpow_neg]
  have he0 : (0 : ℝ) ≤ 2 ^ (-53 : ℤ) := by positivity
  have hNe : (N : ℝ) * 2 ^ (-53 : ℤ) ≤ 2.05e-11 * x := by
    calc (N : ℝ) * 2 ^ (-53 : ℤ) ≤ 184000 * x * 1.1103e-16 := mul_le_mul hNr he he0 (by linarith)
      _ ≤ 2.05e-11 * x := by nlinarith
  have hgT : s.group.Tscale = Tc := ok.Tscale
  obtain ⟨y, hy, h⟩ := C115_curve he0 double_accurate pow53_powers exp53_exps s.group ok.fn ok.sorted ok.scale (inner s)
    (outer s) Q (argument f s) N (fun q hq => (hgrp q hq).2) (fun q hq => (hgrp q hq).1) c2 T hT0 (by rw [hgT]; exact hTlt)
    (by rw [hgT]; exact hQ) (by rw [hgT]; exact hM) hNd (by nlinarith)
  refine ⟨y, hy, ?_⟩
  rw [hgT] at h
  rw [satVal_eq ok]
  have S0 : 0 ≤ s.scale.val * satSize s.fn s.group.coef t := by
    refine mul_nonneg ok.scale.le ?_
    have nn : ∀ z : ℝ, 0 < z → 0 ≤ size0 s.group.coef z := by
      intro z hz
      refine List.sum_nonneg ?_
      intro v hv
      obtain ⟨q, -, rfl⟩ := List.mem_map.mp hv
      refine mul_nonneg (Real.rpow_nonneg hz.le _) (List.sum_nonneg ?_)
      intro v hv
      obtain ⟨u, -, rfl⟩ := List.mem_map.mp hv
      have := Real.rpow_nonneg hz.le q.pre
      positivity
    match s.fn with
    | 0 => exact nn t t0
    | 1 => exact nn (1 - t) (by linarith)
    | 2 => exact (Real.exp_pos _).le
    | n + 3 => exact (Real.exp_pos _).le
  refine h.trans ?_
  refine mul_le_mul_of_nonneg_right ?_ S0
  calc 1.01 * (N : ℝ) * 2 ^ (-53 : ℤ) = 1.01 * (N * 2 ^ (-53 : ℤ)) := by ring
    _ ≤ 1.01 * (2.05e-11 * x) := by gcongr
    _ ≤ 2.1e-11 * x := by nlinarith

/-- **C115.** In double precision, for each shipped substance and every temperature from its triple point to within 1e-7 of its
critical temperature, the saturation pressure and the saturated vapour density are those of the documented curves to a
relative error of 2.1e-11 times `Tc/(Tc-T)`, and the saturated liquid density likewise, in terms of the size of its terms. -/
theorem C115_shipped (f : MpFile) (hf : f ∈ shippedMp) (T : ℝ) (hT : f.Tt.val ≤ T) (hT' : T ≤ (1 - 1e-7) * f.Tc.val) :
    (∃ p, satCurve double pow53 exp53 f.ps.group T = .ok p ∧
      |p - f.sub.ps T| ≤ 2.1e-11 * (f.Tc.val / (f.Tc.val - T)) * f.sub.ps T) ∧
    (∃ d, satCurve double pow53 exp53 f.dsv.group T = .ok d ∧
      |d - f.sub.dsv T| ≤ 2.1e-11 * (f.Tc.val / (f.Tc.val - T)) * f.sub.dsv T) ∧
    (∃ d, satCurve double pow53 exp53 f.dsl.group T = .ok d ∧
      |d - f.sub.dsl T| ≤ 2.1e-11 * (f.Tc.val / (f.Tc.val - T)) *
        (f.dsl.scale.val * satSize f.dsl.fn f.dsl.group.coef (T / f.Tc.val))) := by
  have hr := List.all_eq_true.mp curves_ok f hf
  simp only [Bool.and_eq_true, decide_eq_true_eq] at hr
  obtain ⟨⟨⟨-, r1⟩, r2⟩, r3⟩ := hr
  have hb := basics_checked f hf
  have hb' := hb
  simp only [basics, Bool.and_eq_true, decide_eq_true_eq] at hb
  have o1 : okSat f f.ps = true := by tauto
  have o2 : okSat f f.dsl = true := by tauto
  have o3 : okSat f f.dsv = true := by tauto
  have f1 : f.ps.fn = 3 := by tauto
  have f3 : f.dsv.fn = 2 ∨ f.dsv.fn = 3 := by tauto
  obtain ⟨p, hp, ep⟩ := curve_off f hf f.ps o1 r1 T hT hT'
  obtain ⟨l, hl, el⟩ := curve_off f hf f.dsl o2 r2 T hT hT'
  obtain ⟨v, hv, ev⟩ := curve_off f hf f.dsv o3 r3 T hT hT'
  refine ⟨⟨p, hp, ?_⟩, ⟨v, hv, ?_⟩, ⟨l, hl, el⟩⟩
  · have e : f.sub.ps T = f.ps.scale.val * satSize f.ps.fn f.ps.group.coef (T / f.Tc.val) := by
      show (satVal f.ps T).1 = _
      rw [satVal_eq (satOk o1), f1]; rfl
    rw [← e] at ep
    exact ep
  · have e : f.sub.dsv T = f.dsv.scale.val * satSize f.dsv.fn f.dsv.group.coef (T / f.Tc.val) := by
      show (satVal f.dsv T).1 = _
      rw [satVal_eq (satOk o3)]
      rcases f3 with h | h <;> rw [h] <;> rfl
    rw [← e] at ev
    exact ev

end PyroMat.Shipped
