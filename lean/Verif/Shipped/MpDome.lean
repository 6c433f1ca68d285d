import Mathlib.Tactic.Linarith
import Verif.Mp.PropsSat
import Verif.Mp.SpecState
import Verif.Shipped.MpCurves
import Verif.Shipped.MpData

/-!
# The saturation curves of the shipped multi-phase substances
-/

set_option linter.unusedSimpArgs false

namespace PyroMat.Shipped

open PyroMat.Gas PyroMat.Mp PyroMat.Mp.Spec PyroMat.Mp.Props PyroMat.Shipped.Data

/-- The lowest temperature the iterations of a substance use. -/
noncomputable def MpFile.Tmin (f : MpFile) : ℝ := min (f.Tt.val * 0.99) f.Tlim.1.val

/-- `1 - Tmin/Tc` in thousandths, rounded up. -/
def reach (f : MpFile) : Nat :=
  1000 - (1000 * min (99 * sc20 f.Tt) (100 * sc20 f.Tlim.1) / (100 * sc20 f.Tc)).toNat

/-- The terms that are not constant. -/
def rest (gs : List G1) : List (Int × Int) := (flat gs).filter fun t => decide (t.1 ≠ 0)

/-- The constant term. -/
def const (gs : List G1) : Int := (((flat gs).filter fun t => decide (t.1 = 0)).map (·.2)).sum

/-- The terms of a group are in the documented order. -/
def sorted1 (g : G1) : Bool :=
  !g.terms.isEmpty && decide ((g.terms.map (·.1)).Pairwise fun a b => b < a)

/-- The parts of a saturation group that are checked in the same way for all curves. -/
def okSat (f : MpFile) (s : SatFile) : Bool :=
  decide (s.fn ≤ 3) && s.coef.all okG && s.coef.all sorted1 && decide (s.Tscale.m = f.Tc.m) &&
    decide (s.Tscale.e = f.Tc.e) && decide (0 < s.scale.m) && decide (s.scale.e ≤ 20) &&
    (flat s.coef).all (fun t => decide (0 ≤ t.1))

/-- The parts of a file that are checked in the same way for all substances. -/
def basics (f : MpFile) : Bool :=
  okSat f f.ps && okSat f f.dsl && okSat f f.dsv && decide (f.Tt.e ≤ 20) && decide (f.Tc.e ≤ 20) &&
    decide (f.Tlim.1.e ≤ 20) && decide (f.Tlim.2.e ≤ 20) && decide (0 < sc20 f.Tt) &&
    decide (sc20 f.Tt < sc20 f.Tc) && decide (0 < sc20 f.Tlim.1) && decide (sc20 f.Tlim.1 ≤ sc20 f.Tlim.2) &&
    decide (0 < f.mw.m) && decide (f.ps.fn = 3) && decide (f.dsv.fn = 2 ∨ f.dsv.fn = 3) &&
    ((flat f.ps.coef).all fun t => decide (0 < t.1)) && ((flat f.dsv.coef).all fun t => decide (0 < t.1)) &&
    (decide (f.dsl.fn = 2) && ((flat f.dsl.coef).all fun t => decide (0 < t.1)) &&
        decide (sc20 f.dsv.scale ≤ sc20 f.dsl.scale) ||
      decide (f.dsl.fn = 1) && decide (sc20 f.dsv.scale * 10 ^ 20 ≤ sc20 f.dsl.scale * const f.dsl.coef))

/-- What the curves of a substance satisfy. -/
structure Curves (f : MpFile) : Prop where
  basics : basics f = true
  vapor : ∀ x : ℝ, 0 < x → x ≤ reach f / 1000 → sumT (flat f.dsv.coef) x < 0
  liquid : ∀ x : ℝ, 0 < x → x ≤ reach f / 1000 → 0 < sumT (rest f.dsl.coef) x
  pressure : ∀ x : ℝ, 0 < x → x < reach f / 1000 → slopeT (flat f.ps.coef) x < 0

/-! ## Checks of all substances but two curves -/

/-- The exponent of the leading term. -/
def lead (ts : List (Int × Int)) : Int := ts.foldl (fun a t => min a t.1) (10 ^ 30)

theorem vapor_checked : ∀ f ∈ shippedMp, f.id ≠ "mp.C2H2F4" →
    positive (negT (flat f.dsv.coef)) (lead (flat f.dsv.coef)) (reach f) = true := by
  have h : (shippedMp.all fun f => f.id == "mp.C2H2F4" ||
    positive (negT (flat f.dsv.coef)) (lead (flat f.dsv.coef)) (reach f)) = true := by decide +kernel
  intro f hf hne
  have := List.all_eq_true.mp h f hf
  simpa [hne] using this

/-- The exponent from which the terms of the liquid curve are compared. -/
def leadL (f : MpFile) : Int := if f.id = "mp.C3H2F4_1" then 7 * 10 ^ 19 else lead (rest f.dsl.coef)

theorem liquid_checked : ∀ f ∈ shippedMp, positiveFrom (rest f.dsl.coef) (leadL f) (reach f) = true := by
  have h : (shippedMp.all fun f => positiveFrom (rest f.dsl.coef) (leadL f) (reach f)) = true := by
    decide +kernel
  exact List.all_eq_true.mp h

theorem pressure_checked : ∀ f ∈ shippedMp, f.id ≠ "mp.H2O" → falling (flat f.ps.coef) (reach f) = true := by
  have h : (shippedMp.all fun f => f.id == "mp.H2O" || falling (flat f.ps.coef) (reach f)) = true := by
    decide +kernel
  intro f hf hne
  have := List.all_eq_true.mp h f hf
  simpa [hne] using this

theorem basics_checked : ∀ f ∈ shippedMp, basics f = true := by
  have h : (shippedMp.all basics) = true := by decide +kernel
  exact List.all_eq_true.mp h

/-! ## The two remaining curves -/

theorem rpow_pow {x : ℝ} (hx : 0 < x) (q : ℝ) (k : Nat) : (x ^ q) ^ k = x ^ (q * k) := by
  rw [← Real.rpow_natCast (x ^ q) k, ← Real.rpow_mul hx.le]

theorem C2H2F4_vapor (x : ℝ) (hx : 0 < x) (h1 : x ≤ 1) : sumT (flat C2H2F4.dsv.coef) x < 0 := by
  have e : flat C2H2F4.dsv.coef = [(550000000000000000000, -5236129700000000000000), (225000000000000000000, -1414012500000000000000), (50000000000000000000, 447858600000000000000), (66666666666666660000, -787598800000000000000), (33333333333333330000, -283729400000000000000)] := by
    decide +kernel
  rw [e]
  simp only [sumT, List.map_cons, List.map_nil, List.sum_cons, List.sum_nil, cf, xp]
  have p1 := Real.rpow_pos_of_pos hx ((550000000000000000000 : Int) / 10 ^ 20 : ℝ)
  have p2 := Real.rpow_pos_of_pos hx ((225000000000000000000 : Int) / 10 ^ 20 : ℝ)
  set a := x ^ ((33333333333333330000 : Int) / 10 ^ 20 : ℝ) with ha
  have pa : 0 < a := Real.rpow_pos_of_pos hx _
  have ea : x ^ ((66666666666666660000 : Int) / 10 ^ 20 : ℝ) = a ^ 2 := by
    rw [ha, rpow_pow hx]
    congr 1
    push_cast
    norm_num
  have hb : x ^ ((50000000000000000000 : Int) / 10 ^ 20 : ℝ) ≤ (a + a ^ 2) / 2 := by
    set w := x ^ ((16666666666666665000 : Int) / 10 ^ 20 : ℝ) with hw
    have pw : 0 < w := Real.rpow_pos_of_pos hx _
    have e1 : a = w ^ 2 := by
      rw [ha, hw, rpow_pow hx]
      congr 1
      push_cast
      norm_num
    have e2 : x ^ ((50000000000000000000 : Int) / 10 ^ 20 : ℝ) ≤ w ^ 3 := by
      rw [hw, rpow_pow hx]
      refine Real.rpow_le_rpow_of_exponent_ge hx h1 ?_
      push_cast
      norm_num
    refine e2.trans ?_
    rw [e1]
    nlinarith [mul_nonneg (sq_nonneg w) (sq_nonneg (w - 1))]
  rw [ea]
  push_cast at *
  nlinarith

theorem H2O_pressure (x : ℝ) (hx : 0 < x) (h1 : x ≤ 0.583) : slopeT (flat H2O.ps.coef) x < 0 := by
  have e : flat H2O.ps.coef = [(750000000000000000000, 180122502000000000000), (400000000000000000000, -1596187190000000000000), (350000000000000000000, 2268074110000000000000), (300000000000000000000, -1178664970000000000000), (150000000000000000000, 184408259000000000000), (100000000000000000000, -785951783000000000000)] := by
    decide +kernel
  rw [e]
  simp only [slopeT, List.map_cons, List.map_nil, List.sum_cons, List.sum_nil, cf, xp]
  set u := x ^ (1 / 2 : ℝ) with hu
  have pu : 0 < u := Real.rpow_pos_of_pos hx _
  have ex : x = u ^ 2 := by
    rw [hu, rpow_pow hx]
    norm_num
  have pw : ∀ (q : ℝ) (k : Nat), q = k / 2 → x ^ q = u ^ k := by
    intro q k hq
    rw [hq, hu, rpow_pow hx]
    congr 1
    ring
  rw [pw _ 13 (by push_cast; norm_num), pw _ 6 (by push_cast; norm_num), pw _ 5 (by push_cast; norm_num), pw _ 4 (by push_cast; norm_num), pw _ 1 (by push_cast; norm_num), pw _ 0 (by push_cast; norm_num)]
  have u1 : u ≤ 0.764 := by
    by_contra hc
    push Not at hc
    have : (0.764 : ℝ) ^ 2 ≤ u ^ 2 := pow_le_pow_left₀ (by norm_num) hc.le 2
    rw [← ex] at this
    norm_num at this h1
    linarith
  rw [ex]
  have p13 : u ^ 13 ≤ 0.0303 := (pow_le_pow_left₀ pu.le u1 13).trans (by norm_num)
  have mid : -35.3 + 79.4 * u - 40.2 * u ^ 2 - 56.7 * u ^ 3 + 47.9 * u ^ 4 ≤ 0 := by
    nlinarith [sq_nonneg (u - 0.68), sq_nonneg (u ^ 2 - 0.5), mul_nonneg pu.le (sub_nonneg.mpr u1), mul_nonneg pu.le (sq_nonneg (u - 0.68)), sq_nonneg (u * (u - 0.7))]
  have p4 : 0 ≤ u ^ 4 := by positivity
  have m4 := mul_nonpos_of_nonneg_of_nonpos p4 mid
  push_cast
  nlinarith [pow_pos pu 3, pow_pos pu 5, pow_pos pu 6, pow_pos pu 7, pow_pos pu 8, pow_pos pu 15]

theorem curves (f : MpFile) (hf : f ∈ shippedMp) : Curves f where
  basics := basics_checked f hf
  liquid x hx h := sumT_pos_from (liquid_checked f hf) hx h
  vapor x hx h := by
    by_cases hc : f.id = "mp.C2H2F4"
    · have : f = C2H2F4 := by
        simp only [shippedMp, List.mem_cons, List.not_mem_nil, or_false] at hf
        rcases hf with rfl | rfl | rfl | rfl | rfl | rfl | rfl <;> first | rfl | (exfalso; revert hc; decide)
      subst this
      refine C2H2F4_vapor x hx (h.trans ?_)
      have : reach C2H2F4 ≤ 1000 := by decide +kernel
      rw [div_le_one (by norm_num)]
      exact_mod_cast this
    · have := sumT_pos (vapor_checked f hf hc) hx h
      rw [sumT_neg] at this
      linarith
  pressure x hx h := by
    by_cases hc : f.id = "mp.H2O"
    · have : f = H2O := by
        simp only [shippedMp, List.mem_cons, List.not_mem_nil, or_false] at hf
        rcases hf with rfl | rfl | rfl | rfl | rfl | rfl | rfl <;> first | rfl | (exfalso; revert hc; decide)
      subst this
      refine H2O_pressure x hx (h.le.trans ?_)
      have : reach H2O ≤ 583 := by decide +kernel
      have : (reach H2O : ℝ) ≤ 583 := by exact_mod_cast this
      norm_num
      linarith
    · exact slopeT_neg (pressure_checked f hf hc) hx h.le

end PyroMat.Shipped
