import Verif.Float.ShippedIter
import Verif.Float.GasExamples

/-!
# C116 in double precision, and cases that meet its hypotheses
-/

set_option linter.unusedSimpArgs false

namespace PyroMat.Float

open PyroMat PyroMat.Units PyroMat.Gas PyroMat.Gas.Props PyroMat.Shipped

/-- Whole numbers of up to 53 binary digits are doubles. -/
theorem round53_whole {n : ℕ} (hn : n < 2 ^ 53) : round53 n = n := by
  unfold round53
  rcases Nat.eq_zero_or_pos n with rfl | h
  · simp
  have hk : (0 : ℤ) ≤ 52 - Int.log 2 |(n : ℝ)| := by
    rw [Nat.abs_cast, Int.log_natCast]
    have : Nat.log 2 n < 53 := Nat.log_lt_of_lt_pow (by omega) hn
    omega
  generalize 52 - Int.log 2 |(n : ℝ)| = k at hk
  obtain ⟨j, rfl⟩ := Int.eq_ofNat_of_zero_le hk
  have e : (n : ℝ) * 2 ^ (j : ℤ) = ((n * 2 ^ j : ℕ) : ℝ) := by push_cast; simp
  rw [e, round_natCast]
  push_cast
  rw [zpow_natCast]
  field_simp

/-- All limits of the data file are whole numbers of kelvins. -/
def wholeLimits (f : File) : Bool := f.Tlim.all fun d => Nat.beq (Nat.mod (mK d) 1000) 0 && Nat.ble (mK d) 6000000

theorem count_foldr (p : File → Bool) (l : List File) :
    (l.filter p).length = l.foldr (fun f n => bif p f then Nat.add n 1 else n) 0 := by
  induction l with
  | nil => rfl
  | cons f l ih =>
    rw [List.filter_cons, List.foldr_cons, ← ih]
    cases p f <;> simp

/-- That is so for 868 of the 982 shipped gases. -/
theorem whole_count : (shipped.filter wholeLimits).length = 868 ∧ shipped.length = 982 := by
  constructor
  · rw [count_foldr]
    exact Nat.eq_of_beq_eq_true (by decide +kernel)
  · have h : shipped.length = (shipped.filter fun _ => true).length := by simp
    rw [h, count_foldr]
    exact Nat.eq_of_beq_eq_true (by decide +kernel)

theorem whole_lit {f : File} (hf : f ∈ shipped) (h : wholeLimits f = true) : ∀ L ∈ f.data.Tlim, double.lit L = L := by
  intro L hL
  obtain ⟨d, hd, rfl⟩ := List.mem_map.mp hL
  obtain ⟨b, hb⟩ := shipped_checked f hf
  obtain ⟨k, -⟩ := mK_val (walk_ok _ _ _ _ _ (check_walk hb) d hd)
  have := List.all_eq_true.mp h d hd
  simp only [Bool.and_eq_true] at this
  obtain ⟨m1, m2⟩ := this
  have m1 : mK d % 1000 = 0 := Nat.eq_of_beq_eq_true m1
  have m2 := Nat.le_of_ble_eq_true m2
  have e : d.val = ((mK d / 1000 : ℕ) : ℝ) := by
    have : mK d = 1000 * (mK d / 1000) := by omega
    have : (mK d : ℝ) = 1000 * ((mK d / 1000 : ℕ) : ℝ) := by exact_mod_cast this
    linarith
  rw [e]
  exact round53_whole (by omega)

namespace Props

/-- C116 in double precision, for the shipped gases whose limits are whole numbers of kelvins (868 of 982). -/
theorem C116_double (f : File) (hf : f ∈ shipped) (hw : wholeLimits f = true) (q : From) (y : ℝ) (r : Nan)
    (h : temperatureF double f.cls f.data (fileForms f) q y = .ok (r, false)) :
    ∃ T Y, r = some T ∧ f.gas.Tlo ≤ T ∧ T ≤ f.gas.Thi ∧ q.exact f.gas T = some Y ∧
      |Y - y| ≤ q.tolerance * |y| + (if f.id = "ig.Rb" then 300 else 30) + 6e-6 := by
  obtain ⟨T, Y, a1, a2, a3, a4, a5⟩ := C116_temperature double_small.1 (by norm_num [zpow_neg]) double_accurate f hf
    (whole_lit hf hw) q y r h
  refine ⟨T, Y, a1, a2, a3, a4, a5.trans ?_⟩
  have : (5e10 : ℝ) * 2 ^ (-53 : ℤ) ≤ 6e-6 := by norm_num [zpow_neg]
  exact add_le_add le_rfl this

/-- A search that stops without a warning, in double precision: argon, from the enthalpy its routine returns at
3100 K. -/
theorem argon_search : ∃ f ∈ shipped, f.id = "ig.Ar" ∧ wholeLimits f = true ∧
    ∃ y, temperatureF double f.cls f.data (fileForms f) .h y = .ok (some 3100, false) := by
  obtain ⟨f, hf, hid, hl⟩ := argon_limits
  obtain ⟨b, hb⟩ := shipped_checked f hf
  have hok := walk_ok _ _ _ _ _ (check_walk hb)
  have hw : wholeLimits f = true := by
    refine List.all_eq_true.mpr fun d hd => ?_
    have hm : d.val ∈ f.data.Tlim := List.mem_map.mpr ⟨d, hd, rfl⟩
    obtain ⟨k, -⟩ := mK_val (hok d hd)
    rw [hl] at hm
    simp only [List.mem_cons, List.not_mem_nil, or_false] at hm
    have : mK d = 200000 ∨ mK d = 1000000 ∨ mK d = 6000000 := by
      rcases hm with h | h | h <;> rw [h] at k <;> norm_num at k
      · left; exact_mod_cast k
      · right; left; exact_mod_cast k
      · right; right; exact_mod_cast k
    rcases this with h | h | h <;> simp only [h] <;> decide +kernel
  refine ⟨f, hf, hid, hw, ?_⟩
  have hlim := whole_lit hf hw
  obtain ⟨yy, yyx, -, e1, -, -, e4, -⟩ := routine_ok double_small.1 (by norm_num [zpow_neg]) double_accurate hf hb hlim .h
    3100 (by rw [gas_Tlo, hl]; norm_num) (by rw [gas_Thi, hl]; norm_num)
  have hz : yyx ≠ 0 := by
    intro h
    have hn1 : (233 : ℝ) ≤ b.1 := by exact_mod_cast (check_nums hb).1
    have R8 : 8 ≤ Ru := by norm_num [Ru, Units.const_Ru, Units.const_k, Units.const_Na]
    rw [h, abs_zero] at e4
    simp only at e4
    nlinarith
  refine ⟨yy, ?_⟩
  have w : ∀ n : ℕ, n < 2 ^ 53 → round53 (n : ℝ) = n := fun n h => round53_whole h
  have h0 : round53 0 = 0 := by simpa using w 0 (by norm_num)
  have h200 : double.lit 200 = 200 := by simpa [double] using w 200 (by norm_num)
  have h6000 : double.lit 6000 = 6000 := by simpa [double] using w 6000 (by norm_num)
  have hadd : double.add 200 6000 = 6200 := by
    have := w 6200 (by norm_num)
    simp only [double]; norm_num at this ⊢; exact this
  have hmul : double.mul 0.5 6200 = 3100 := by
    have := w 3100 (by norm_num)
    simp only [double]; norm_num at this ⊢; exact this
  have hsub : double.sub yy yy = 0 := by simp [double, h0]
  have hdiv : double.div 0 yyx = 0 := by simp [double, h0]
  have hadd' : double.add 3100 0 = 3100 := by
    have := w 3100 (by norm_num)
    simp only [double]; norm_num at this ⊢; exact this
  unfold temperatureF searchF
  rw [hl]
  simp only [List.headD_cons, List.getLastD_cons, List.getLastD_nil, h200, h6000, hadd, hmul]
  have hh : halveF double 200 6000 20 3100 0 = .ok 3100 := by
    unfold halveF
    rw [if_neg (by norm_num)]
  have hs : stepF double (double.lit 1e-6) 200 6000 20 ⟨routineF double f.cls f.data (fileForms f) .h, yy, some 3100, true⟩
      = .ok ⟨routineF double f.cls f.data (fileForms f) .h, yy, some 3100, false⟩ := by
    unfold stepF
    simp only [e1, if_true, if_neg hz, hsub, hdiv, hadd', hh, exOk]
    simp
  have hlp : loopF double (double.lit 1e-6) 200 6000 20 20
      ⟨routineF double f.cls f.data (fileForms f) .h, yy, some 3100, true⟩
      = .ok (⟨routineF double f.cls f.data (fileForms f) .h, yy, some 3100, false⟩, false) := by
    unfold loopF
    simp only [if_true, hs, exOk]
    exact loopF_inact rfl
  rw [hlp, exOk]

/-- A line. -/
noncomputable def line (x : ℝ) : Option (ℝ × ℝ) := some (2 * x, 2)

theorem line_step (x : ℝ) (h1 : 0 ≤ x + (6 - 2 * x) / 2) (h2 : x + (6 - 2 * x) / 2 ≤ 10) :
    stepF exact 1e-6 0 10 20 ⟨line, 6, some x, true⟩
      = .ok ⟨line, 6, some (x + (6 - 2 * x) / 2), open Classical in decide (|6 - 2 * x| > |1e-6 * 6|)⟩ := by
  rw [exact_step]
  unfold stepEl
  have : halve 0 10 20 (x + (6 - 2 * x) / 2) ((6 - 2 * x) / 2) = .ok (x + (6 - 2 * x) / 2) := by
    unfold halve
    rw [if_neg (by push Not; exact ⟨h1, h2⟩)]
  simp only [if_true, line]
  rw [if_neg two_ne_zero, this, exOk]

theorem loopF_next {A : Arith} {ep xmin xmax : ℝ} {Nmax : ℕ} (n : ℕ) {e e' : El} (ha : e.act = true)
    (h : stepF A ep xmin xmax Nmax e = .ok e') :
    loopF A ep xmin xmax Nmax (n + 1) e = loopF A ep xmin xmax Nmax n e' := by
  rw [loopF, if_pos ha, h, exOk]

/-- The hypotheses of `C116_value` are met by a search that moves: the line `2 x`, target 6, from 1 between 0 and 10. -/
theorem line_search : searchF exact line 6 1 0 10 1e-6 20 = .ok (some 3, false) := by
  have s1 : stepF exact 1e-6 0 10 20 ⟨line, 6, some 1, true⟩ = .ok ⟨line, 6, some 3, true⟩ := by
    rw [line_step 1 (by norm_num) (by norm_num)]
    norm_num [abs_of_pos]
  have s2 : stepF exact 1e-6 0 10 20 ⟨line, 6, some 3, true⟩ = .ok ⟨line, 6, some 3, false⟩ := by
    rw [line_step 3 (by norm_num) (by norm_num)]
    norm_num
  have l : ∀ n, loopF exact 1e-6 0 10 20 (n + 1 + 1) ⟨line, 6, some 1, true⟩ = .ok (⟨line, 6, some 3, false⟩, false) := by
    intro n
    rw [loopF_next _ rfl s1, loopF_next _ rfl s2, loopF_inact rfl]
  unfold searchF
  rw [l 18, exOk]

example : ∃ v, (some 3 : Nan) = some v ∧ 0 ≤ v ∧ v ≤ 10 ∧
    |2 * v - 6| ≤ 1.00001 * (1 + 2 / 2) * |1e-6 * 6| + 0 + 0 + 2 * ((20 : ℕ) + 1) * 0 * (2 * 10) :=
  C116_value (ε := 0) le_rfl (by norm_num) exact_accurate line (fun x => 2 * x) 6 1 0 10 1e-6 2 2 0 0 10 two_pos two_pos.le
    (by norm_num) (fun x a b => by rw [abs_of_nonneg a]; exact b)
    (fun x _ _ => ⟨2 * x, 2, rfl, by simp, by norm_num⟩)
    (fun x x' _ _ _ _ => by rw [← mul_sub, abs_mul, abs_two]; simp) _ line_search

end Props

end PyroMat.Float
