import Verif.Float.PropsScale

/-!
# The hypotheses of C104 are met
-/

set_option linter.unusedSimpArgs false

namespace PyroMat.Float.Props

open PyroMat PyroMat.Units PyroMat.Units.Spec

/-- Double precision is accurate enough for every theorem of C104. -/
theorem double_small : (0 : ℝ) ≤ 2 ^ (-53 : ℤ) ∧ (2 : ℝ) ^ (-53 : ℤ) ≤ 1e-6 := by norm_num [zpow_neg]

/-- C104 in double precision: two pounds per square inch in pascal, squared, within `1.7e-14`. -/
example (cfg : Cfg) : ∃ y y' : ℝ,
    (pressure (SetupArgs.default : SetupArgs ℝ)).call cfg (.scalar 2) (some "psi") (some "Pa") (some 2) false
      = .ok ⟨.scalar y, .scalar 2, false⟩ ∧
    callF double ((pressureT SetupArgs.default).build double) cfg (.scalar 2) (some "psi") (some "Pa") (some 2) false
      = .ok ⟨.scalar y', .scalar 2, false⟩ ∧ |y' - y| ≤ 1.7e-14 * |y| := by
  obtain ⟨c', hc, h⟩ := C104_conversion double_small.1 double_accurate SetupArgs.default 8
    (pressure SetupArgs.default) rfl
  have e : c' = (pressureT SetupArgs.default).build double := by
    have : (convs double SetupArgs.default)[8]? = some ((pressureT SetupArgs.default).build double) := rfl
    rw [this, Option.some.injEq] at hc
    exact hc.symm
  subst e
  have k := h cfg (.scalar 2) (some "psi") (some "Pa") (some 2) false 2 rfl (by norm_num [zpow_neg])
  have ex : ∃ y : ℝ, (pressure (SetupArgs.default : SetupArgs ℝ)).call cfg (.scalar 2) (some "psi") (some "Pa") (some 2) false
      = .ok ⟨.scalar y, .scalar 2, false⟩ := by
    simp [Conv.call, Conv.resolve, Conv.get, pressure, List.lookup, pyDiv, powExp, bind, Except.bind, applyOp, Val.isArr,
      Val.map, pure, Except.pure]
  obtain ⟨y, hy⟩ := ex
  rw [hy] at k
  revert k
  generalize hq : callF double ((pressureT SetupArgs.default).build double) cfg (.scalar 2) (some "psi") (some "Pa")
    (some 2) false = q
  intro k
  cases q with
  | error e => exact k.elim
  | ok r =>
    obtain ⟨ret, caller, al⟩ := r
    obtain ⟨k1, k2, k3⟩ := k
    cases ret with
    | arr xs => exact k1.elim
    | scalar y' =>
      have hcal : caller = .scalar 2 := by
        simp only [callF, Conv.resolve, bind, Except.bind, pure, Except.pure] at hq
        rw [if_neg (by decide)] at hq
        revert hq
        repeat' split
        all_goals intro hq
        all_goals first | cases hq | skip
        all_goals rfl
      subst hcal
      cases k3
      refine ⟨y, y', hy, rfl, ?_⟩
      have : Within _ y y' := k1
      unfold Within at this
      refine this.trans (mul_le_mul_of_nonneg_right ?_ (abs_nonneg _))
      norm_num [zpow_neg]

/-- C104 in double precision: from Fahrenheit to Celsius and from inches to feet and back. -/
example (cfg : Cfg) (x : ℝ) : ∃ y y' : ℝ,
    temperatureScale cfg (.scalar x) (some "F") (some "C") false = .ok ⟨.scalar y, .scalar x, false⟩ ∧
    temperatureScaleF double cfg (.scalar x) (some "F") (some "C") false = .ok ⟨.scalar y', .scalar x, false⟩ ∧
    |y' - y| ≤ 1e-15 * (|y + 273.15| + 300) := by
  have k := C104_temperature double_small.1 (double_small.2.trans (by norm_num)) double_accurate cfg (.scalar x) .F .C false
  refine ⟨_, _, rfl, rfl, ?_⟩
  have k1 := k.1
  have k2 : |kelvin Scale.C (fromKelvinF double "C" (toKelvinF double "F" x)) - kelvin Scale.C (fromKelvin "C" (toKelvin "F" x))|
    ≤ 9 * 2 ^ (-53 : ℤ) * (|kelvin Scale.C (fromKelvin "C" (toKelvin "F" x))| + 300) := k1
  simp only [kelvin, add_sub_add_right_eq_sub] at k2
  refine k2.trans (mul_le_mul_of_nonneg_right ?_ (by positivity))
  norm_num [zpow_neg]

example (cfg : Cfg) (x : ℝ) : ∃ r r',
    callF double (lengthT.build double) cfg (.scalar x) (some "in") (some "m") none false = .ok r ∧
    callF double (lengthT.build double) cfg r.ret (some "m") (some "in") none false = .ok r' ∧
    ValRel (Within (5 * 2 ^ (-53 : ℤ))) (.scalar x) r'.ret := by
  have hin : double.lit (0.0254 : ℝ) ≠ 0 := by
    intro h
    have := double_accurate.lit 0.0254
    unfold Within at this
    rw [h, abs_of_neg (by norm_num), abs_of_pos (by norm_num)] at this
    norm_num [zpow_neg] at this
  have e1 : ∃ r, callF double (lengthT.build double) cfg (.scalar x) (some "in") (some "m") none false = .ok r := by
    simp [callF, Conv.resolve, Conv.get, lengthT, Table.build, List.lookup, divF, powF, bind, Except.bind, Ex.eval, inE, hin,
      pure, Except.pure]
  obtain ⟨r, hr⟩ := e1
  have e2 : ∃ r', callF double (lengthT.build double) cfg r.ret (some "m") (some "in") none false = .ok r' := by
    simp [callF, Conv.resolve, Conv.get, lengthT, Table.build, List.lookup, divF, powF, bind, Except.bind, Ex.eval, inE, hin,
      pure, Except.pure]
  obtain ⟨r', hr'⟩ := e2
  exact ⟨r, r', hr, hr', C104_roundtrip double_small.1 double_small.2 double_accurate SetupArgs.default _
    (by simp [convs, tables]) cfg _ _ _ _ _ r r' hr hr'⟩

end PyroMat.Float.Props
