import Verif.Shipped.Examples
import Verif.Shipped.PropsMixes

/-! # C100: calls to which the theorems apply -/

set_option linter.unusedSimpArgs false

namespace PyroMat.Shipped.Props

open PyroMat PyroMat.Units PyroMat.Units.Spec PyroMat.Units.Props PyroMat.Gas PyroMat.Gas.Spec
  PyroMat.Gas.Props PyroMat.Gas.Mix PyroMat.Shipped

/-- The three shipped mixtures meet the hypotheses of C100; a call at 300 K and 1 bar gives its
temperature. -/
example (m : MixFile) (hm : m ∈ shippedMix) : ∃ cs M, Sound loaded m.entry cs ∧ IsMixture loaded m.entry M ∧
    OfShipped cs ∧ Supplies [.scalar 300, .scalar 1] [] "T" (.scalar 300) "p" (.scalar 1) ∧
    Gives exampleEnv M [.scalar 300, .scalar 1] [] .T 0 300 := by
  obtain ⟨cs, M, hS, hc, hM, e1, e2⟩ := C100_shipped m hm
  have hK : ∀ x : ℝ, toKelvin exampleSys.T.name x = x := fun x => rfl
  refine ⟨cs, M, hS, hM, hc, supplies_Tp _ _, _, method_Tp exampleEnv_uses (mix_mw_pos hS hM).ne' _ 1
    (by rw [hK, e1]; norm_num) (by rw [hK, e2]; norm_num) .T, ?_⟩
  have : ∀ x, inUnits exampleEnv.a exampleSys M.mw .temperature x = x := fun x => rfl
  simp [value, this, hK]

/-- An enthalpy whose inversion prints no warning, for each shipped mixture. -/
example (m : MixFile) (hm : m ∈ shippedMix) : ∃ M x hs y, IsMixture loaded m.entry M ∧
    mH kmolEnv M [] [("h", .scalar x), ("p", .scalar 1e5)] = .ok hs ∧ hs[0]? = some (some y) ∧
    |y - x| ≤ 8e-6 * |x| + |inUnits kmolEnv.a kmolSys M.mw .energy 300| := by
  obtain ⟨cs, M, hS, hc, hM, e1, e2⟩ := C100_shipped m hm
  have hmw := (mix_mw_pos hS hM).ne'
  have hl : M.Tlo ≤ M.Thi := by rw [e1, e2]; norm_num
  obtain ⟨a, b, c, reg, -⟩ := mix_regular hS hM hc
  obtain ⟨x, st, -, hst, hT, hw⟩ := middle_enthalpy_of M hmw hl _ _ _ reg
  have hsup : Supplies [] [("h", .scalar x), ("p", .scalar 1e5)] "h" (.scalar x) "p" (.scalar 1e5) :=
    ⟨by simp, by simp [supplied], ⟨by simp, by simp, by simp, by simp, by simp⟩⟩
  obtain ⟨hs, h1, h2, -⟩ := method_rows kmolEnv_uses hmw (by simp) hst (good_of_pair kmolEnv_uses hmw hsup hst) .h
  have hq : Silent kmolEnv M [] [("h", .scalar x), ("p", .scalar 1e5)] := by
    intro st' h'
    rw [hst] at h'; cases h'; exact hw
  have hlen : 0 < hs.length := by rw [h2, hT]; norm_num
  obtain ⟨x', y, hx, hy, hbd⟩ := C100_given_enthalpy hS M hM hc hl kmolEnv kmolSys kmolEnv_uses [] _ "p" _ _ hsup hq hs h1 0 hlen
  have : x' = x := by simpa [nth, Val.elems] using hx.symm
  subst this
  exact ⟨M, x', hs, y, hM, h1, hy, hbd⟩

end PyroMat.Shipped.Props
