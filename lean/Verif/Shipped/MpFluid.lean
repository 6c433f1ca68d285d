import Verif.Mp.PropsMend
import Verif.Mp.PropsHeat
import Verif.Shipped.MpGood

/-!
# The Helmholtz data of the shipped multi-phase substances have the documented form
-/

set_option linter.unusedSimpArgs false

namespace PyroMat.Shipped

open PyroMat.Gas PyroMat.Mp PyroMat.Mp.Spec PyroMat.Mp.Props PyroMat.Shipped.Data

/-- The terms of a group are in the documented order. -/
def sorted2 (g : G2) : Bool :=
  !g.terms.isEmpty &&
    decide ((g.terms.map fun t => (t.1, t.2.1)).Pairwise fun a b => b.1 < a.1 ∨ b.1 = a.1 ∧ b.2 < a.2)

/-- Within the limits of C47. -/
def pre2 (g : G2) : Bool :=
  decide (g.prex.e ≤ 20) && decide (g.prey.e ≤ 20) && (decide (sc20 g.prex ≠ 10 ^ 20) || decide (sc20 g.prey = 10 ^ 20))

/-- The parts of the Helmholtz data that are checked. -/
def okFluid (f : MpFile) : Bool :=
  decide (0 < f.R.m) && decide (0 < f.ao.Tscale.m) && decide (0 < f.ao.dscale.m) && decide (0 < f.ar.dscale.m) &&
    decide (f.ao.Tscale.m = f.ar.Tscale.m) && decide (f.ao.Tscale.e = f.ar.Tscale.e) &&
    (f.ao.coef0.getD []).all sorted1 && f.ao.coef1.all (fun r => decide (0 < r.1.m)) && !f.ar.coef0.isEmpty &&
    f.ar.coef0.all (fun gs => gs.all sorted2) && f.ar.coef0.all (fun gs => gs.all pre2) &&
    f.ar.coef2.all (fun r => decide (0 < (cof r 4).m))

theorem fluids_ok : shippedMp.all okFluid = true := by decide +kernel

/-- What `okFluid` says. -/
structure FluidOk (f : MpFile) : Prop where
  R : 0 < f.R.val
  To : 0 < f.ao.Tscale.val
  dso : 0 < f.ao.dscale.val
  dsr : 0 < f.ar.dscale.val
  one : f.ar.Tscale.val = f.ao.Tscale.val
  ao0 : ∀ q ∈ f.ao.group.coef0.getD [], Sorted1 q
  ao1 : ∀ r ∈ f.ao.group.coef1, 0 < r.1
  ar : ArData f.ar.group
  B : ∀ r ∈ f.ar.group.coef2, 0 < r.B

theorem val_pos {d : Dec} (h : 0 < d.m) : 0 < d.val := div_pos (by exact_mod_cast h) (by positivity)

theorem sc20_one {d : Dec} (h : d.e ≤ 20) : d.val = 1 ↔ sc20 d = 10 ^ 20 := by
  rw [sc20_val h, div_eq_one_iff_eq (by positivity)]
  exact_mod_cast Iff.rfl

theorem fluidOk {f : MpFile} (hf : f ∈ shippedMp) : FluidOk f := by
  have h := List.all_eq_true.mp fluids_ok f hf
  simp only [okFluid, Bool.and_eq_true, decide_eq_true_eq, Bool.not_eq_true', List.isEmpty_eq_false_iff] at h
  obtain ⟨⟨⟨⟨⟨⟨⟨⟨⟨⟨⟨h1, h2⟩, h3⟩, h4⟩, h5⟩, h6⟩, h7⟩, h8⟩, h9⟩, h10⟩, h11⟩, h12⟩ := h
  refine ⟨val_pos h1, val_pos h2, val_pos h3, val_pos h4, (val_eq h5 h6).symm, ?_, ?_, ⟨?_, ?_, ?_⟩, ?_⟩
  · intro q hq
    simp only [AoFile.group] at hq
    cases h0 : f.ao.coef0 with
    | none => rw [h0] at hq; simp at hq
    | some gs =>
      rw [h0] at hq h7
      simp only [Option.map_some, Option.getD_some, List.mem_map] at hq h7
      obtain ⟨g, hg, rfl⟩ := hq
      exact sorted_group (List.all_eq_true.mp h7 g hg)
  · intro r hr
    simp only [AoFile.group, List.mem_map] at hr
    obtain ⟨q, hq, rfl⟩ := hr
    have := List.all_eq_true.mp h8 q hq
    exact val_pos (by simpa using this)
  · simpa [ArFile.group] using h9
  · intro gs hgs q hq
    simp only [ArFile.group, List.mem_map] at hgs
    obtain ⟨gs, hgs, rfl⟩ := hgs
    obtain ⟨g, hg, rfl⟩ := List.mem_map.mp hq
    have := List.all_eq_true.mp (List.all_eq_true.mp h10 gs hgs) g hg
    simp only [sorted2, Bool.and_eq_true, Bool.not_eq_true', List.isEmpty_eq_false_iff, decide_eq_true_eq] at this
    refine ⟨by simpa [G2.group] using this.1, ?_⟩
    have h2 := this.2
    rw [List.pairwise_map] at h2
    simp only [G2.group, List.pairwise_map]
    exact h2
  · intro gs hgs q hq
    simp only [ArFile.group, List.mem_map] at hgs
    obtain ⟨gs, hgs, rfl⟩ := hgs
    obtain ⟨g, hg, rfl⟩ := List.mem_map.mp hq
    have := List.all_eq_true.mp (List.all_eq_true.mp h11 gs hgs) g hg
    simp only [pre2, Bool.and_eq_true, Bool.or_eq_true, decide_eq_true_eq] at this
    obtain ⟨⟨e1, e2⟩, h⟩ := this
    intro hx
    show g.prey.val = 1
    rw [sc20_one e2]
    exact h.resolve_left (not_not_intro ((sc20_one e1).mp hx))
  · intro r hr
    simp only [ArFile.group, List.mem_map] at hr
    obtain ⟨q, hq, rfl⟩ := hr
    have := List.all_eq_true.mp h12 q hq
    exact val_pos (by simpa using this)

theorem sub_fluid {f : MpFile} (hf : f ∈ shippedMp) : f.sub.F =
    codeFluid f.R.val f.ao.Tscale.val f.ao.dscale.val f.ao.Tscale.val f.ar.dscale.val f.ao.group f.ar.group := by
  show codeFluid _ _ _ _ _ _ _ = _
  rw [(fluidOk hf).one]

/-- The substances without non-analytic terms. -/
theorem analytic_iff : ∀ f ∈ shippedMp, f.ar.coef2 = [] ↔ f.id ≠ "mp.CO2" ∧ f.id ≠ "mp.H2O" := by
  have h : shippedMp.all (fun f => decide (f.ar.coef2.isEmpty = true ↔ f.id ≠ "mp.CO2" ∧ f.id ≠ "mp.H2O")) = true := by
    decide +kernel
  intro f hf
  have := of_decide_eq_true (List.all_eq_true.mp h f hf)
  rwa [List.isEmpty_iff] at this

end PyroMat.Shipped
