import Verif.Mp.PropsInvert
import Verif.Mp.PropsHybrid
import Verif.Mp.Solvers
import Verif.Gas.PropsIter

/-!
# The inversions of the multiphase class (C51, C53)
-/

set_option linter.unusedSimpArgs false

namespace PyroMat.Mp.Props

open PyroMat PyroMat.Units PyroMat.Units.Spec PyroMat.Units.Props PyroMat.Gas PyroMat.Gas.Spec
open PyroMat.Gas.Props PyroMat.Mp PyroMat.Mp.Spec PyroMat.Config.Defaults

/-! ## Saturation temperature -/

theorem codeTs_el {B : Sub} {q : List (Option Nan)} {f : Nat → Nan} {w : Bool}
    (h : codeTs B q = .ok (f, w)) :
    ∃ rs : List (El × Bool), w = rs.any (·.2) ∧
      List.Forall₂ (fun e r => single 1e-6 (B.Tt * 0.99) B.Tc 20 20 e = .ok r) (q.map (tsEl B)) rs ∧
      ∀ n, f n = (rs[n]?).bind (·.1.x) := by
  unfold codeTs at h
  obtain ⟨r, hr, h⟩ := bind_ok h
  cases h
  rw [iterLoop_eq] at hr
  cases hm : (q.map (tsEl B)).mapM (single 1e-6 (B.Tt * 0.99) B.Tc 20 20) with
  | error e => rw [hm] at hr; cases hr
  | ok rs =>
    rw [hm] at hr
    cases hr
    refine ⟨rs, rfl, mapM_ok hm, fun n => ?_⟩
    simp only [List.getElem?_map, Option.bind_map]
    rfl

/-- One element of the saturation temperatures. -/
theorem codeTs_spec {B : Sub} (h1 : B.Tt * 0.99 ≤ B.Tmid) (h2 : B.Tmid ≤ B.Tc) {q : List (Option Nan)}
    {f : Nat → Nan} {w : Bool} (h : codeTs B q = .ok (f, w)) :
    (∀ n T, f n = some T → B.Tt * 0.99 ≤ T ∧ T ≤ B.Tc) ∧
    (∀ n p, q[n]? = some (some (some p)) → B.pt ≤ p → p ≤ B.pc → w = false → ∀ T, f n = some T →
      ∃ x, B.Tt * 0.99 ≤ x ∧ x ≤ B.Tc ∧ |p - B.ps x| ≤ |1e-6 * p| ∧ B.psT x ≠ 0 ∧
        |T - x| ≤ |(p - B.ps x) / B.psT x|) ∧
    (∀ n o, q[n]? = some (some o) → (∀ p, o = some p → ¬ (B.pt ≤ p ∧ p ≤ B.pc)) → f n = some B.Tmid) := by
  obtain ⟨rs, hw, hF, hf⟩ := codeTs_el h
  have hlen := hF.length_eq
  have el : ∀ (n : Nat) (r : El × Bool), rs[n]? = some r → ∃ o, q[n]? = some o ∧
      single 1e-6 (B.Tt * 0.99) B.Tc 20 20 (tsEl B o) = .ok r := by
    intro n r hr
    have hn : n < rs.length := (List.getElem?_eq_some_iff.mp hr).1
    have hn' : n < (q.map (tsEl B)).length := by omega
    have := hF.get hn' hn
    rw [List.getElem?_eq_getElem hn, Option.some.injEq] at hr
    have hq : n < q.length := by simpa using hn'
    refine ⟨q[n], List.getElem?_eq_getElem hq, ?_⟩
    simpa [hr] using this
  have start : ∀ o, (tsEl B o).x = some B.Tmid := by
    intro o; unfold tsEl; split <;> rfl
  have inb : ∀ o, InB (B.Tt * 0.99) B.Tc (tsEl B o).x := by
    intro o v hv
    rw [start] at hv
    cases hv
    exact ⟨h1, h2⟩
  refine ⟨?_, ?_, ?_⟩
  · intro n T hT
    rw [hf] at hT
    obtain ⟨r, hr, hx⟩ := Option.bind_eq_some_iff.mp hT
    obtain ⟨o, -, hs⟩ := el n r hr
    cases ha : (tsEl B o).act with
    | true => exact (single_spec 20 _ r.1 r.2 ha (inb o) hs).2.2.1 T hx
    | false =>
      rw [single_inact ha] at hs
      cases hs
      exact inb o T hx
  · intro n p hp p1 p2 hwf T hT
    rw [hf] at hT
    obtain ⟨r, hr, hx⟩ := Option.bind_eq_some_iff.mp hT
    obtain ⟨o, ho, hs⟩ := el n r hr
    rw [hp, Option.some.injEq] at ho
    subst ho
    have ha : (tsEl B (some (some p))).act = true := by simp [tsEl, p1, p2]
    have hr2 : r.2 = false := by
      by_contra hc
      have : rs.any (·.2) = true := List.any_eq_true.mpr ⟨r, List.mem_of_getElem? hr, by simpa using hc⟩
      rw [← hw, hwf] at this
      cases this
    obtain ⟨-, -, -, h4, -⟩ := single_spec 20 _ r.1 r.2 ha (inb _) hs
    obtain ⟨x, yy, yyx, b1, b2, hfx, herr, h0, j, -, hv⟩ := h4 hr2 T hx
    have hfx' : (some (B.ps x, B.psT x) : Option (ℝ × ℝ)) = some (yy, yyx) := hfx
    simp only [Option.some.injEq, Prod.mk.injEq] at hfx'
    obtain ⟨rfl, rfl⟩ := hfx'
    refine ⟨x, b1, b2, herr, h0, ?_⟩
    have ey : (tsEl B (some (some p))).y = p := rfl
    rw [ey] at hv
    rw [hv, add_sub_cancel_left, abs_div]
    have hj : (1:ℝ) ≤ |(2:ℝ) ^ j| := by
      rw [abs_of_pos (by positivity)]
      exact one_le_pow₀ (by norm_num)
    exact div_le_self (abs_nonneg _) hj
  · intro n o ho hno
    have hn : n < q.length := (List.getElem?_eq_some_iff.mp ho).1
    have hn' : n < rs.length := by rw [← hlen]; simpa using hn
    obtain ⟨o', ho', hs⟩ := el n rs[n] (List.getElem?_eq_getElem hn')
    rw [ho, Option.some.injEq] at ho'
    subst ho'
    have ha : (tsEl B (some o)).act = false := by
      cases o with
      | none => rfl
      | some p =>
        have := hno p rfl
        simp [tsEl] at this ⊢
        exact this
    rw [single_inact ha] at hs
    rw [hf, List.getElem?_eq_getElem hn']
    simp only [Except.ok.injEq] at hs
    rw [← hs]
    simp [start]

/-! ## The bracketed solver -/

theorem runHybrid_in {Nmax : Nat} {l : List HIn} {f : Nat → Nan} {w : Bool}
    (h : runHybrid Nmax l = .ok (f, w)) {n : Nat} {T : ℝ} (hT : f n = some T) :
    ∃ e, l[n]? = some e ∧ (e.ids = true → e.xmin ≤ e.xmax → e.xmin ≤ T ∧ T ≤ e.xmax) := by
  unfold runHybrid at h
  obtain ⟨⟨xs, w'⟩, hr, h⟩ := bind_ok h
  cases h
  dsimp only at hT
  cases hx : xs[n]? with
  | none => rw [hx] at hT; cases hT
  | some o =>
    rw [hx] at hT
    have hT' : o = some T := hT
    subst hT'
    have hl : xs.length = l.length := by rw [(hybrid1_ok hr).1]; simp
    have hn : n < l.length := by rw [← hl]; exact (List.getElem?_eq_some_iff.mp hx).1
    exact ⟨l[n], List.getElem?_eq_getElem hn, fun hs hle =>
      C52_in_bracket _ _ _ _ _ hr n _ (List.getElem?_eq_getElem hn) hs hle T hx⟩

/-- The code's inversions return temperatures within the data's limits. -/
theorem code_bounded {B : Sub} {Tmin : ℝ} (h1 : B.Tt * 0.99 ≤ B.Tmid) (h2 : B.Tmid ≤ B.Tc)
    (h3 : B.Tlo ≤ B.Thi) (m1 : Tmin ≤ B.Tt * 0.99) (m2 : Tmin ≤ B.Tlo) : Bounded (codeSol B) B Tmin := by
  constructor
  · intro q f h n T hT
    have h' : (codeTs B q).map (·.1) = .ok f := h
    cases hc : codeTs B q with
    | error e => rw [hc] at h'; cases h'
    | ok r =>
      rw [hc] at h'
      cases h'
      obtain ⟨a, b⟩ := (codeTs_spec h1 h2 (f := r.1) (w := r.2) hc).1 n T hT
      exact ⟨le_trans m1 a, b⟩
  · intro i q f h n T hT
    have h' : (codeThd B i q).map (·.1) = .ok f := h
    cases hc : codeThd B i q with
    | error e => rw [hc] at h'; cases h'
    | ok r =>
      rw [hc] at h'
      cases h'
      obtain ⟨e, he, hb⟩ := runHybrid_in (f := r.1) (w := r.2) hc hT
      rw [List.getElem?_map, Option.map_eq_some_iff] at he
      obtain ⟨z, -, rfl⟩ := he
      exact le_trans m2 (hb rfl h3).1

end PyroMat.Mp.Props
