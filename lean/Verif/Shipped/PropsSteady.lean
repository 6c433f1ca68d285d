import Verif.Shipped.PropsConverge

/-!
# Which shipped gases have a moderate heat capacity
-/

namespace PyroMat.Shipped.Props

open PyroMat PyroMat.Units PyroMat.Units.Spec PyroMat.Units.Props PyroMat.Gas PyroMat.Gas.Spec
  PyroMat.Gas.Props PyroMat.Shipped PyroMat.Shipped.Spec PyroMat.Shipped.Data

/-- The files whose bounds, less `k`, differ by at most a factor of 5/3. -/
def steady (k : Nat) : List File → List (Nat × Nat) → List File
  | f :: fs, b :: bs => if Nat.ble (3 * b.2 + 2 * k) (5 * b.1) && f.id != "ig.Rb" then f :: steady k fs bs else steady k fs bs
  | _, _ => []

theorem steady_sublist (k : Nat) (fs : List File) (bs : List (Nat × Nat)) : (steady k fs bs).Sublist fs := by
  induction fs generalizing bs with
  | nil => simp [steady]
  | cons f fs ih =>
    cases bs with
    | nil => simp [steady]
    | cons b bs =>
      unfold steady
      split
      · exact (ih bs).cons_cons f
      · exact (ih bs).cons f

theorem steady_spec (k : Nat) (fs : List File) (bs : List (Nat × Nat)) (h : checkAll fs bs = true) :
    ∀ f ∈ steady k fs bs, f.id ≠ "ig.Rb" ∧ ∃ b, check f b = true ∧ 3 * b.2 + 2 * k ≤ 5 * b.1 := by
  induction fs generalizing bs with
  | nil => simp [steady]
  | cons g gs ih =>
    cases bs with
    | nil => simp [steady]
    | cons b bs =>
      simp only [checkAll, Bool.and_eq_true] at h
      intro f hf
      unfold steady at hf
      split at hf
      next hc =>
        simp only [Bool.and_eq_true, Nat.ble_eq, bne_iff_ne] at hc
        rcases List.mem_cons.mp hf with rfl | hf
        · exact ⟨hc.2, b, h.1, hc.1⟩
        · exact ih bs h.2 f hf
      next => exact ih bs h.2 f hf

/-- Heat capacities whose bounds differ by at most a factor of 5/3. -/
theorem moderate {f : File} {b : Nat × Nat} (hb : check f b = true) {E : Env} {S : Sys} (hU : Uses E S) (q : Quantity)
    (l : ℝ) (k : Nat) (hl : l = k / 100 * Ru) (hk : 3 * b.2 + 2 * k ≤ 5 * b.1)
    (hq : ∀ T p d, value E.a S f.gas q (some T) p d
      = ((f.gas.cp T).map (· - l)).map (inUnits E.a S f.gas.mw .entropy)) : Moderate E f q := by
  have hmw := gas_mw_pos hb
  have hs := entropy_pos hU hmw
  have hk' : Kind.entropy ≠ .temperature := by simp
  have one : ∀ t p c, method q E f.gas [.scalar t, .scalar p] [] = .ok [some c] →
      ∃ cp, c = (cp - l) * inUnits E.a S f.gas.mw .entropy 1 ∧ (b.1 : ℝ) / 100 * Ru ≤ cp ∧ cp ≤ (b.2 : ℝ) / 100 * Ru := by
    intro t p c h
    have r : f.gas.Tlo ≤ toKelvin S.T.name t ∧ toKelvin S.T.name t ≤ f.gas.Thi := by
      by_contra hc
      have : toKelvin S.T.name t < f.gas.Tlo ∨ f.gas.Thi < toKelvin S.T.name t := by
        by_contra hc'
        push Not at hc'
        exact hc hc'
      have := (C34_limits E S hU f.gas hmw.ne' q t p).mpr this
      rw [h] at this
      cases this
    have hm := method_Tp hU hmw.ne' t p r.1 r.2 q
    obtain ⟨cp, e1, e2, e3⟩ := cp_bounds hb _ r.1 r.2
    rw [h, hq, e1] at hm
    simp only [Option.map_some, Except.ok.injEq, List.cons.injEq, Option.some.injEq, and_true] at hm
    exact ⟨cp, by rw [hm, inUnits_mul E.a S _ hk'], e2, e3⟩
  intro t t' p c c' h1 h2
  obtain ⟨cp, rfl, -, u1⟩ := one t p c h1
  obtain ⟨cp', rfl, u2, -⟩ := one t' p c' h2
  have n : (3 : ℝ) * b.2 + 2 * k ≤ 5 * b.1 := by exact_mod_cast hk
  have n' := mul_le_mul_of_nonneg_right n Shipped.Ru_pos.le
  rw [hl, ← mul_assoc, ← mul_assoc]
  refine mul_le_mul_of_nonneg_right ?_ hs.le
  linarith

/-- The files with their bounds. -/
def tables : List (List File × List (Nat × Nat)) :=
  [(gases1, bounds1), (gases2, bounds2), (gases3, bounds3), (gases4, bounds4), (gases5, bounds5), (gases6, bounds6), (gases7, bounds7), (gases8, bounds8), (gases9, bounds9), (gases10, bounds10), (gases11, bounds11), (gases12, bounds12), (gases13, bounds13), (gases14, bounds14), (gases15, bounds15), (gases16, bounds16), (gases17, bounds17), (gases18, bounds18), (gases19, bounds19), (gases20, bounds20), (gases21, bounds21), (gases22, bounds22), (gases23, bounds23), (gases24, bounds24), (gases25, bounds25), (gases26, bounds26), (gases27, bounds27), (gases28, bounds28), (gases29, bounds29), (gases30, bounds30), (gases31, bounds31), (gases32, bounds32), (gases33, bounds33), (gases34, bounds34), (gases35, bounds35), (gases36, bounds36), (gases37, bounds37), (gases38, bounds38), (gases39, bounds39), (gases40, bounds40), (gases41, bounds41), (gases42, bounds42), (gases43, bounds43), (gases44, bounds44), (gases45, bounds45), (gases46, bounds46), (gases47, bounds47), (gases48, bounds48), (gases49, bounds49), (gases50, bounds50), (gases51, bounds51), (gases52, bounds52), (gases53, bounds53), (gases54, bounds54), (gases55, bounds55), (gases56, bounds56), (gases57, bounds57), (gases58, bounds58), (gases59, bounds59), (gases60, bounds60), (gases61, bounds61), (gases62, bounds62)]

theorem tables_checked : ∀ t ∈ tables, checkAll t.1 t.2 = true := by
  intro t ht
  simp only [tables, List.mem_cons, List.not_mem_nil, or_false] at ht
  rcases ht with rfl | rfl | rfl | rfl | rfl | rfl | rfl | rfl | rfl | rfl | rfl | rfl | rfl | rfl | rfl | rfl | rfl | rfl | rfl | rfl | rfl | rfl | rfl | rfl | rfl | rfl | rfl | rfl | rfl | rfl | rfl | rfl | rfl | rfl | rfl | rfl | rfl | rfl | rfl | rfl | rfl | rfl | rfl | rfl | rfl | rfl | rfl | rfl | rfl | rfl | rfl | rfl | rfl | rfl | rfl | rfl | rfl | rfl | rfl | rfl | rfl | rfl
  · exact checked1
  · exact checked2
  · exact checked3
  · exact checked4
  · exact checked5
  · exact checked6
  · exact checked7
  · exact checked8
  · exact checked9
  · exact checked10
  · exact checked11
  · exact checked12
  · exact checked13
  · exact checked14
  · exact checked15
  · exact checked16
  · exact checked17
  · exact checked18
  · exact checked19
  · exact checked20
  · exact checked21
  · exact checked22
  · exact checked23
  · exact checked24
  · exact checked25
  · exact checked26
  · exact checked27
  · exact checked28
  · exact checked29
  · exact checked30
  · exact checked31
  · exact checked32
  · exact checked33
  · exact checked34
  · exact checked35
  · exact checked36
  · exact checked37
  · exact checked38
  · exact checked39
  · exact checked40
  · exact checked41
  · exact checked42
  · exact checked43
  · exact checked44
  · exact checked45
  · exact checked46
  · exact checked47
  · exact checked48
  · exact checked49
  · exact checked50
  · exact checked51
  · exact checked52
  · exact checked53
  · exact checked54
  · exact checked55
  · exact checked56
  · exact checked57
  · exact checked58
  · exact checked59
  · exact checked60
  · exact checked61
  · exact checked62

theorem tables_shipped : shipped = (tables.map (·.1)).flatten := rfl

/-- The files of moderate heat capacity among all. -/
theorem steady_all (k : Nat) : ((tables.map fun t => steady k t.1 t.2).flatten).Sublist shipped ∧
    ∀ f ∈ (tables.map fun t => steady k t.1 t.2).flatten, f.id ≠ "ig.Rb" ∧ ∃ b, check f b = true ∧ 3 * b.2 + 2 * k ≤ 5 * b.1 := by
  constructor
  · rw [tables_shipped]
    generalize tables = l
    induction l with
    | nil => simp
    | cons t l ih =>
      simp only [List.map_cons, List.flatten_cons]
      exact (steady_sublist k t.1 t.2).append ih
  · intro f hf
    simp only [List.mem_flatten, List.mem_map] at hf
    obtain ⟨l, ⟨t, ht, rfl⟩, hf⟩ := hf
    exact steady_spec k t.1 t.2 (tables_checked t ht) f hf

/-- C107, for how many gases: of 681 shipped gases other than `ig.Rb`, `cp()` varies by at most a factor of 5/3, in every
unit system. -/
theorem C107_enthalpy_gases : ∃ L : List File, L.Sublist shipped ∧ L.length = 681 ∧ ∀ f ∈ L, f.id ≠ "ig.Rb" ∧
    ∀ (E : Env) (S : Sys), Uses E S → Moderate E f .cp := by
  obtain ⟨h1, h2⟩ := steady_all 0
  refine ⟨_, h1, by decide +kernel, fun f hf => ⟨(h2 f hf).1, fun E S hU => ?_⟩⟩
  obtain ⟨b, hb, hk⟩ := (h2 f hf).2
  exact moderate hb hU .cp 0 0 (by simp) hk
    (by intro T p d; simp only [value, Gas.cpI, Option.bind_some, sub_zero, Option.map_id'])

/-- C107, for how many gases: of 588 shipped gases other than `ig.Rb`, `cv()` varies by at most a factor of 5/3, in every
unit system. -/
theorem C107_energy_gases : ∃ L : List File, L.Sublist shipped ∧ L.length = 588 ∧ ∀ f ∈ L, f.id ≠ "ig.Rb" ∧
    ∀ (E : Env) (S : Sys), Uses E S → Moderate E f .cv := by
  obtain ⟨h1, h2⟩ := steady_all 100
  refine ⟨_, h1, by decide +kernel, fun f hf => ⟨(h2 f hf).1, fun E S hU => ?_⟩⟩
  obtain ⟨b, hb, hk⟩ := (h2 f hf).2
  exact moderate hb hU .cv Ru 100 (by norm_num) hk (by intro T p d; simp only [value, Gas.cvI, Option.bind_some])

end PyroMat.Shipped.Props
