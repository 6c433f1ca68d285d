import Verif.Igt.PropsReturns
import Verif.Igt.ThermoExamples

/-!
# The hypotheses of C83 and C84 are met

The mixture of `ThermoExamples` given by temperature and density, and by temperature and entropy; and
3 kmol and 5 kmol of two gases of the same heat capacity and range, given by enthalpy, by internal
energy and by entropy, together with pressure.
-/

set_option linter.unusedSimpArgs false

namespace PyroMat.Igt.Props

open PyroMat PyroMat.Gas PyroMat.Igt PyroMat.Igt.Spec PyroMat.Config.Defaults
open PyroMat.Units PyroMat.Units.Spec PyroMat.Units.Props PyroMat.Gas.Spec PyroMat.Gas.Props

theorem mA_within : Within [0] mA.shape := .cons (by norm_num) .nil

theorem mA_shape : mA.shape = [1] := rfl

theorem call_Td : SuppliesM [num 400] [("d", num 2)] "T" (num 400) "d" (num 2) where
  len := by simp
  args := List.Perm.refl _
  ok := by constructor <;> decide

/-- At 400 K and 2 kmol/m3 the density reported is 2, the volume 1/2, and the pressure is
`2 · 1000 R · 400` Pa. -/
example : Shows (iD envK lib2 mA [num 400] [("d", num 2)]) [0] 2 ∧
    Shows (iV envK lib2 mA [num 400] [("d", num 2)]) [0] (1 / 2) ∧
    Shows (iT envK lib2 mA [num 400] [("d", num 2)]) [0] 400 ∧
    ∀ p, Shows (iP envK lib2 mA [num 400] [("d", num 2)]) [0] p → p = 2 * (1000 * Ru * 400) := by
  have hmw : meanMw lib2 mA [0] ≠ 0 :=
    (meanMw_pos (lib2_weighs _) (mA_nonneg rfl) (by rw [(mA_amounts rfl).2.2]; norm_num)).ne'
  obtain ⟨r, hr, ⟨B, b1, b2⟩, ⟨P, p1, p2⟩, -, -, -, -, -, ⟨A, a1, a2⟩, -⟩ := C84_answered_density envK sysK envK_uses lib2 mA (by simp [mA])
    (by simp [lib2]) _ _ _ _ "d" (Or.inl rfl) call_Td [1] (by simp) (by simp) (Or.inl rfl) (Or.inl rfl)
    (Or.inr (Or.inl rfl)) (by simp [mA, Mix.shape]) in400
  obtain rfl := hr (Or.inr (Or.inr rfl))
  have hd : Shows (iD envK lib2 mA [num 400] [("d", num 2)]) [0] 2 := by
    refine ⟨A, a1, ?_⟩
    have hs : SuppliesM [num 400] [("d", num 2)] "d" (num 2) "T" (num 400) :=
      ⟨call_Td.len, call_Td.args.trans (List.Perm.swap _ _ _), by constructor <;> decide⟩
    have := C83_given_density envK sysK envK_uses lib2 mA _ _ _ _ _ hs A a1 [0]
      (by rw [a2]; exact mA_within) hmw
    rw [a2]
    exact this
  have ht : Shows (iT envK lib2 mA [num 400] [("d", num 2)]) [0] 400 := by
    refine ⟨B, b1, ?_⟩
    have := C83_given_temperature envK sysK envK_uses lib2 mA _ _ _ _ _ call_Td B b1 [0]
      (by rw [b2]; exact mA_within)
    rw [b2]
    exact this
  refine ⟨hd, C83_reciprocal envK lib2 mA _ _ [0] 2 hd, ht, fun p hp => ?_⟩
  have := C83_ideal_gas_law envK sysK envK_uses lib2 mA _ _ [0] p 2 400
    ⟨P, p1, by rw [p2]; exact mA_within⟩ ⟨A, a1, by rw [a2]; exact mA_within⟩ hp hd ht hmw
    (by rw [kelvin_id]; norm_num) (by norm_num)
  rw [kelvin_id] at this
  have e1 : size (Units.pressure envK.a) sysK.p = 1 := rfl
  have e2 : size (volume : Conv ℝ) sysK.v = 1 ^ 3 := rfl
  have e3 : msize envK.a (meanMw lib2 mA [0]) sysK.m = 1 := rfl
  simpa [internal, e1, e2, e3] using this

theorem call_Tv : SuppliesM [num 400] [("v", num 2)] "T" (num 400) "v" (num 2) where
  len := by simp
  args := List.Perm.refl _
  ok := by constructor <;> decide

/-- At 400 K and 2 m3/kmol the volume reported is 2. -/
example : Shows (iV envK lib2 mA [num 400] [("v", num 2)]) [0] 2 := by
  have hmw : meanMw lib2 mA [0] ≠ 0 :=
    (meanMw_pos (lib2_weighs _) (mA_nonneg rfl) (by rw [(mA_amounts rfl).2.2]; norm_num)).ne'
  obtain ⟨r, hr, -, -, -, -, -, -, -, -, ⟨A, a1, a2⟩, -⟩ := C84_answered_density envK sysK envK_uses lib2 mA (by simp [mA])
    (by simp [lib2]) _ _ _ _ "v" (Or.inr rfl) call_Tv [1] (by simp) (by simp) (Or.inl rfl) (Or.inl rfl)
    (Or.inr (Or.inl rfl)) (by simp [mA, Mix.shape]) in400
  obtain rfl := hr (Or.inr (Or.inr rfl))
  refine ⟨A, a1, ?_⟩
  have hs : SuppliesM [num 400] [("v", num 2)] "v" (num 2) "T" (num 400) :=
    ⟨call_Tv.len, call_Tv.args.trans (List.Perm.swap _ _ _), by constructor <;> decide⟩
  have := C83_given_volume envK sysK envK_uses lib2 mA _ _ _ _ _ hs A a1 [0]
    (by rw [a2]; exact mA_within) hmw (by norm_num [entry, num])
  rw [a2]
  exact this

theorem call_Ts : SuppliesM [num 400] [("s", num 1000)] "T" (num 400) "s" (num 1000) where
  len := by simp
  args := List.Perm.refl _
  ok := by constructor <;> decide

theorem lib2_pref (s : Nat) : 0 < (lib2.gas s).pref := by
  by_cases h : s = 7 <;> norm_num [lib2, h, ig, constData]

/-- At 400 K and 1000 kJ/K the entropy reported is 1000 kJ/K. -/
example : Shows (iS envK lib2 mA [num 400] [("s", num 1000)]) [0] 1000 := by
  have hq := mA_nonneg (i := [0]) rfl
  rw [place_within mA_within] at hq
  exact (C83_entropy_round_trip envK sysK envK_uses lib2 mA (by simp [mA]) (fun s _ => lib2_pref s)
    (by simp [lib2]) _ _ _ _ call_Ts (by simp [mA, Mix.shape]) (by simp [mA, Mix.shape]) (Or.inl rfl)
    (Or.inl rfl) in400 [0] mA_within hq (by rw [(mA_amounts rfl).2.2]; norm_num)
    (fun s _ => by
      rw [kelvin_id]
      exact (lib2_sg s (by simp [entry, num]; norm_num) (by simp [entry, num]; norm_num)).1)).1

/-! ## Inversions -/

/-- Two gases of the same data. -/
noncomputable def libC : Lib Nat := { lib2 with gas := fun _ => ig constData }

/-- An inversion that starts at the solution stops there. -/
theorem iter1_hit {f : ℝ → Option (ℝ × ℝ)} {y y' x0 lo hi : ℝ} (hf : f x0 = some (y, y')) (hy : y' ≠ 0)
    (h1 : lo ≤ x0) (h2 : x0 ≤ hi) : iter1 [(f, y)] x0 lo hi = .ok ([some x0], false) := by
  have hlo : ¬ (x0 < lo ∨ x0 > hi) := by push Not; exact ⟨h1, h2⟩
  have hs : stepEl 1e-6 lo hi 20 ⟨f, y, some x0, true⟩ = .ok ⟨f, y, some x0, false⟩ := by
    unfold stepEl
    simp only [if_true, hf, sub_self, zero_div, add_zero, if_neg hy, abs_zero]
    unfold halve
    rw [if_neg hlo, exbind_ok]
    simp
    positivity
  unfold iter1
  simp only [List.map_cons, List.map_nil]
  unfold iterLoop
  simp only [List.any_cons, List.any_nil, Bool.or_false, if_true, List.mapM_cons, List.mapM_nil, hs, exOk]
  unfold iterLoop
  simp [exOk, pure, Except.pure]

theorem iterMix_hit {L : Lib Nat} {m : Mix Nat} {f : Gas → ℝ → Option (ℝ × ℝ)} {y : NArr} {lo hi v v' : ℝ}
    (hm : m.shape = [1]) (hy : y.shape = [1]) (hv : y.val [0] = some v)
    (hf : mixEval L f (rowsAt m [0]) (0.5 * (lo + hi)) = some (v, v')) (h' : v' ≠ 0) (hl : lo ≤ hi) :
    ∃ T, iterMix L m f y lo hi = .ok (T, false) ∧ T.shape = [1] ∧ T.val [0] = some (0.5 * (lo + hi)) := by
  have hat : m.at [0] = [0] := at_within (by rw [hm]; exact .cons (by norm_num) .nil)
  unfold iterMix
  rw [hm, hy, npShape_self, exbind_ok, if_neg (by simp)]
  have : indices [1] = [[0]] := rfl
  rw [this]
  simp only [List.map_cons, List.map_nil, hv, hat]
  rw [iter1_hit hf h' (by linarith) (by linarith), exbind_ok]
  exact ⟨_, rfl, rfl, rfl⟩

theorem libC_range : CommonRange libC mA 200 600 := by
  refine ⟨by norm_num, by simp [mA], fun s _ => ?_⟩
  simp [libC, ig, constData]

theorem libC_lims : limsM envK libC mA = .ok (200, 600) := by
  obtain ⟨lo, hi, e, -⟩ := lims_eq envK_uses libC mA (by simp [mA])
  rw [e, common_lims envK_uses libC_range e]

theorem mA_weigh (w : ℝ) : weigh (fun _ => w) mA [0] = 8 * w := by
  have a := mA_amounts (i := [0]) rfl
  rw [place_within mA_within] at a
  have hc : mA.c.toFinset = {7, 8} := by simp [mA]
  unfold weigh
  rw [hc, Finset.sum_pair (by norm_num), a.1, a.2.1]
  ring

theorem energy_K : (1000 : ℝ) = size (energy : Conv ℝ) sysK.e := rfl

theorem single_within {i : List Nat} (h : Within i [1]) : i = [0] := by
  cases h with
  | cons h1 h2 =>
    cases h2
    simp only [Nat.lt_one_iff] at h1
    rw [h1]

/-- A call with `h` or `e` at the value the mixture has at 400 K. -/
theorem given_mid {name : String} {f : Gas → ℝ → Option (ℝ × ℝ)}
    (hname : (name = "h" ∧ f = Gas.h) ∨ (name = "e" ∧ f = Gas.e)) {y y' : ℝ}
    (hf : f (ig constData) 400 = some (y, y')) (hy : y' ≠ 0) :
    ∃ T P, argparseM envK libC mA [] [(name, num (8 * y)), ("p", num 100000)] =
        .ok ⟨T, some P, none, true, false⟩ ∧ T.shape = [1] ∧ P.shape = [1] := by
  have hs : SuppliesM [] [(name, num (8 * y)), ("p", num 100000)] name (num (8 * y)) "p" (num 100000) :=
    ⟨by simp, List.Perm.refl _, by rcases hname with ⟨rfl, -⟩ | ⟨rfl, -⟩ <;> constructor <;> decide⟩
  have hmid : (0.5 : ℝ) * (200 + 600) = 400 := by norm_num
  have hE : ∃ T, energyM envK libC mA f 200 600 (num (8 * y)).atleast1.nan = .ok (T, false) ∧ T.shape = [1] ∧
      T.val [0] = some 400 := by
    unfold energyM
    rw [conv_ok (Does.of_acts (acts_e envK_uses none)), exbind_ok]
    have e : broadcastShape [1] mA.shape = .ok [1] := by rw [mA_shape]; rfl
    dsimp only [num, Arr.atleast1, Arr.nan]
    rw [e, exbind_ok, bto_ok (FitsR.refl _), exbind_ok]
    obtain ⟨T, t1, t2, t3⟩ := iterMix_hit (L := libC) (m := mA) (f := f) (lo := 200) (hi := 600)
      (v := 8 * y) (v' := 8 * y') (y := ⟨[1], fun i => some (8 * y * powS (size energy sysK.e / 1000) none)⟩) rfl rfl
      (by rw [powS_none', ← energy_K]; simp) (by
        rw [hmid, mixEval_eq (g := fun _ => y) (g' := fun _ => y') (fun s _ => hf), mA_weigh, mA_weigh])
      (by simpa using hy) (by norm_num)
    exact ⟨T, t1, t2, by rw [t3, hmid]⟩
  obtain ⟨T, t1, t2, t3⟩ := hE
  have hC : convertM envK libC mA 200 600 [(name, num (8 * y)), ("p", num 100000)] = .ok ⟨some (T, false),
      some ⟨[1], fun _ => some (100000 * size (pressure envK.a) sysK.p)⟩, none, none⟩ := by
    rcases hname with ⟨rfl, rfl⟩ | ⟨rfl, rfl⟩ <;>
    · unfold convertM argM argE
      simp [List.lookup_cons, conv_ok (does_in_p envK_uses), t1, exbind_ok, Except.map]
      exact ⟨rfl, rfl⟩
  obtain ⟨x, q, h1, h2, h3, h4⟩ := jointM_ok (m := mA) (a := T)
    (b := ⟨[1], fun _ => some (100000 * size (pressure envK.a) sysK.p)⟩) (sh := [1]) (by simp) (Or.inl t2)
    (Or.inl rfl) (Or.inl rfl)
  obtain ⟨e1, e2, e3, e4⟩ := jointM_inv h1
  have hx := h4 (Or.inr (Or.inl rfl))
  refine ⟨x, q, ?_, hx, by rw [← e1, hx]⟩
  rw [argparseM_pair hs, libC_lims, exbind_ok]
  unfold afterM
  dsimp only
  rw [hC, exbind_ok, solveM_Tp_eq, h1]
  simp only [Except.map, exbind_ok]
  refine rangeM_ok (by rw [hx]; simp) fun i hi => ?_
  dsimp only at hi ⊢
  rw [hx] at hi
  obtain rfl := single_within hi
  rw [(e4 [0] (by rw [hx]; rfl)).1, get_same (by rw [t2]; exact hi), t3]
  exact ⟨400, rfl, by norm_num, by norm_num⟩

theorem const_h400 : Gas.h (ig constData) 400 = some (12000, 30) := by
  refine (const_piece 400 (by norm_num) (by norm_num) _ (fun c T => (Sho.h c T, Sho.hT c T))).trans ?_
  norm_num [Sho.h, Sho.hT]

/-- Given 96000 kJ and 100000 Pa, the enthalpy reported is within 2e-6 of 96000 kJ. -/
example : ∃ y, Shows (iH envK libC mA [] [("h", num 96000), ("p", num 100000)]) [0] y ∧
    |y - 96000| ≤ 2e-6 * 96000 := by
  obtain ⟨T, P, hst, hT, hP⟩ := given_mid (Or.inl ⟨rfl, rfl⟩) const_h400 (by norm_num)
  rw [show (8 : ℝ) * 12000 = 96000 by norm_num] at hst
  have hs : SuppliesM [] [("h", num 96000), ("p", num 100000)] "h" (num 96000) "p" (num 100000) :=
    ⟨by simp, List.Perm.refl _, by constructor <;> decide⟩
  obtain ⟨D, d1, d2, -⟩ := zip_same (f := fun p t => p / (1000 * Ru * t)) hP hT
  obtain ⟨-, -, -, -, -, ⟨A, a1, a2⟩, -⟩ := state_answers envK_uses hst
    (by dsimp only; rw [hT, mA_shape]; exact FitsR.refl _) (P := P) rfl (by dsimp only; rw [hP, hT]) (D := D) d1
    (by dsimp only; rw [d2, hT])
  dsimp only at a2
  rw [hT] at a2
  obtain ⟨y, y1, y2⟩ := C83_given_enthalpy envK sysK envK_uses libC mA 200 600 30 30 0 libC_range
    (fun s _ => ⟨by norm_num, by norm_num, le_refl _, fun x h1 h2 => ⟨_, _, const_piece x h1 h2 _
      (fun c T => (Sho.h c T, Sho.hT c T)), by norm_num [Sho.hT]⟩, const_regular_h.lipschitz⟩)
    _ _ _ _ _ hs (fun st h => by rw [hst] at h; cases h; rfl) A a1 [0] (by rw [a2]; exact mA_within)
    (mA_nonneg rfl) (by rw [(mA_amounts rfl).2.2]; norm_num)
  refine ⟨y, ⟨A, a1, by rw [a2]; exact y1⟩, ?_⟩
  have e : entry (num 96000) [0] = 96000 := rfl
  rw [e] at y2
  refine y2.trans ?_
  norm_num

/-- The entropy of a kilomole of either gas at 400 K and the reference pressure. -/
noncomputable def s400 : ℝ := Sho.s ⟨30, 0, 0, 0, 0, 0, 200⟩ 400

theorem const_s400 : Gas.s (ig constData) 400 = some (s400, Sho.sT ⟨30, 0, 0, 0, 0, 0, 200⟩ 400) :=
  const_piece 400 (by norm_num) (by norm_num) _ (fun c T => (Sho.s c T, Sho.sT c T))

/-- The entropy of the mixture at 400 K and 100000 Pa. -/
noncomputable def sMix : ℝ := 8 * s400 + pressurePart libC mA [0] 100000

theorem sMix_state : ∃ T P, argparseM envK libC mA [] [("s", num sMix), ("p", num 100000)] =
    .ok ⟨T, some P, none, false, false⟩ ∧ T.shape = [1] ∧ P.shape = [1] ∧ T.val [0] = some 400 ∧
      P.val [0] = some 100000 := by
  have hs : SuppliesM [] [("s", num sMix), ("p", num 100000)] "s" (num sMix) "p" (num 100000) :=
    ⟨by simp, List.Perm.refl _, by constructor <;> decide⟩
  have hmid : (0.5 : ℝ) * (200 + 600) = 400 := by norm_num
  have hu : size (energy : Conv ℝ) sysK.e / 1000 * (size (temperature : Conv ℝ) sysK.T.name / 1.8)⁻¹ = 1 := by
    have e1 : size (energy : Conv ℝ) sysK.e = 1000 := rfl
    have e2 : size (temperature : Conv ℝ) sysK.T.name = 1.8 := rfl
    rw [e1, e2]; norm_num
  have hp : size (pressure envK.a) sysK.p = 1 := rfl
  have hC : convertM envK libC mA 200 600 [("s", num sMix), ("p", num 100000)] = .ok ⟨none,
      some ⟨[1], fun _ => some 100000⟩, none, some ⟨[1], fun _ => some sMix⟩⟩ := by
    unfold convertM argM argE
    simp only [entrM_ok envK_uses, hu]
    simp [List.lookup_cons, conv_ok (does_in_p envK_uses), exbind_ok, Except.map, hp]
    exact ⟨⟨rfl, rfl⟩, rfl, rfl⟩
  have hsp : ∃ Q, spMix libC mA ⟨[1], fun _ => some 100000⟩ = .ok Q := by
    unfold spMix
    have : classes libC mA = .ok () := by
      unfold classes
      rw [if_neg]; simp [libC, lib2]
    rw [this, exbind_ok]
    exact ⟨_, rfl⟩
  obtain ⟨Q, hQ⟩ := hsp
  have hq := mA_nonneg (i := [0]) rfl
  rw [place_within mA_within] at hq
  obtain ⟨q1, q2⟩ := spMix_val (by simp [mA]) hQ rfl mA_within rfl
  have q3 : Q.val [0] = some (pressurePart libC mA [0] 100000) := by
    rw [q2, ← pressurePart_eq mA_within hq]; rfl
  obtain ⟨Y, y1, y2, y3⟩ := zip_same (f := (· - ·)) (a := ⟨[1], fun _ => some sMix⟩) (b := Q) rfl (q1.trans mA_shape)
  have hY : Y.val [0] = some (8 * s400) := by
    rw [y3 [0] mA_within, q3]
    simp [nan2, sMix]
  obtain ⟨T, t1, t2, t3⟩ := iterMix_hit (L := libC) (m := mA) (f := Gas.s) (lo := 200) (hi := 600)
    (v := 8 * s400) (v' := 8 * Sho.sT ⟨30, 0, 0, 0, 0, 0, 200⟩ 400) (y := Y) rfl y2 hY (by
      rw [hmid, mixEval_eq (g := fun _ => s400) (g' := fun _ => Sho.sT ⟨30, 0, 0, 0, 0, 0, 200⟩ 400)
        (fun s _ => const_s400), mA_weigh, mA_weigh])
    (by norm_num [Sho.sT]) (by norm_num)
  refine ⟨T, ⟨[1], fun _ => some 100000⟩, ?_, t2, rfl, by rw [t3, hmid], rfl⟩
  rw [argparseM_pair hs, libC_lims, exbind_ok]
  unfold afterM
  dsimp only
  rw [hC, exbind_ok]
  have e : broadcastShape [1] mA.shape = .ok [1] := by rw [mA_shape]; rfl
  have e' : broadcastShape [1] [1] = .ok [1] := rfl
  unfold solveM
  dsimp only
  rw [if_neg (by simp [KwM.has, List.lookup_cons]), e, exbind_ok, e', exbind_ok, bto_ok (FitsR.refl _), exbind_ok]
  dsimp only
  rw [hQ, exbind_ok, y1, exbind_ok, t1, exbind_ok, exbind_ok]
  refine rangeM_ok (by dsimp only; rw [t2]; simp) fun i hi => ?_
  dsimp only at hi ⊢
  rw [t2] at hi
  obtain rfl := single_within hi
  rw [t3, hmid]
  exact ⟨400, rfl, by norm_num, by norm_num⟩

/-- Given its entropy at 400 K and 100000 Pa together with that pressure, the mixture reports that
entropy within 4e-6 of the part that does not depend on pressure. -/
example : ∃ x, Shows (iS envK libC mA [] [("s", num sMix), ("p", num 100000)]) [0] x ∧
    |x - sMix| ≤ 4e-6 * |8 * s400| := by
  obtain ⟨T, P, hst, hT, hP, hTv, hPv⟩ := sMix_state
  have hs : SuppliesM [] [("s", num sMix), ("p", num 100000)] "s" (num sMix) "p" (num 100000) :=
    ⟨by simp, List.Perm.refl _, by constructor <;> decide⟩
  have hq := mA_nonneg (i := [0]) rfl
  rw [place_within mA_within] at hq
  have hn : 0 < kmols mA [0] := by rw [(mA_amounts rfl).2.2]; norm_num
  have hnd : mA.c.Nodup := by simp [mA]
  obtain ⟨D, d1, d2, -⟩ := zip_same (f := fun p t => p / (1000 * Ru * t)) hP hT
  obtain ⟨sT, sP, -, -, -, -, -, -, h9⟩ := state_answers envK_uses hst
    (by dsimp only; rw [hT, mA_shape]; exact FitsR.refl _) (P := P) rfl (by dsimp only; rw [hP, hT]) (D := D) d1
    (by dsimp only; rw [d2, hT])
  dsimp only at sT sP h9
  rw [hT] at sT sP h9
  obtain ⟨⟨A, a1, a2⟩, -⟩ := h9 rfl (by simp [libC, lib2])
  have hx : ∃ x, A.val [0] = some x := by
    have a1' := a1
    unfold iS at a1'
    rw [hst, exbind_ok] at a1'
    obtain ⟨P', r1, a1'⟩ := exbind_inv a1'
    cases r1
    obtain ⟨X, r2, a1'⟩ := exbind_inv a1'
    obtain ⟨Y, r3, a1'⟩ := exbind_inv a1'
    obtain ⟨Z, r4, a1'⟩ := exbind_inv a1'
    rw [outS_ok envK_uses] at a1'
    cases a1'
    obtain ⟨x1, x2⟩ := propeval_same r2 hT mA_within hTv
    obtain ⟨y1, y2⟩ := spMix_val hnd r3 hP mA_within hPv
    rw [mixSum_weigh (g := fun _ => s400) (fun s _ => by
      show Option.map _ (Gas.s (ig constData) 400) = _
      rw [const_s400]; rfl)] at x2
    dsimp only
    rw [zip_inv r4, get_same (a := X) (by rw [x1]; exact mA_within),
      get_same (a := Y) (by rw [y1]; exact mA_within), x2, y2]
    exact ⟨_, rfl⟩
  obtain ⟨x, hx⟩ := hx
  have hsh : Shows (iS envK libC mA [] [("s", num sMix), ("p", num 100000)]) [0] x := ⟨A, a1, by rw [a2]; exact hx⟩
  refine ⟨x, hsh, ?_⟩
  have := C83_given_entropy_pressure_partial envK sysK envK_uses libC mA hnd 200 600 (30 / 600) (30 / 200) 0
    libC_range (fun s _ => ⟨by norm_num, by norm_num, le_refl _, fun t h1 h2 => ⟨_, _, const_piece t h1 h2 _
      (fun c T => (Sho.s c T, Sho.sT c T)), by
        have e : Sho.sT ⟨30, 0, 0, 0, 0, 0, 200⟩ t = 30 / t := by
          have : t ≠ 0 := by linarith
          simp only [Sho.sT]; field_simp; ring
        rw [e]
        exact div_le_div_of_nonneg_left (by norm_num) (by linarith) h2⟩, const_regular_s.lipschitz⟩)
    _ _ _ _ hs (fun st h => by rw [hst] at h; cases h; rfl) sT sP [0] mA_within hq hn x hsh 1 (by
      have e1 : size (energy : Conv ℝ) sysK.e = 1000 := rfl
      have e2 : size (temperature : Conv ℝ) sysK.T.name = 1.8 := rfl
      rw [e1, e2]; norm_num)
  have e : entry (num sMix) [0] = sMix := rfl
  have e' : entry (num 100000) [0] = 100000 := rfl
  have hp : size (Units.pressure envK.a) sysK.p = 1 := rfl
  rw [e, e', hp, mul_one, mul_one] at this
  have e3 : sMix - pressurePart libC mA [0] 100000 = 8 * s400 := by unfold sMix; ring
  rw [e3] at this
  refine this.trans ?_
  norm_num

end PyroMat.Igt.Props
