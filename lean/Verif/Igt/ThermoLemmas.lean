import Verif.Igt.PropsMeasure
import Verif.Igt.SpecThermo
import Verif.Gas.PropsThermo

/-!
# Dynamic mixtures: auxiliary facts about conversions, sums and shapes
-/

set_option linter.unusedSectionVars false
set_option linter.unusedSimpArgs false

namespace PyroMat.Igt.Props

open PyroMat PyroMat.Gas PyroMat.Igt PyroMat.Igt.Spec
open PyroMat.Units PyroMat.Units.Spec PyroMat.Units.Props PyroMat.Gas.Spec PyroMat.Gas.Props
open scoped BigOperators

variable {σ : Type} [DecidableEq σ]

/-! ## Conversions -/

/-- A conversion that succeeds on every number. -/
def Does (f : Val ℝ → Except Err (Res ℝ)) (g : ℝ → ℝ) : Prop :=
  ∀ x, scalarOf (f (.scalar x)) = .ok (g x)

theorem Does.of_acts {f : Val ℝ → Except Err (Res ℝ)} {g : ℝ → ℝ} {b : Bool} (h : Acts f g b) :
    Does f g := by
  intro x
  obtain ⟨r, h1, h2, -⟩ := h (.scalar x)
  rw [h1]
  simp [scalarOf, exOk, h2, Units.Val.map]

theorem conv_ok {f : Val ℝ → Except Err (Res ℝ)} {g : ℝ → ℝ} (h : Does f g) (a : NArr) :
    a.conv f = .ok ⟨a.shape, fun i => (a.val i).map g⟩ := by
  unfold NArr.conv
  rw [h 0, exbind_ok]
  congr 2
  funext i
  cases a.val i with
  | none => rfl
  | some x => simp [h x, Except.toOption]

section units
variable {E : Env} {S : Sys} (hU : Uses E S)
include hU

theorem does_out_e : Does (fun v => (energy : Conv ℝ).call E.c.str v (some "kJ") none none true)
    (· * (1000 / size energy S.e)) := by
  intro x
  rw [scalarOf_call hU (nz_energy hU) (k := "unit_energy") rfl hU.e hU.valid.e (y := 1000) rfl]
  rfl

theorem does_out_t :
    Does (fun v => (temperature : Conv ℝ).call E.c.str v (some "K") none (some (-1)) true)
      (· * (size temperature S.T.name / 1.8)) := by
  intro x
  rw [scalarOf_call hU (nz_temperature hU) (k := "unit_temperature") rfl hU.T (tcontains hU)
    (y := 1.8) rfl, powS_neg_one]
  rw [inv_div]

theorem does_out_T : Does (fun v => temperatureScale E.c.str v (some "K") none true)
    (fromKelvin S.T.name) := fun x => scalarOf_tscale hU x true

theorem does_out_p :
    Does (fun v => (Units.pressure E.a).call E.c.str v (some "Pa") none none true)
      (· / size (Units.pressure E.a) S.p) := by
  intro x
  rw [scalarOf_call hU (nz_pressure hU) (k := "unit_pressure") rfl hU.p hU.valid.p (y := 1) rfl]
  simp [powS, div_eq_mul_inv]

theorem outE_ok (a : NArr) :
    outE E a = .ok ⟨a.shape, fun i => (a.val i).map (· * (1000 / size energy S.e))⟩ :=
  conv_ok (does_out_e hU) a

theorem outS_ok (a : NArr) :
    outS E a = .ok ⟨a.shape, fun i => (a.val i).map
      (fun x => x * (1000 / size energy S.e) * (size temperature S.T.name / 1.8))⟩ := by
  unfold outS
  rw [outE_ok hU, exbind_ok, conv_ok (does_out_t hU)]
  congr 2
  funext i
  simp [Option.map_map, Function.comp_def]

end units

/-! ## Sums -/

/-- A sum over the rows. -/
theorem rowsAt_sum (m : Mix σ) (j : List Nat) (f : σ → ℝ → ℝ) :
    ((rowsAt m j).map (fun r => f r.1 r.2)).sum =
      ∑ r ∈ Finset.range m.c.length, (m.c[r]?.map (fun s => f s (m.q.val (r :: j)))).getD 0 := by
  unfold rowsAt
  rw [List.map_map, Finset.sum_range]
  rw [← List.sum_ofFn]
  congr 1
  apply List.ext_getElem
  · simp
  · intro k h1 h2
    simp at h1 h2 ⊢

theorem rowsAt_weigh (w : σ → ℝ) (m : Mix σ) (j : List Nat) :
    ((rowsAt m j).map (fun r => r.2 * w r.1)).sum = weigh w m j := by
  rw [rowsAt_sum m j (fun s q => q * w s), weigh_rows]
  refine Finset.sum_congr rfl fun r hr => ?_
  rw [List.getElem?_eq_getElem (Finset.mem_range.mp hr)]
  simp [mul_comm]

theorem mixSum_some {f : σ → Nan} {g : σ → ℝ} (rows : List (σ × ℝ))
    (h : ∀ r ∈ rows, f r.1 = some (g r.1)) :
    mixSum f rows = some ((rows.map (fun r => r.2 * g r.1)).sum) := by
  induction rows with
  | nil => rfl
  | cons r rows ih =>
    obtain ⟨s, q⟩ := r
    have h1 := h (s, q) (by simp)
    simp only at h1
    simp [mixSum, h1, ih (fun r hr => h r (by simp [hr])), nan2]

theorem mixSum_eq_some {f : σ → Nan} (rows : List (σ × ℝ)) {x : ℝ} (hx : mixSum f rows = some x) :
    ∀ r ∈ rows, ∃ y, f r.1 = some y := by
  induction rows generalizing x with
  | nil => simp
  | cons r rows ih =>
    obtain ⟨s, q⟩ := r
    unfold mixSum nan2 at hx
    intro r hr
    cases hf : f s with
    | none => rw [hf] at hx; simp at hx
    | some y =>
      cases hm : mixSum f rows with
      | none => rw [hf, hm] at hx; simp at hx
      | some z =>
        rcases List.mem_cons.mp hr with rfl | hr
        · exact ⟨y, hf⟩
        · exact ih hm r hr

theorem mem_rowsAt {m : Mix σ} {j : List Nat} {r : σ × ℝ} (h : r ∈ rowsAt m j) : r.1 ∈ m.c := by
  unfold rowsAt at h
  obtain ⟨p, hp, rfl⟩ := List.mem_map.mp h
  exact (List.of_mem_zip hp).1

theorem rowsAt_of_mem {m : Mix σ} (j : List Nat) {s : σ} (h : s ∈ m.c) :
    ∃ q, (s, q) ∈ rowsAt m j := by
  obtain ⟨k, hk, rfl⟩ := List.getElem_of_mem h
  refine ⟨m.q.val (k :: j), ?_⟩
  unfold rowsAt
  refine List.mem_map.mpr ⟨(m.c[k], k), ?_, rfl⟩
  rw [List.mem_iff_getElem]
  exact ⟨k, by simpa using hk, by simp⟩

theorem kmols_total (m : Mix σ) (i : List Nat) : kmols m i = total m (m.at i) := by
  have := weigh_const 1 m (m.at i)
  rw [one_mul] at this
  rw [← this]
  unfold kmols weigh
  simp only [one_mul]
  rfl

/-- A property summed over the constituents, where all of them have one. -/
theorem mixSum_weigh {m : Mix σ} {j : List Nat} {f : σ → Nan} {g : σ → ℝ}
    (h : ∀ s ∈ m.c, f s = some (g s)) : mixSum f (rowsAt m j) = some (weigh g m j) := by
  rw [mixSum_some (g := g) _ (fun r hr => h _ (mem_rowsAt hr)), rowsAt_weigh]

/-! ## Shapes -/

theorem npShape_self (s : List Nat) : npShape s s = .ok s :=
  npShape_fits s s 0 (by simpa using fits_refl s)

theorem npShape_compat {s t : List Nat} (h : Compat s t) : npShape s t = .ok (joined s t) := by
  by_cases h0 : s = []
  · subst h0; cases h; rfl
  · exact (C42_numpy_same_rank_partial s t (compat_length h) h0 _).mp (broadcastShape_compat h h0)

theorem get_same {a : NArr} {i : List Nat} (h : Within i a.shape) : a.get i = a.val i := by
  unfold NArr.get
  rw [within_length h, Nat.sub_self, List.drop_zero, clip_eq_src, src_within h]

theorem get_rank {a : NArr} {i : List Nat} (h : i.length = a.shape.length) :
    a.get i = a.val (src a.shape i) := by
  unfold NArr.get
  rw [h, Nat.sub_self, List.drop_zero, clip_eq_src]

end PyroMat.Igt.Props
