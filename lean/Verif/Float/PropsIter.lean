import Verif.Float.Iter
import Verif.Float.PropsGas
import Verif.Gas.PropsIter

/-!
# C116: the search for a temperature in floating point
-/

set_option linter.unusedSimpArgs false

namespace PyroMat.Float

open PyroMat PyroMat.Gas PyroMat.Gas.Props

variable {ε : ℝ} {A : Arith}

/-! ## The pull-back loop -/

/-- A guess that is pulled back stays near the point `c` it started from. -/
theorem halveF_spec {xmin xmax c D W : ℝ} (h0 : 0 ≤ ε) (h1 : ε ≤ 1e-6) (hA : Accurate ε A) (hW : |c| + 3 * D ≤ W) :
    ∀ (k : Nat) (x dx E : ℝ), |dx| ≤ D → |x - (c + dx)| ≤ E → E + 2 * ε * W * k ≤ W →
      (∀ x', halveF A xmin xmax k x dx = .ok x' → xmin ≤ x' ∧ x' ≤ xmax ∧ |x' - c| ≤ D + E + 2 * ε * W * k) := by
  intro k
  have stop : ∀ (k : ℕ) (x dx E : ℝ), |dx| ≤ D → |x - (c + dx)| ≤ E → ¬ (x < xmin ∨ x > xmax) →
      xmin ≤ x ∧ x ≤ xmax ∧ |x - c| ≤ D + E + 2 * ε * W * k := by
    intro k x dx E hd hE h
    obtain ⟨a, b⟩ := not_or.mp h
    have hD : 0 ≤ D := (abs_nonneg _).trans hd
    have : 0 ≤ 2 * ε * W * k := by
      have : 0 ≤ W := by have := abs_nonneg c; linarith
      positivity
    refine ⟨not_lt.mp a, not_lt.mp b, ?_⟩
    have e : x - c = (x - (c + dx)) + dx := by ring
    rw [e]
    exact (abs_add_le _ _).trans (by linarith)
  induction k with
  | zero =>
    intro x dx E hd hE _ x' hx
    unfold halveF at hx
    split at hx
    · simp at hx
    · rename_i h
      simp only [Except.ok.injEq] at hx
      subst hx
      exact stop 0 x dx E hd hE h
  | succ k ih =>
    intro x dx E hd hE hs x' hx
    unfold halveF at hx
    split at hx
    · have hD : 0 ≤ D := (abs_nonneg _).trans hd
      have hE0 : 0 ≤ E := (abs_nonneg _).trans hE
      have hc := abs_nonneg c
      have hW0 : 0 ≤ W := by linarith
      have d1 := hA.div dx 2
      unfold Within at d1
      rw [abs_div, abs_two] at d1
      have s1 := hA.sub x (A.div dx 2)
      unfold Within at s1
      have d3 : |A.div dx 2| ≤ D := by
        have := abs_add_le (A.div dx 2 - dx / 2) (dx / 2)
        rw [sub_add_cancel, abs_div, abs_two] at this
        nlinarith
      have x1 : |x - A.div dx 2 - (c + A.div dx 2)| ≤ E + ε * D := by
        have e : x - A.div dx 2 - (c + A.div dx 2) = (x - (c + dx)) + -(2 * (A.div dx 2 - dx / 2)) := by ring
        rw [e]
        refine (abs_add_le _ _).trans ?_
        rw [abs_neg, abs_mul, abs_two]
        have := mul_le_mul_of_nonneg_left hd h0
        linarith
      have x2 : |x - A.div dx 2| ≤ W + E := by
        have := abs_add_le (x - A.div dx 2 - (c + A.div dx 2)) (c + A.div dx 2)
        rw [sub_add_cancel] at this
        have h2 := abs_add_le c (A.div dx 2)
        have : ε * D ≤ 1 * D := mul_le_mul_of_nonneg_right (by linarith) hD
        linarith
      have hEW : E ≤ W := by
        have : 0 ≤ 2 * ε * W * (k + 1 : ℕ) := by positivity
        linarith
      push_cast at hs
      have x3 : |A.sub x (A.div dx 2) - (c + A.div dx 2)| ≤ E + 2 * ε * W := by
        have e : A.sub x (A.div dx 2) - (c + A.div dx 2)
            = (A.sub x (A.div dx 2) - (x - A.div dx 2)) + (x - A.div dx 2 - (c + A.div dx 2)) := by ring
        rw [e]
        refine (abs_add_le _ _).trans ?_
        -- the rounding of the difference
        have x4 : |x - A.div dx 2| ≤ |c| + 2 * D + E := by
          have := abs_add_le (x - A.div dx 2 - (c + A.div dx 2)) (c + A.div dx 2)
          rw [sub_add_cancel] at this
          have h2 := abs_add_le c (A.div dx 2)
          have : ε * D ≤ 1 * D := mul_le_mul_of_nonneg_right (by linarith) hD
          linarith
        have y1 := mul_le_mul_of_nonneg_left x4 h0
        have y2 : ε * (|c| + 2 * D + E + D) ≤ ε * (W + W) := mul_le_mul_of_nonneg_left (by linarith) h0
        linarith
      obtain ⟨a, b, r⟩ := ih _ _ (E + 2 * ε * W) d3 x3 (by linarith) x' hx
      refine ⟨a, b, r.trans (le_of_eq ?_)⟩
      push_cast; ring
    · rename_i h
      simp only [Except.ok.injEq] at hx
      subst hx
      exact stop (k + 1) x dx E hd hE h

/-! ## One pass -/

section
variable {ep xmin xmax : ℝ} {Nmax : Nat}

/-- Where the search stops: at `x` the routine is within the tolerance of the target, and `v` is a last step away. -/
def Stopped (ε : ℝ) (f : ℝ → Option (ℝ × ℝ)) (y ep xmin xmax : ℝ) (Nmax : ℕ) (v : ℝ) : Prop :=
  ∃ x yy yyx, xmin ≤ x ∧ x ≤ xmax ∧ f x = some (yy, yyx) ∧ yyx ≠ 0 ∧ |y - yy| ≤ (1 + 4 * ε) * |ep * y| ∧
    |v - x| ≤ 1.00001 * (|ep * y| / |yyx|) + 2 * (Nmax + 1) * ε * |x|

theorem within_abs_le {x y : ℝ} (h : Within ε x y) : |y| ≤ (1 + ε) * |x| := by
  unfold Within at h
  have := abs_add_le (y - x) x
  rw [sub_add_cancel] at this
  linarith

theorem le_within_abs {x y : ℝ} (h : Within ε x y) : (1 - ε) * |x| ≤ |y| := by
  unfold Within at h
  have := abs_add_le (-(y - x)) y
  rw [show -(y - x) + y = x by ring, abs_neg] at this
  linarith

theorem stepF_inact {e : El} (h : e.act = false) : stepF A ep xmin xmax Nmax e = .ok e := by
  simp [stepF, h]

/-- What one pass over an active element gives. -/
theorem stepF_spec (h0 : 0 ≤ ε) (h1 : (Nmax + 1) * ε ≤ 1e-6) (hA : Accurate ε A) {e e' : El} (hact : e.act = true)
    (hb : InB xmin xmax e.x) (h : stepF A ep xmin xmax Nmax e = .ok e') :
    e'.f = e.f ∧ e'.y = e.y ∧ InB xmin xmax e'.x ∧
    (e'.act = false → ∀ v, e'.x = some v → Stopped ε e.f e.y ep xmin xmax Nmax v) ∧
    (e'.x = none → e.x = none ∨ ∃ x, e.x = some x ∧ (e.f x = none ∨ ∃ yy, e.f x = some (yy, 0))) := by
  have hε : ε ≤ 1e-6 := by
    have : (0 : ℝ) ≤ Nmax * ε := by positivity
    linarith
  unfold stepF at h
  rw [if_pos hact] at h
  cases hx : e.x with
  | none =>
    rw [hx] at h
    simp only [Except.ok.injEq] at h
    subst h
    refine ⟨rfl, rfl, fun v hv => by simp [hx] at hv, ?_, fun _ => Or.inl rfl⟩
    intro _ v hv
    simp [hx] at hv
  | some x =>
    rw [hx] at h
    simp only at h
    cases hf : e.f x with
    | none =>
      rw [hf] at h
      simp only [Except.ok.injEq] at h
      subst h
      refine ⟨rfl, rfl, fun v hv => by simp at hv, fun _ v hv => by simp at hv, fun _ => Or.inr ⟨x, rfl, Or.inl hf⟩⟩
    | some q =>
      obtain ⟨yy, yyx⟩ := q
      rw [hf] at h
      simp only at h
      by_cases hz : yyx = 0
      · rw [if_pos hz] at h
        simp only [Except.ok.injEq] at h
        subst h
        exact ⟨rfl, rfl, fun v hv => by simp at hv, fun _ v hv => by simp at hv,
          fun _ => Or.inr ⟨x, rfl, Or.inr ⟨yy, by rw [hf, hz]⟩⟩⟩
      · rw [if_neg hz] at h
        cases hh : halveF A xmin xmax Nmax (A.add x (A.div (A.sub e.y yy) yyx)) (A.div (A.sub e.y yy) yyx) with
        | error er => rw [hh, exErr] at h; cases h
        | ok x' =>
          rw [hh, exOk] at h
          simp only [Except.ok.injEq] at h
          subst h
          have hB := hb x hx
          have fin : ∀ D, |A.div (A.sub e.y yy) yyx| ≤ D →
              xmin ≤ x' ∧ x' ≤ xmax ∧ |x' - x| ≤ D + 2 * ε * (|x| + 3 * D) * (Nmax + 1) := by
            intro D hD
            have hD0 : 0 ≤ D := (abs_nonneg _).trans hD
            have ax := abs_nonneg x
            have ha := hA.add x (A.div (A.sub e.y yy) yyx)
            unfold Within at ha
            have hE : |A.add x (A.div (A.sub e.y yy) yyx) - (x + A.div (A.sub e.y yy) yyx)| ≤ 2 * ε * (|x| + 3 * D) := by
              refine ha.trans ?_
              have := abs_add_le x (A.div (A.sub e.y yy) yyx)
              have : |x + A.div (A.sub e.y yy) yyx| ≤ 2 * (|x| + 3 * D) := by linarith
              calc _ ≤ ε * (2 * (|x| + 3 * D)) := mul_le_mul_of_nonneg_left this h0
                _ = _ := by ring
            obtain ⟨p1, p2, p3⟩ := halveF_spec (D := D) h0 hε hA le_rfl Nmax _ _ _ hD hE (by
              have e1 : 2 * ε * (|x| + 3 * D) + 2 * ε * (|x| + 3 * D) * Nmax
                  = 2 * ((Nmax + 1) * ε) * (|x| + 3 * D) := by ring
              rw [e1]
              have : 0 ≤ |x| + 3 * D := by linarith
              nlinarith) x' hh
            exact ⟨p1, p2, p3.trans (le_of_eq (by ring))⟩
          obtain ⟨b1, b2, -⟩ := fin _ le_rfl
          refine ⟨rfl, rfl, ?_, ?_, fun hn => by simp at hn⟩
          · intro v hv; simp only [Option.some.injEq] at hv; subst hv; exact ⟨b1, b2⟩
          · intro hna v hv
            simp only [Option.some.injEq] at hv; subst hv
            simp only [decide_eq_false_iff_not, not_lt] at hna
            have t0 := abs_nonneg (ep * e.y)
            have c1 := within_abs_le (hA.mul ep e.y)
            have c2 := le_within_abs (hA.sub e.y yy)
            have c3 := within_abs_le (hA.div (A.sub e.y yy) yyx)
            rw [abs_div] at c3
            have c4 : |A.sub e.y yy| ≤ (1 + ε) * |ep * e.y| := hna.trans c1
            have py : 0 < |yyx| := abs_pos.mpr hz
            have acc : |e.y - yy| ≤ (1 + 4 * ε) * |ep * e.y| := by
              have k1 : (1 - ε) * |e.y - yy| ≤ (1 + ε) * |ep * e.y| := c2.trans c4
              have k2 : (1 + ε) ≤ (1 - ε) * (1 + 4 * ε) := by nlinarith
              have k3 : (1 - ε) * |e.y - yy| ≤ (1 - ε) * ((1 + 4 * ε) * |ep * e.y|) := by
                refine k1.trans ?_
                rw [← mul_assoc]
                exact mul_le_mul_of_nonneg_right k2 t0
              exact le_of_mul_le_mul_left k3 (by linarith)
            refine ⟨x, yy, yyx, hB.1, hB.2, hf, hz, acc, ?_⟩
            have q0 : 0 ≤ |ep * e.y| / |yyx| := by positivity
            have hD : |A.div (A.sub e.y yy) yyx| ≤ 1.000003 * (|ep * e.y| / |yyx|) := by
              refine c3.trans ?_
              have : |A.sub e.y yy| / |yyx| ≤ (1 + ε) * (|ep * e.y| / |yyx|) := by
                rw [← mul_div_assoc]
                exact div_le_div_of_nonneg_right c4 py.le
              have := mul_le_mul_of_nonneg_left this (show 0 ≤ 1 + ε by linarith)
              refine this.trans ?_
              rw [← mul_assoc]
              exact mul_le_mul_of_nonneg_right (by nlinarith) q0
            obtain ⟨-, -, b3⟩ := fin _ hD
            refine b3.trans ?_
            generalize |ep * e.y| / |yyx| = u at *
            have : (Nmax + 1) * ε * u ≤ 1e-6 * u := mul_le_mul_of_nonneg_right h1 q0
            nlinarith [this]

theorem loopF_inact {n : Nat} {e : El} (h : e.act = false) : loopF A ep xmin xmax Nmax n e = .ok (e, false) := by
  unfold loopF; simp [h]

/-- The result of the search. -/
theorem loopF_spec (h0 : 0 ≤ ε) (h1 : (Nmax + 1) * ε ≤ 1e-6) (hA : Accurate ε A) : ∀ (n : Nat) (e e' : El) (w : Bool),
    e.act = true → InB xmin xmax e.x → loopF A ep xmin xmax Nmax n e = .ok (e', w) →
    InB xmin xmax e'.x ∧
    (w = false → ∀ v, e'.x = some v → Stopped ε e.f e.y ep xmin xmax Nmax v) ∧
    ((∀ x, xmin ≤ x → x ≤ xmax → ∃ yy yyx, e.f x = some (yy, yyx) ∧ yyx ≠ 0) → e.x ≠ none → e'.x ≠ none) := by
  have nn : ∀ {e e' : El}, e.act = true → InB xmin xmax e.x → stepF A ep xmin xmax Nmax e = .ok e' →
      (∀ x, xmin ≤ x → x ≤ xmax → ∃ yy yyx, e.f x = some (yy, yyx) ∧ yyx ≠ 0) → e.x ≠ none → e'.x ≠ none := by
    intro e e' ha hb hs hgood hx hn
    obtain ⟨-, -, -, -, h5⟩ := stepF_spec h0 h1 hA ha hb hs
    rcases h5 hn with h | ⟨x, hx', h | ⟨yy, h⟩⟩
    · exact hx h
    · obtain ⟨h1, h2⟩ := hb x hx'
      obtain ⟨a, b, hab, -⟩ := hgood x h1 h2
      rw [h] at hab; cases hab
    · obtain ⟨h1, h2⟩ := hb x hx'
      obtain ⟨a, b, hab, hb0⟩ := hgood x h1 h2
      rw [h] at hab; cases hab; exact hb0 rfl
  intro n
  induction n with
  | zero =>
    intro e e' w ha hb h
    unfold loopF at h
    rw [if_pos ha] at h
    cases hs : stepF A ep xmin xmax Nmax e with
    | error er => rw [hs, exErr] at h; cases h
    | ok e1 =>
      rw [hs, exOk] at h
      simp only [Except.ok.injEq, Prod.mk.injEq] at h
      obtain ⟨rfl, rfl⟩ := h
      obtain ⟨-, -, k3, -, -⟩ := stepF_spec h0 h1 hA ha hb hs
      exact ⟨k3, fun hw => by simp at hw, nn ha hb hs⟩
  | succ n ih =>
    intro e e' w ha hb h
    unfold loopF at h
    rw [if_pos ha] at h
    cases hs : stepF A ep xmin xmax Nmax e with
    | error er => rw [hs, exErr] at h; cases h
    | ok e1 =>
      rw [hs, exOk] at h
      change loopF A ep xmin xmax Nmax n e1 = .ok (e', w) at h
      obtain ⟨k1, k2, k3, k4, -⟩ := stepF_spec h0 h1 hA ha hb hs
      cases hact : e1.act with
      | false =>
        rw [loopF_inact hact] at h
        simp only [Except.ok.injEq, Prod.mk.injEq] at h
        obtain ⟨rfl, rfl⟩ := h
        exact ⟨k3, fun _ => k4 hact, nn ha hb hs⟩
      | true =>
        obtain ⟨r1, r2, r3⟩ := ih e1 e' w hact k3 h
        rw [k1, k2] at r2
        rw [k1] at r3
        exact ⟨r1, r2, fun hg hne => r3 hg (nn ha hb hs hg hne)⟩

/-- Errors are analysis errors. -/
theorem halveF_error : ∀ (k : Nat) (x dx : ℝ) (er : Err), halveF A xmin xmax k x dx = .error er → er = .analysis := by
  intro k
  induction k with
  | zero =>
    intro x dx er h
    unfold halveF at h
    split at h
    · simp at h; exact h.symm
    · cases h
  | succ k ih =>
    intro x dx er h
    unfold halveF at h
    split at h
    · exact ih _ _ _ h
    · cases h

theorem stepF_error {e : El} {er : Err} (h : stepF A ep xmin xmax Nmax e = .error er) : er = .analysis := by
  unfold stepF at h
  split at h
  · split at h
    · cases h
    · split at h
      · cases h
      · dsimp only at h
        split at h
        · cases h
        · rename_i x _ _ yy yyx _ _
          cases hh : halveF A xmin xmax Nmax (A.add x (A.div (A.sub e.y yy) yyx)) (A.div (A.sub e.y yy) yyx) with
          | error e' => rw [hh, exErr] at h; cases h; exact halveF_error _ _ _ _ hh
          | ok x' => rw [hh, exOk] at h; cases h
  · cases h

theorem loopF_error : ∀ (n : Nat) (e : El) (er : Err), loopF A ep xmin xmax Nmax n e = .error er → er = .analysis := by
  intro n
  induction n with
  | zero =>
    intro e er h
    unfold loopF at h
    split at h
    · cases hs : stepF A ep xmin xmax Nmax e with
      | error e' => rw [hs, exErr] at h; cases h; exact stepF_error hs
      | ok e' => rw [hs, exOk] at h; cases h
    · cases h
  | succ n ih =>
    intro e er h
    unfold loopF at h
    split at h
    · cases hs : stepF A ep xmin xmax Nmax e with
      | error e' => rw [hs, exErr] at h; cases h; exact stepF_error hs
      | ok e' => rw [hs, exOk] at h; exact ih _ _ h
    · cases h

/-! ## Exact arithmetic -/

theorem exact_halve : ∀ (k : Nat) (x dx : ℝ), halveF exact xmin xmax k x dx = halve xmin xmax k x dx := by
  intro k
  induction k with
  | zero => intro x dx; unfold halveF halve; rfl
  | succ k ih =>
    intro x dx
    unfold halveF halve
    rw [show exact.div dx 2 = dx / 2 from rfl, show exact.sub x (dx / 2) = x - dx / 2 from rfl]
    simp only [ih]

theorem exact_step (e : El) : stepF exact ep xmin xmax Nmax e = stepEl ep xmin xmax Nmax e := by
  unfold stepF stepEl
  simp only [exact_halve]
  rfl

theorem exact_loop : ∀ (n : Nat) (e : El), loopF exact ep xmin xmax Nmax n e = single ep xmin xmax Nmax n e := by
  intro n
  induction n with
  | zero => intro e; unfold loopF single; simp only [exact_step]
  | succ n ih => intro e; unfold loopF single; simp only [exact_step, ih]

end

namespace Props

/-- C116.  With exact arithmetic the search is that of the exact model. -/
theorem C116_exact (f : ℝ → Option (ℝ × ℝ)) (y x0 xmin xmax ep : ℝ) (Nmax : Nat) :
    iter1 [(f, y)] x0 xmin xmax ep Nmax = (searchF exact f y x0 xmin xmax ep Nmax).map (fun r => ([r.1], r.2)) := by
  unfold iter1 searchF
  rw [exact_loop, iterLoop_eq]
  simp only [List.map_cons, List.map_nil, List.mapM_cons, List.mapM_nil]
  cases single ep xmin xmax Nmax Nmax ⟨f, y, some x0, true⟩ with
  | error e => rfl
  | ok r => simp [exOk, Except.map, pure, Except.pure]

/-- C116.  Let every operation be accurate to `ε`.  A search between bounds never leaves them, and it ends with a
temperature, with NaN, or with an analysis error. -/
theorem C116_bounds (h0 : 0 ≤ ε) {Nmax : ℕ} (h1 : (Nmax + 1) * ε ≤ 1e-6) (hA : Accurate ε A) (f : ℝ → Option (ℝ × ℝ))
    (y x0 xmin xmax ep : ℝ) (hx : xmin ≤ x0 ∧ x0 ≤ xmax) :
    (∀ v w, searchF A f y x0 xmin xmax ep Nmax = .ok (some v, w) → xmin ≤ v ∧ v ≤ xmax) ∧
    (∀ er, searchF A f y x0 xmin xmax ep Nmax = .error er → er = .analysis) := by
  unfold searchF
  cases h : loopF A ep xmin xmax Nmax Nmax ⟨f, y, some x0, true⟩ with
  | error er => exact ⟨fun _ _ h => by simp [exErr] at h, fun er' h' => by
      simp only [exErr, Except.error.injEq] at h'; subst h'; exact loopF_error _ _ _ h⟩
  | ok r =>
    refine ⟨fun v w h' => ?_, fun _ h' => by simp [exOk] at h'⟩
    simp only [exOk, Except.ok.injEq, Prod.mk.injEq] at h'
    exact (loopF_spec h0 h1 hA Nmax _ r.1 r.2 rfl (fun v hv => by
      simp only [Option.some.injEq] at hv; subst hv; exact hx) h).1 v h'.1

/-- C116.  Let every operation be accurate to `ε`.  Let `F` be a function and `f` a routine that returns `F` with an
error of at most `δ` together with a slope of size at least `m`.  If `F` changes by at most `M` times the change of its
argument, apart from jumps of at most `J`, then a search for the target `y` that stops without a warning ends at a
number `v` between the bounds, and `F v` is `y` to the tolerance `(1 + M/m) |ep y|`, apart from the jump, the error of
the routine and the rounding of the steps. -/
theorem C116_value (h0 : 0 ≤ ε) {Nmax : ℕ} (h1 : (Nmax + 1) * ε ≤ 1e-6) (hA : Accurate ε A) (f : ℝ → Option (ℝ × ℝ))
    (F : ℝ → ℝ) (y x0 xmin xmax ep m M J δ B : ℝ) (hm : 0 < m) (hM : 0 ≤ M) (hx : xmin ≤ x0 ∧ x0 ≤ xmax)
    (hB : ∀ x, xmin ≤ x → x ≤ xmax → |x| ≤ B)
    (hf : ∀ x, xmin ≤ x → x ≤ xmax → ∃ yy yyx, f x = some (yy, yyx) ∧ |yy - F x| ≤ δ ∧ m ≤ |yyx|)
    (hF : ∀ x x', xmin ≤ x → x ≤ xmax → xmin ≤ x' → x' ≤ xmax → |F x - F x'| ≤ M * |x - x'| + J)
    (r : Nan) (h : searchF A f y x0 xmin xmax ep Nmax = .ok (r, false)) :
    ∃ v, r = some v ∧ xmin ≤ v ∧ v ≤ xmax ∧
      |F v - y| ≤ 1.00001 * (1 + M / m) * |ep * y| + J + δ + 2 * (Nmax + 1) * ε * (M * B) := by
  unfold searchF at h
  cases hl : loopF A ep xmin xmax Nmax Nmax ⟨f, y, some x0, true⟩ with
  | error er => rw [hl, exErr] at h; cases h
  | ok q =>
    rw [hl, exOk] at h
    simp only [Except.ok.injEq, Prod.mk.injEq] at h
    obtain ⟨hr, hw⟩ := h
    obtain ⟨a1, a2, a3⟩ := loopF_spec h0 h1 hA Nmax _ q.1 q.2 rfl (fun v hv => by
      simp only [Option.some.injEq] at hv; subst hv; exact hx) hl
    have hne := a3 (fun x p1 p2 => by
      obtain ⟨yy, yyx, e1, -, e3⟩ := hf x p1 p2
      exact ⟨yy, yyx, e1, fun hz => by rw [hz, abs_zero] at e3; linarith⟩) (by simp)
    rw [hr] at a1 a2 hne
    cases r with
    | none => exact absurd rfl hne
    | some v =>
      obtain ⟨v1, v2⟩ := a1 v rfl
      refine ⟨v, rfl, v1, v2, ?_⟩
      obtain ⟨x, yy, yyx, p1, p2, p3, -, p5, p6⟩ := a2 hw v rfl
      obtain ⟨yy', yyx', e1, e2, e3⟩ := hf x p1 p2
      simp only at p3 p5 p6
      rw [p3] at e1
      simp only [Option.some.injEq, Prod.mk.injEq] at e1
      obtain ⟨rfl, rfl⟩ := e1
      have t0 := abs_nonneg (ep * y)
      have hq : |ep * y| / |yyx| ≤ |ep * y| / m := div_le_div_of_nonneg_left t0 hm e3
      have hn : (0 : ℝ) ≤ 2 * (Nmax + 1) * ε := by positivity
      have s1 : |v - x| ≤ 1.00001 * (|ep * y| / m) + 2 * (Nmax + 1) * ε * B := by
        have := mul_le_mul_of_nonneg_left (hB x p1 p2) hn
        linarith
      have s2 := mul_le_mul_of_nonneg_left s1 hM
      have s3 := hF v x v1 v2 p1 p2
      have e : F v - y = (F v - F x) + -(yy - F x) + -(y - yy) := by ring
      have hε : ε ≤ 1e-6 := by
        have : (0 : ℝ) ≤ Nmax * ε := by positivity
        linarith
      have s4 : |y - yy| ≤ 1.00001 * |ep * y| := p5.trans (mul_le_mul_of_nonneg_right (by linarith) t0)
      rw [e]
      refine (abs_add_le _ _).trans ?_
      have s5 := abs_add_le (F v - F x) (-(yy - F x))
      rw [abs_neg] at s5 ⊢
      have e2' : M * (1.00001 * (|ep * y| / m) + 2 * (Nmax + 1) * ε * B)
          = 1.00001 * (M / m) * |ep * y| + 2 * (Nmax + 1) * ε * (M * B) := by
        field_simp
      linarith

end Props

end PyroMat.Float
