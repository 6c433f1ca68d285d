import Mathlib.Tactic.Linarith
import Mathlib.Tactic.Positivity
import Mathlib.Tactic.Ring
import Mathlib.Tactic.FieldSimp
import Verif.Gas.Model

/-!
# C35: the scalar inversion `_iter1`
-/

set_option linter.unusedSimpArgs false

namespace PyroMat.Gas.Props

open PyroMat PyroMat.Gas

/-! ## Helpers -/

theorem exOk {α β : Type} (x : α) (f : α → Except Err β) : (Except.ok x >>= f) = f x := rfl
theorem exErr {α β : Type} (e : Err) (f : α → Except Err β) :
    ((Except.error e : Except Err α) >>= f) = .error e := rfl

/-- Two elementwise passes fuse when every failure is the same error. -/
theorem mapM_fuse {α β γ : Type} (err : Err) (f : α → Except Err β) (g : β → Except Err γ)
    (hf : ∀ x e, f x = .error e → e = err) (hg : ∀ x e, g x = .error e → e = err) (l : List α) :
    (l.mapM f >>= fun l' => l'.mapM g) = l.mapM (fun x => f x >>= g) := by
  have herr : ∀ (l : List β) e, l.mapM g = .error e → e = err := by
    intro l
    induction l with
    | nil => intro e h; simp [pure, Except.pure] at h
    | cons a l ih =>
      intro e h
      rw [List.mapM_cons] at h
      cases ha : g a with
      | error e' => rw [ha, exErr] at h; cases h; exact hg _ _ ha
      | ok b =>
        rw [ha, exOk] at h
        cases hl : l.mapM g with
        | error e' => rw [hl, exErr] at h; cases h; exact ih _ hl
        | ok b => rw [hl, exOk] at h; cases h
  have herr' : ∀ (l : List α) e, l.mapM f = .error e → e = err := by
    intro l
    induction l with
    | nil => intro e h; simp [pure, Except.pure] at h
    | cons a l ih =>
      intro e h
      rw [List.mapM_cons] at h
      cases ha : f a with
      | error e' => rw [ha, exErr] at h; cases h; exact hf _ _ ha
      | ok b =>
        rw [ha, exOk] at h
        cases hl : l.mapM f with
        | error e' => rw [hl, exErr] at h; cases h; exact ih _ hl
        | ok b => rw [hl, exOk] at h; cases h
  induction l with
  | nil => simp
  | cons a l ih =>
    rw [List.mapM_cons, List.mapM_cons, ← ih]
    cases ha : f a with
    | error e => simp [exErr]
    | ok b =>
      simp only [exOk]
      cases hl : l.mapM f with
      | error e =>
        simp only [exErr]
        have he := herr' l e hl
        cases hb : g b with
        | error e' => simp [exErr, he, hg _ _ hb]
        | ok c => simp [exOk]
      | ok l' =>
        show List.mapM g (b :: l') = _
        rw [List.mapM_cons]
        rfl

theorem mapM_congr {α β : Type} {f g : α → Except Err β} {l : List α} (h : ∀ x ∈ l, f x = g x) :
    l.mapM f = l.mapM g := by
  induction l with
  | nil => simp
  | cons a l ih =>
    rw [List.mapM_cons, List.mapM_cons, h a List.mem_cons_self,
      ih (fun x hx => h x (List.mem_cons_of_mem _ hx))]

/-- What a successful elementwise pass gives. -/
theorem mapM_ok {α β : Type} {f : α → Except Err β} {l : List α} {r : List β}
    (h : l.mapM f = .ok r) : List.Forall₂ (fun a b => f a = .ok b) l r := by
  induction l generalizing r with
  | nil => simp [pure, Except.pure] at h; subst h; exact .nil
  | cons a l ih =>
    rw [List.mapM_cons] at h
    cases ha : f a with
    | error e => rw [ha, exErr] at h; cases h
    | ok b =>
      rw [ha, exOk] at h
      cases hl : l.mapM f with
      | error e => rw [hl, exErr] at h; cases h
      | ok b' =>
        rw [hl, exOk] at h
        simp only [pure, Except.pure, Except.ok.injEq] at h
        subst h
        exact .cons ha (ih hl)

theorem mapM_ok_of {α β : Type} {f : α → Except Err β} {l : List α} {r : List β}
    (h : List.Forall₂ (fun a b => f a = .ok b) l r) : l.mapM f = .ok r := by
  induction h with
  | nil => rfl
  | cons hab _ ih => rw [List.mapM_cons, hab, exOk, ih]; rfl

theorem mapM_error_of {α β : Type} {f : α → Except Err β} {l : List α} {e : Err}
    (h : l.mapM f = .error e) : ∃ a ∈ l, f a = .error e := by
  induction l with
  | nil => simp [pure, Except.pure] at h
  | cons a l ih =>
    rw [List.mapM_cons] at h
    cases ha : f a with
    | error e' => rw [ha, exErr] at h; cases h; exact ⟨a, List.mem_cons_self, ha⟩
    | ok b =>
      rw [ha, exOk] at h
      cases hl : l.mapM f with
      | error e' =>
        rw [hl, exErr] at h; cases h
        obtain ⟨x, hx, he⟩ := ih hl
        exact ⟨x, List.mem_cons_of_mem _ hx, he⟩
      | ok b' => rw [hl, exOk] at h; cases h

/-! ## The pull-back loop -/

theorem halve_spec {xmin xmax : ℝ} : ∀ (k : Nat) (x dx : ℝ),
    (∀ x', halve xmin xmax k x dx = .ok x' → xmin ≤ x' ∧ x' ≤ xmax ∧
      ∃ j ≤ k, x' = (x - dx) + dx / 2 ^ j) ∧
    (∀ e, halve xmin xmax k x dx = .error e → e = .analysis) := by
  intro k
  induction k with
  | zero =>
    intro x dx
    unfold halve
    split
    · simp
    · rename_i h
      simp only [Except.ok.injEq, reduceCtorEq, false_implies, implies_true, and_true]
      intro x' hx; subst hx
      obtain ⟨h1, h2⟩ := not_or.mp h
      exact ⟨not_lt.mp h1, not_lt.mp h2, 0, le_refl _, by simp⟩
  | succ k ih =>
    intro x dx
    unfold halve
    split
    · refine ⟨fun x' hx => ?_, (ih (x - dx / 2) (dx / 2)).2⟩
      obtain ⟨h1, h2, j, hj, h3⟩ := (ih (x - dx / 2) (dx / 2)).1 x' hx
      refine ⟨h1, h2, j + 1, by omega, ?_⟩
      rw [h3, pow_succ]
      have : (2:ℝ) ^ j ≠ 0 := by positivity
      field_simp
      ring
    · rename_i h
      simp only [Except.ok.injEq, reduceCtorEq, false_implies, implies_true, and_true]
      intro x' hx; subst hx
      obtain ⟨h1, h2⟩ := not_or.mp h
      exact ⟨not_lt.mp h1, not_lt.mp h2, 0, by omega, by simp⟩

/-! ## One element -/

/-- `_iter1` on a one-element array. -/
noncomputable def single (ep xmin xmax : ℝ) (Nmax : Nat) : Nat → El → Except Err (El × Bool)
  | n, e =>
    if e.act then do
      let e' ← stepEl ep xmin xmax Nmax e
      match n with
      | 0 => .ok (e', true)
      | n + 1 => single ep xmin xmax Nmax n e'
    else .ok (e, false)

section
variable {ep xmin xmax : ℝ} {Nmax : Nat}

theorem stepEl_inact {e : El} (h : e.act = false) : stepEl ep xmin xmax Nmax e = .ok e := by
  simp [stepEl, h]

theorem stepEl_error {e : El} {er : Err} (h : stepEl ep xmin xmax Nmax e = .error er) :
    er = .analysis := by
  unfold stepEl at h
  split at h
  · split at h
    · cases h
    · split at h
      · cases h
      · dsimp only at h
        split at h
        · cases h
        · rename_i x _ _ yy yyx _ _
          cases hh : halve xmin xmax Nmax (x + (e.y - yy) / yyx) ((e.y - yy) / yyx) with
          | error e' =>
            rw [hh, exErr] at h; cases h
            exact (halve_spec _ _ _).2 _ hh
          | ok x' => rw [hh, exOk] at h; cases h
  · cases h

theorem single_error : ∀ (n : Nat) (e : El) (er : Err),
    single ep xmin xmax Nmax n e = .error er → er = .analysis := by
  intro n
  induction n with
  | zero =>
    intro e er h
    unfold single at h
    split at h
    · cases hs : stepEl ep xmin xmax Nmax e with
      | error e' => rw [hs, exErr] at h; cases h; exact stepEl_error hs
      | ok e' => rw [hs, exOk] at h; cases h
    · cases h
  | succ n ih =>
    intro e er h
    unfold single at h
    split at h
    · cases hs : stepEl ep xmin xmax Nmax e with
      | error e' => rw [hs, exErr] at h; cases h; exact stepEl_error hs
      | ok e' => rw [hs, exOk] at h; exact ih _ _ h
    · cases h

theorem single_inact {n : Nat} {e : El} (h : e.act = false) :
    single ep xmin xmax Nmax n e = .ok (e, false) := by
  unfold single; simp [h]

theorem single_succ (n : Nat) (e : El) :
    single ep xmin xmax Nmax (n + 1) e
      = (stepEl ep xmin xmax Nmax e >>= single ep xmin xmax Nmax n) := by
  cases h : e.act with
  | false => rw [stepEl_inact h, exOk, single_inact h, single_inact h]
  | true => rw [single]; simp [h]

theorem single_zero (e : El) :
    single ep xmin xmax Nmax 0 e
      = (stepEl ep xmin xmax Nmax e >>= fun e' => .ok (e', e.act)) := by
  cases h : e.act with
  | false => rw [stepEl_inact h, exOk, single_inact h]
  | true => rw [single]; simp [h]

/-- The array loop is the elementwise loop. -/
theorem iterLoop_eq : ∀ (n : Nat) (es : List El),
    iterLoop ep xmin xmax Nmax n es
      = (es.mapM (single ep xmin xmax Nmax n)).map (fun rs => (rs.map (·.1), rs.any (·.2))) := by
  have hnone : ∀ (n : Nat) (es : List El), es.any (·.act) = false →
      es.mapM (single ep xmin xmax Nmax n) = .ok (es.map (fun e => (e, false))) := by
    intro n es h
    apply mapM_ok_of
    rw [List.forall₂_map_right_iff]
    apply List.forall₂_same.mpr
    intro e he
    apply single_inact
    rw [List.any_eq_false] at h
    simpa using h e he
  intro n
  induction n with
  | zero =>
    intro es
    unfold iterLoop
    split
    · rename_i hact
      have hz : ∀ es : List El, es.mapM (single ep xmin xmax Nmax 0)
          = (es.mapM (stepEl ep xmin xmax Nmax)).map (fun l => List.zipWith (fun (e : El) (e' : El) => (e', e.act)) es l) := by
        intro es
        induction es with
        | nil => rfl
        | cons a l ih =>
          rw [List.mapM_cons, List.mapM_cons, ih, single_zero]
          cases stepEl ep xmin xmax Nmax a with
          | error e => rfl
          | ok a' =>
            simp only [exOk]
            cases l.mapM (stepEl ep xmin xmax Nmax) with
            | error e => rfl
            | ok l' => rfl
      rw [hz]
      cases hs : es.mapM (stepEl ep xmin xmax Nmax) with
      | error e => rfl
      | ok l =>
        have hlen : es.length = l.length := (mapM_ok hs).length_eq
        simp only [exOk, Except.map]
        congr 1
        refine Prod.ext ?_ ?_
        · simp only [List.map_zipWith]
          have hz2 : ∀ (es l : List El), es.length = l.length →
              l = List.zipWith (fun (_ : El) (e' : El) => e') es l := by
            intro es
            induction es with
            | nil => intro l hl; cases l with
              | nil => rfl
              | cons b l => simp at hl
            | cons a es ih =>
              intro l hl
              cases l with
              | nil => simp at hl
              | cons b l =>
                rw [List.zipWith_cons_cons, ← ih l (by simpa using hl)]
          exact hz2 es l hlen
        · have hh : ∀ (es l : List El), es.length = l.length →
              (List.zipWith (fun (e : El) (e' : El) => (e', e.act)) es l).any (·.2)
                = es.any (·.act) := by
            intro es
            induction es with
            | nil => intro l _; simp
            | cons a es ih =>
              intro l hl
              cases l with
              | nil => simp at hl
              | cons b l => simp [ih l (by simpa using hl)]
          rw [hh es l hlen, hact]
    · rename_i hact
      rw [hnone 0 es (by simpa using hact)]
      simp [Except.map, List.map_map, Function.comp_def]
  | succ n ih =>
    intro es
    unfold iterLoop
    split
    · have hf : (fun e => single ep xmin xmax Nmax (n + 1) e)
          = (fun e => stepEl ep xmin xmax Nmax e >>= single ep xmin xmax Nmax n) := by
        funext e; exact single_succ n e
      rw [show es.mapM (single ep xmin xmax Nmax (n + 1))
          = es.mapM (fun e => stepEl ep xmin xmax Nmax e >>= single ep xmin xmax Nmax n) from by
        rw [← hf]]
      rw [← mapM_fuse .analysis _ _ (fun _ _ h => stepEl_error h) (fun _ _ h => single_error _ _ _ h)]
      cases hs : es.mapM (stepEl ep xmin xmax Nmax) with
      | error e => rfl
      | ok l => simp only [exOk, ih]
    · rename_i hact
      rw [hnone (n + 1) es (by simpa using hact)]
      simp [Except.map, List.map_map, Function.comp_def]

/-! ## Invariants of one element -/

/-- NaN or within the bounds. -/
def InB (xmin xmax : ℝ) (x : Nan) : Prop := ∀ v, x = some v → xmin ≤ v ∧ v ≤ xmax

/-- What one pass over an active element gives. -/
theorem stepEl_spec {e e' : El} (hact : e.act = true) (hb : InB xmin xmax e.x)
    (h : stepEl ep xmin xmax Nmax e = .ok e') :
    e'.f = e.f ∧ e'.y = e.y ∧ InB xmin xmax e'.x ∧
    (e'.act = false → ∀ v, e'.x = some v → ∃ x yy yyx, e.x = some x ∧ e.f x = some (yy, yyx) ∧
      |e.y - yy| ≤ |ep * e.y| ∧ yyx ≠ 0 ∧ ∃ j ≤ Nmax, v = x + (e.y - yy) / yyx / 2 ^ j) ∧
    (e'.x = none → e.x = none ∨ ∃ x, e.x = some x ∧ (e.f x = none ∨ ∃ yy, e.f x = some (yy, 0))) := by
  unfold stepEl at h
  rw [if_pos hact] at h
  cases hx : e.x with
  | none =>
    rw [hx] at h
    simp only [Except.ok.injEq] at h
    subst h
    refine ⟨rfl, rfl, fun v hv => by simp [hx] at hv, ?_, fun _ => Or.inl rfl⟩
    intro _ v hv
    simp [hx] at hv
  | some x =>
    rw [hx] at h
    simp only at h
    cases hf : e.f x with
    | none =>
      rw [hf] at h
      simp only [Except.ok.injEq] at h
      subst h
      refine ⟨rfl, rfl, fun v hv => by simp at hv, fun _ v hv => by simp at hv, fun _ => Or.inr ⟨x, rfl, Or.inl hf⟩⟩
    | some q =>
      obtain ⟨yy, yyx⟩ := q
      rw [hf] at h
      simp only at h
      by_cases h0 : yyx = 0
      · rw [if_pos h0] at h
        simp only [Except.ok.injEq] at h
        subst h
        exact ⟨rfl, rfl, fun v hv => by simp at hv, fun _ v hv => by simp at hv, fun _ => Or.inr ⟨x, rfl, Or.inr ⟨yy, by rw [hf, h0]⟩⟩⟩
      · rw [if_neg h0] at h
        cases hh : halve xmin xmax Nmax (x + (e.y - yy) / yyx) ((e.y - yy) / yyx) with
        | error er => rw [hh, exErr] at h; cases h
        | ok x' =>
          rw [hh, exOk] at h
          simp only [Except.ok.injEq] at h
          subst h
          obtain ⟨h1, h2, j, hj, h3⟩ := (halve_spec _ _ _).1 _ hh
          refine ⟨rfl, rfl, ?_, ?_, fun hn => by simp at hn⟩
          · intro v hv; simp only [Option.some.injEq] at hv; subst hv; exact ⟨h1, h2⟩
          · intro hna v hv
            simp only [Option.some.injEq] at hv; subst hv
            simp only [decide_eq_false_iff_not, not_lt] at hna
            refine ⟨x, yy, yyx, rfl, hf, hna, h0, j, hj, ?_⟩
            rw [h3]; ring

/-- The result of one element's loop. -/
theorem single_spec : ∀ (n : Nat) (e e' : El) (w : Bool), e.act = true → InB xmin xmax e.x →
    single ep xmin xmax Nmax n e = .ok (e', w) →
    e'.f = e.f ∧ e'.y = e.y ∧ InB xmin xmax e'.x ∧
    (w = false → ∀ v, e'.x = some v → ∃ x yy yyx, xmin ≤ x ∧ x ≤ xmax ∧ e.f x = some (yy, yyx) ∧
      |e.y - yy| ≤ |ep * e.y| ∧ yyx ≠ 0 ∧ ∃ j ≤ Nmax, v = x + (e.y - yy) / yyx / 2 ^ j) ∧
    ((∀ x, xmin ≤ x → x ≤ xmax → ∃ yy yyx, e.f x = some (yy, yyx) ∧ yyx ≠ 0) → e.x ≠ none →
      e'.x ≠ none) := by
  have nn : ∀ {e e' : El}, e.act = true → InB xmin xmax e.x →
      stepEl ep xmin xmax Nmax e = .ok e' →
      (∀ x, xmin ≤ x → x ≤ xmax → ∃ yy yyx, e.f x = some (yy, yyx) ∧ yyx ≠ 0) → e.x ≠ none →
      e'.x ≠ none := by
    intro e e' ha hb hs hgood hx hn
    obtain ⟨-, -, -, -, h5⟩ := stepEl_spec ha hb hs
    rcases h5 hn with h | ⟨x, hx', h | ⟨yy, h⟩⟩
    · exact hx h
    · obtain ⟨h1, h2⟩ := hb x hx'
      obtain ⟨a, b, hab, -⟩ := hgood x h1 h2
      rw [h] at hab; cases hab
    · obtain ⟨h1, h2⟩ := hb x hx'
      obtain ⟨a, b, hab, hb0⟩ := hgood x h1 h2
      rw [h] at hab; cases hab; exact hb0 rfl
  intro n
  induction n with
  | zero =>
    intro e e' w ha hb h
    rw [single_zero] at h
    cases hs : stepEl ep xmin xmax Nmax e with
    | error er => rw [hs, exErr] at h; cases h
    | ok e1 =>
      rw [hs, exOk] at h
      simp only [Except.ok.injEq, Prod.mk.injEq] at h
      obtain ⟨rfl, rfl⟩ := h
      obtain ⟨h1, h2, h3, h4, h5⟩ := stepEl_spec ha hb hs
      exact ⟨h1, h2, h3, fun hw => by simp [ha] at hw, nn ha hb hs⟩
  | succ n ih =>
    intro e e' w ha hb h
    rw [single_succ] at h
    cases hs : stepEl ep xmin xmax Nmax e with
    | error er => rw [hs, exErr] at h; cases h
    | ok e1 =>
      rw [hs, exOk] at h
      obtain ⟨h1, h2, h3, h4, h5⟩ := stepEl_spec ha hb hs
      cases ha1 : e1.act with
      | true =>
        obtain ⟨g1, g2, g3, g4, g5⟩ := ih e1 e' w ha1 h3 h
        rw [h1] at g1 g5
        rw [h2] at g2
        rw [h1, h2] at g4
        exact ⟨g1, g2, g3, g4, fun hg hx => g5 hg (nn ha hb hs hg hx)⟩
      | false =>
        rw [single_inact ha1] at h
        simp only [Except.ok.injEq, Prod.mk.injEq] at h
        obtain ⟨rfl, rfl⟩ := h
        refine ⟨h1, h2, h3, fun _ v hv => ?_, nn ha hb hs⟩
        obtain ⟨x, yy, yyx, hx, rest⟩ := h4 ha1 v hv
        obtain ⟨b1, b2⟩ := hb x hx
        exact ⟨x, yy, yyx, b1, b2, rest⟩

end

/-! ## C35 -/

/-- The result of a successful `_iter1` call, element by element. -/
theorem iter1_forall {fy : List ((ℝ → Option (ℝ × ℝ)) × ℝ)} {x0 xmin xmax ep : ℝ} {Nmax : Nat}
    {xs : List Nan} {w : Bool} (h : iter1 fy x0 xmin xmax ep Nmax = .ok (xs, w)) :
    ∃ ws : List Bool, w = ws.any id ∧ ws.length = xs.length ∧
      List.Forall₂ (fun q (r : Nan × Bool) => ∃ e', single ep xmin xmax Nmax Nmax
        ⟨q.1, q.2, some x0, true⟩ = .ok (e', r.2) ∧ r.1 = e'.x) fy (xs.zip ws) := by
  unfold iter1 at h
  rw [iterLoop_eq] at h
  cases hm : (fy.map (fun q => (⟨q.1, q.2, some x0, true⟩ : El))).mapM
      (single ep xmin xmax Nmax Nmax) with
  | error e => rw [hm] at h; cases h
  | ok rs =>
    rw [hm] at h
    simp only [Except.map, exOk, Except.ok.injEq, Prod.mk.injEq] at h
    obtain ⟨rfl, rfl⟩ := h
    have hF := mapM_ok hm
    rw [List.forall₂_map_left_iff] at hF
    refine ⟨rs.map (·.2), by simp [List.any_map, Function.comp_def], by simp, ?_⟩
    have hz : ((rs.map (·.1)).map (·.x)).zip (rs.map (·.2)) = rs.map (fun r => (r.1.x, r.2)) := by
      rw [List.map_map, List.zip_map']
      rfl
    rw [hz, List.forall₂_map_right_iff]
    exact hF.imp (fun q r hr => ⟨r.1, hr, rfl⟩)

/-- C35, bounds.  Whatever the functions, targets, tolerance and iteration limit, a call that
returns gives one value per target, and every value is within the bounds (or NaN, which
`C35_never_nan` excludes for well-behaved functions). -/
theorem C35_in_bounds (fy : List ((ℝ → Option (ℝ × ℝ)) × ℝ)) (x0 xmin xmax ep : ℝ) (Nmax : Nat)
    (h0 : xmin ≤ x0) (h1 : x0 ≤ xmax) (xs : List Nan) (w : Bool)
    (h : iter1 fy x0 xmin xmax ep Nmax = .ok (xs, w)) :
    xs.length = fy.length ∧ ∀ v, some v ∈ xs → xmin ≤ v ∧ v ≤ xmax := by
  obtain ⟨ws, -, hl, hF⟩ := iter1_forall h
  refine ⟨by have := hF.length_eq; simp [hl] at this; exact this.symm, fun v hv => ?_⟩
  obtain ⟨i, hi, hiv⟩ := List.getElem_of_mem hv
  have hi2 : i < (xs.zip ws).length := by simp [hl, hi]
  have hi3 : i < fy.length := by rw [hF.length_eq]; exact hi2
  obtain ⟨e', he', hx⟩ := List.forall₂_iff_get.mp hF |>.2 i hi3 hi2
  simp only [List.get_eq_getElem, List.getElem_zip] at he' hx
  have hb : InB xmin xmax (some x0) := fun u hu => by cases hu; exact ⟨h0, h1⟩
  obtain ⟨-, -, h3, -, -⟩ := single_spec Nmax ⟨fy[i].1, fy[i].2, some x0, true⟩ e' _ rfl hb he'
  exact h3 v (by rw [← hx, hiv])

/-- C35, accuracy.  When no warning is printed, each value returned is reached from a point within
the bounds at which the function matches its target within the relative tolerance, by a final
step no longer than the Newton step from that point. -/
theorem C35_accurate (fy : List ((ℝ → Option (ℝ × ℝ)) × ℝ)) (x0 xmin xmax ep : ℝ) (Nmax : Nat)
    (h0 : xmin ≤ x0) (h1 : x0 ≤ xmax) (xs : List Nan)
    (h : iter1 fy x0 xmin xmax ep Nmax = .ok (xs, false)) (i : Nat) (f : ℝ → Option (ℝ × ℝ))
    (y v : ℝ) (hi : fy[i]? = some (f, y)) (hv : xs[i]? = some (some v)) :
    ∃ x yy yyx, xmin ≤ x ∧ x ≤ xmax ∧ f x = some (yy, yyx) ∧ |y - yy| ≤ |ep * y| ∧ yyx ≠ 0 ∧
      |v - x| ≤ |(y - yy) / yyx| := by
  obtain ⟨ws, hw, hl, hF⟩ := iter1_forall h
  have hi3 : i < fy.length := by
    by_contra hc; rw [List.getElem?_eq_none (by omega)] at hi; cases hi
  have hi4 : i < xs.length := by
    by_contra hc; rw [List.getElem?_eq_none (by omega)] at hv; cases hv
  have hi2 : i < (xs.zip ws).length := by simp [hl, hi4]
  obtain ⟨e', he', hx⟩ := List.forall₂_iff_get.mp hF |>.2 i hi3 hi2
  rw [List.getElem?_eq_getElem hi3] at hi
  rw [List.getElem?_eq_getElem hi4] at hv
  simp only [Option.some.injEq] at hi hv
  simp only [List.get_eq_getElem, List.getElem_zip, hi, hv] at he' hx
  have hwi : ws[i]'(by omega) = false := by
    have := (List.any_eq_false.mp hw.symm) (ws[i]'(by omega)) (List.getElem_mem _)
    simpa using this
  have hb : InB xmin xmax (some x0) := fun u hu => by cases hu; exact ⟨h0, h1⟩
  obtain ⟨-, -, -, h4, -⟩ := single_spec Nmax ⟨f, y, some x0, true⟩ e' _ rfl hb he'
  obtain ⟨x, yy, yyx, b1, b2, hf, hacc, hne, j, -, hj⟩ := h4 hwi v hx.symm
  refine ⟨x, yy, yyx, b1, b2, hf, hacc, hne, ?_⟩
  rw [hj]
  simp only [add_sub_cancel_left]
  rw [abs_div _ ((2:ℝ) ^ j)]
  apply div_le_self (abs_nonneg _)
  rw [abs_of_pos (by positivity)]
  exact one_le_pow₀ (by norm_num)

/-- C35: with a function that is defined with non-zero reported derivative on the whole interval,
no NaN is returned. -/
theorem C35_never_nan (fy : List ((ℝ → Option (ℝ × ℝ)) × ℝ)) (x0 xmin xmax ep : ℝ) (Nmax : Nat)
    (h0 : xmin ≤ x0) (h1 : x0 ≤ xmax)
    (hgood : ∀ q ∈ fy, ∀ x, xmin ≤ x → x ≤ xmax → ∃ yy yyx, q.1 x = some (yy, yyx) ∧ yyx ≠ 0)
    (xs : List Nan) (w : Bool) (h : iter1 fy x0 xmin xmax ep Nmax = .ok (xs, w)) :
    none ∉ xs := by
  obtain ⟨ws, -, hl, hF⟩ := iter1_forall h
  intro hv
  obtain ⟨i, hi, hiv⟩ := List.getElem_of_mem hv
  have hi2 : i < (xs.zip ws).length := by simp [hl, hi]
  have hi3 : i < fy.length := by rw [hF.length_eq]; exact hi2
  obtain ⟨e', he', hx⟩ := List.forall₂_iff_get.mp hF |>.2 i hi3 hi2
  simp only [List.get_eq_getElem, List.getElem_zip] at he' hx
  have hb : InB xmin xmax (some x0) := fun u hu => by cases hu; exact ⟨h0, h1⟩
  obtain ⟨-, -, -, -, h5⟩ := single_spec Nmax ⟨fy[i].1, fy[i].2, some x0, true⟩ e' _ rfl hb he'
  exact h5 (hgood fy[i] (List.getElem_mem hi3)) (by simp) (by rw [← hx, hiv])

/-- C35, accuracy of the returned value itself.  If the function has slope between `m > 0` and `M`
in absolute value (reported derivative at least `m`, values `M`-Lipschitz up to jumps of `J` in
all), a value returned without a warning reproduces its target within `(1 + M/m)` times the
relative tolerance, plus `J`. -/
theorem C35_returned_value_accurate (fy : List ((ℝ → Option (ℝ × ℝ)) × ℝ))
    (x0 xmin xmax ep : ℝ) (Nmax : Nat)
    (h0 : xmin ≤ x0) (h1 : x0 ≤ xmax) (xs : List Nan)
    (h : iter1 fy x0 xmin xmax ep Nmax = .ok (xs, false)) (i : Nat) (f : ℝ → Option (ℝ × ℝ))
    (y : ℝ) (hi : fy[i]? = some (f, y))
    (F F' : ℝ → ℝ) (m M J : ℝ) (hm : 0 < m) (hM : 0 ≤ M)
    (hf : ∀ x, xmin ≤ x → x ≤ xmax → f x = some (F x, F' x) ∧ m ≤ |F' x|)
    (hLip : ∀ a b, xmin ≤ a → a ≤ xmax → xmin ≤ b → b ≤ xmax → |F a - F b| ≤ M * |a - b| + J)
    (v : ℝ) (hv : xs[i]? = some (some v)) :
    |F v - y| ≤ (1 + M / m) * |ep * y| + J := by
  obtain ⟨x, yy, yyx, b1, b2, hfx, hacc, -, hstep⟩ :=
    C35_accurate fy x0 xmin xmax ep Nmax h0 h1 xs h i f y v hi hv
  have hvb := (C35_in_bounds fy x0 xmin xmax ep Nmax h0 h1 xs false h).2 v
    (List.mem_of_getElem? hv)
  obtain ⟨hfx', hm'⟩ := hf x b1 b2
  rw [hfx'] at hfx
  simp only [Option.some.injEq, Prod.mk.injEq] at hfx
  obtain ⟨rfl, rfl⟩ := hfx
  have hL := hLip v x hvb.1 hvb.2 b1 b2
  have hd : |v - x| ≤ |ep * y| / m := by
    refine hstep.trans ?_
    rw [abs_div]
    exact div_le_div₀ (abs_nonneg _) hacc hm hm'
  have : |F v - y| ≤ |F v - F x| + |y - F x| := by
    have : F v - y = (F v - F x) - (y - F x) := by ring
    rw [this]; exact abs_sub _ _
  have h2 : M * |v - x| ≤ M * (|ep * y| / m) := mul_le_mul_of_nonneg_left hd hM
  calc |F v - y| ≤ M * (|ep * y| / m) + |ep * y| + J := by linarith
    _ = (1 + M / m) * |ep * y| + J := by ring

/-- C35, elementwise: the outcome of an array call is that of the single-element calls - it raises
exactly when one of them does, and otherwise each element and the warning are theirs. -/
theorem C35_elementwise (fy : List ((ℝ → Option (ℝ × ℝ)) × ℝ)) (x0 xmin xmax ep : ℝ)
    (Nmax : Nat) :
    (∀ e, iter1 fy x0 xmin xmax ep Nmax = .error e →
      e = .analysis ∧ ∃ q ∈ fy, iter1 [q] x0 xmin xmax ep Nmax = .error e) ∧
    (∀ xs w, iter1 fy x0 xmin xmax ep Nmax = .ok (xs, w) →
      ∃ ws : List Bool, w = ws.any id ∧ ws.length = xs.length ∧
        List.Forall₂ (fun q (r : Nan × Bool) => iter1 [q] x0 xmin xmax ep Nmax = .ok ([r.1], r.2))
          fy (xs.zip ws)) := by
  have hone : ∀ q : (ℝ → Option (ℝ × ℝ)) × ℝ, iter1 [q] x0 xmin xmax ep Nmax
      = (single ep xmin xmax Nmax Nmax ⟨q.1, q.2, some x0, true⟩).map
          (fun r => ([r.1.x], r.2)) := by
    intro q
    unfold iter1
    rw [iterLoop_eq]
    simp only [List.map_cons, List.map_nil, List.mapM_cons, List.mapM_nil]
    cases single ep xmin xmax Nmax Nmax ⟨q.1, q.2, some x0, true⟩ with
    | error e => rfl
    | ok r => simp [exOk, pure, Except.pure, Except.map]
  refine ⟨fun e h => ?_, fun xs w h => ?_⟩
  · unfold iter1 at h
    rw [iterLoop_eq] at h
    cases hm : (fy.map (fun q => (⟨q.1, q.2, some x0, true⟩ : El))).mapM
        (single ep xmin xmax Nmax Nmax) with
    | ok rs => rw [hm] at h; cases h
    | error e' =>
      rw [hm] at h
      simp only [Except.map, exErr, Except.error.injEq] at h
      subst h
      obtain ⟨a, ha, he⟩ := mapM_error_of hm
      obtain ⟨q, hq, rfl⟩ := List.mem_map.mp ha
      refine ⟨single_error _ _ _ he, q, hq, ?_⟩
      rw [hone, he]; rfl
  · obtain ⟨ws, hw, hl, hF⟩ := iter1_forall h
    refine ⟨ws, hw, hl, hF.imp ?_⟩
    rintro q r ⟨e', he', hx⟩
    rw [hone, he', hx]; rfl

/-- Non-vacuity: inverting `x ↦ 2x` (reported derivative 2) on `[0, 10]` from 5 for the target 6
takes two passes and ends at 3 without a warning. -/
theorem C35_example : iter1 [(fun x => some (2 * x, 2), 6)] 5 0 10 (1e-6) 20
    = .ok ([some 3], false) := by
  have h1 : stepEl 1e-6 0 10 20 ⟨fun x => some (2 * x, 2), 6, some 5, true⟩
      = .ok ⟨fun x => some (2 * x, 2), 6, some 3, true⟩ := by
    unfold stepEl halve
    norm_num [exOk, bind, Except.bind, abs_of_nonneg, abs_of_neg]
  have h2 : stepEl 1e-6 0 10 20 ⟨fun x => some (2 * x, 2), 6, some 3, true⟩
      = .ok ⟨fun x => some (2 * x, 2), 6, some 3, false⟩ := by
    unfold stepEl halve
    norm_num [exOk, bind, Except.bind, abs_of_nonneg, abs_of_neg]
  unfold iter1
  rw [iterLoop_eq]
  simp only [List.map_cons, List.map_nil, List.mapM_cons, List.mapM_nil]
  rw [single_succ, h1, exOk, single_succ, h2, exOk, single_inact rfl]
  rfl

/-- Non-vacuity of the warning branch and limit of the claim: with the target 0 the tolerance is
relative to 0, and a function whose Newton iteration does not land exactly on the root ends with
the warning even with values as close as one likes: `x ↦ x` with the reported derivative `2`
halves its error in each pass. -/
theorem C35_zero_target : iter1 [(fun x => some (x, 2), 0)] 1 (-10) 10 (1e-6) 20
    = .ok ([some (1 / 2 ^ 21)], true) := by
  have hstep : ∀ x : ℝ, 0 < x → x ≤ 1 →
      stepEl 1e-6 (-10) 10 20 ⟨fun x => some (x, 2), 0, some x, true⟩
      = .ok ⟨fun x => some (x, 2), 0, some (x / 2), true⟩ := by
    intro x hx hx1
    have hb : ¬ (x + (0 - x) / 2 < -10 ∨ x + (0 - x) / 2 > 10) := by
      rw [not_or]; constructor <;> linarith
    unfold stepEl halve
    simp only [if_true, OfNat.ofNat_ne_zero, if_false, if_neg hb, exOk, mul_zero, abs_zero,
      Except.ok.injEq, El.mk.injEq, true_and]
    constructor
    · congr 1; ring
    · simp [hx.ne']
  have hs : ∀ n (x : ℝ), 0 < x → x ≤ 1 →
      single 1e-6 (-10) 10 20 n ⟨fun x => some (x, 2), 0, some x, true⟩
      = .ok (⟨fun x => some (x, 2), 0, some (x / 2 ^ (n + 1)), true⟩, true) := by
    intro n
    induction n with
    | zero =>
      intro x hx h1
      rw [single_zero, hstep x hx h1, exOk]; simp
    | succ n ih =>
      intro x hx h1
      rw [single_succ, hstep x hx h1, exOk, ih (x / 2) (by linarith) (by linarith)]
      congr 4
      rw [pow_succ 2 (n + 1)]
      field_simp
  unfold iter1
  rw [iterLoop_eq]
  simp only [List.map_cons, List.map_nil, List.mapM_cons, List.mapM_nil]
  rw [hs 20 1 one_pos (le_refl _)]
  rfl

end PyroMat.Gas.Props
