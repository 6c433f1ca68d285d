import Verif.Mp.Parse

/-!
# C54: argument checking of the multiphase methods
-/

set_option linter.unusedSimpArgs false

namespace PyroMat.Mp.Props

open PyroMat PyroMat.Units PyroMat.Units.Spec PyroMat.Units.Props PyroMat.Gas PyroMat.Gas.Spec
open PyroMat.Gas.Props PyroMat.Mp PyroMat.Mp.Spec PyroMat.Config.Defaults

theorem two_of_nodup {l : List String} (hn : l.Nodup) (hl : l.length ≤ 2) {a b : String} (ha : a ∈ l)
    (hb : b ∈ l) (hab : a ≠ b) {c : String} (hc : c ∈ l) : c = a ∨ c = b := by
  match l, hl with
  | [x], _ => simp at ha hb; exact absurd (ha.trans hb.symm) hab
  | [x, y], _ => simp at ha hb hc; rcases ha with rfl | rfl <;> rcases hb with rfl | rfl <;> simp_all <;> tauto

theorem isSome_false {α : Type} {o : Option α} (h : o.isSome = false) : o = none := by
  cases o <;> simp_all

/-- Quality with anything but T and p is refused by the case split. -/
theorem solve_x_alone {B : Sub} {S : Sol} {k : MStd} (hT : k.T = none) (hp : k.p = none)
    (hx : k.x.isSome = true) (hd : k.inv.isSome = true → k.d = none) :
    mpSolve B S k = .error .param := by
  obtain ⟨x, hx⟩ := Option.isSome_iff_exists.mp hx
  unfold mpSolve
  cases hi : k.inv with
  | some q =>
    have := hd (by rw [hi]; rfl)
    obtain ⟨i, y⟩ := q
    simp only [mpSolveInv, hT, hp, hx, this]
  | none => simp only [mpSolveBasic, hT, hp]

/-- The names completed with the defaults. -/
theorem completed_names {E : Env} {U : Sys} (hU : Uses E U) {kw : Kw} (ha : MpAdmissible (kw.map (·.1))) :
    ∃ kw', applyDefaults E kw = .ok kw' ∧ MpAdmissible (kw'.map (·.1)) ∧ 2 ≤ kw'.length ∧
      (2 ≤ kw.length → kw' = kw) := by
  obtain ⟨kw', h1, h2, h3, h4⟩ := applyDefaults_spec hU kw
  match kw, ha, h1, h2, h3, h4 with
  | [], _, h1, _, h3, _ =>
    refine ⟨kw', h1, ?_, ?_, by simp⟩
    · rw [h3 rfl]; constructor <;> decide
    · have := congrArg List.length (h3 rfl); simp at this; omega
  | [q], ha, h1, _, _, h4 =>
    have hk := h4 q rfl
    refine ⟨kw', h1, ?_, ?_, by simp⟩
    · have hq := ha.known q.1 (by simp)
      rw [hk]
      simp only [List.mem_cons, List.not_mem_nil, or_false] at hq
      rcases hq with h | h | h | h | h | h | h | h <;> rw [h] <;> simp only [ne_eq, not_true,
        if_false, String.reduceEq, not_false_eq_true, if_true] <;> constructor <;> decide
    · have := congrArg List.length hk
      split at this <;> simp at this <;> omega
  | a :: b :: l, ha, h1, h2, _, _ =>
    have := h2 (by simp)
    subst this
    exact ⟨_, h1, ha, by simp, fun _ => rfl⟩

/-- C54, rejection.  In any valid unit system a call whose arguments break the rule - more than two
positional arguments, a property given twice, more than two properties other than T, p and x together,
an unknown name, two of e, h, s, both d and v, or quality with anything but T and p - raises
`PMParamError`, whatever the values and whatever the numerical inversions do. -/
theorem C54_rejects (E : Env) (U : Sys) (hU : Uses E U) (B : Sub) (hmw : B.mw ≠ 0) (S : Sol)
    (varg : List (Val ℝ)) (kw : Kw) (hkw : (kw.map (·.1)).Nodup)
    (h : ¬ (varg.length ≤ 2 ∧ MpAdmissible (given varg kw))) :
    mpArgparse E B S varg kw = .error .param := by
  rw [mpArgparse_eq hU hmw]
  cases hb : bindPos varg kw with
  | error e => rw [exErr, (bindPos_error hb).1]
  | ok kw1 =>
    obtain ⟨h1, h2, h3⟩ := bindPos_ok hb
    have hn := h3 hkw
    have hna : ¬ MpAdmissible (kw1.map (·.1)) := by
      rw [mpAdmissible_perm h2]
      exact fun ha => h ⟨h1, ha⟩
    obtain ⟨kw2, e1, e2, e3, e4⟩ := applyDefaults_spec hU kw1
    rw [exOk, afterPos, e1, exOk]
    rcases mpRules_cases kw2 with ⟨hr, ok⟩ | ⟨hr, -⟩
    swap
    · rw [hr, exErr]
    rw [hr, exOk]
    match kw1, hna, e2, e3, e4, hn with
    | [], hna, _, _, _, _ =>
      exact absurd (by constructor <;> simp) hna
    | [q], hna, _, _, e4, _ =>
      exfalso
      apply hna
      have hk := e4 q rfl
      rw [hk] at ok
      have hq : q.1 ∈ mpLegal := ok.known q.1 (by split <;> simp)
      simp only [List.map_cons, List.map_nil]
      refine ⟨by simp, ?_, by simp, ?_, ?_, ?_⟩
      · intro n hn; simp at hn; subst hn; exact hq
      · intro a ha b hb _ _; simp at ha hb; rw [ha, hb]
      · rintro ⟨ha, hb⟩; simp at ha hb; rw [← ha] at hb; exact absurd hb (by decide)
      · intro ha b hb; simp at ha hb; rw [hb, ← ha]; decide
    | a :: b :: l, hna, e2, _, _, hn =>
      have := e2 (by simp)
      subst this
      -- the rules hold, so it is the quality
      have hx : "x" ∈ (a :: b :: l).map (·.1) ∧ ∃ c ∈ (a :: b :: l).map (·.1), c ∉ ["T", "p", "x"] := by
        by_contra hc
        apply hna
        refine ⟨hn, ok.known, ok.few, ok.one_ehs, ok.not_dv, fun hx c hc2 => ?_⟩
        by_contra h3
        exact hc ⟨hx, c, hc2, h3⟩
      obtain ⟨hx, c, hc, hc3⟩ := hx
      have hl : ((a :: b :: l).map (·.1)).length ≤ 2 := by
        rcases ok.few with h | h
        · exact h
        · exact absurd (h c hc) hc3
      have hxc : "x" ≠ c := by rintro rfl; simp at hc3
      have only : ∀ n, n ≠ "x" → n ≠ c → Kw.has (a :: b :: l) n = false := by
        intro n h1 h2
        rw [has_false_iff]
        intro hm
        rcases two_of_nodup hn hl hx hc hxc hm with h | h
        · exact h1 h
        · exact h2 h
      rcases parsed_cases E U B (a :: b :: l) with hp | ⟨k, hp, hk⟩
      · rw [hp, exErr]
      rw [hp, exOk]
      have hcm := ok.known c hc
      simp only [List.mem_cons, List.not_mem_nil, or_false, not_or] at hc3
      apply solve_x_alone
      · exact isSome_false (by rw [hk.T_isSome]; exact only _ (by decide) (Ne.symm hc3.1))
      · exact isSome_false (by rw [hk.p_isSome]; exact only _ (by decide) (Ne.symm hc3.2.1))
      · rw [hk.x_isSome, has_iff]; exact hx
      · intro hi
        rw [hk.inv_isSome] at hi
        apply isSome_false
        rw [hk.d_isSome]
        by_cases hd : c = "d" ∨ c = "v"
        · exfalso
          rw [only "e" (by decide) (by rintro rfl; revert hd; decide),
            only "h" (by decide) (by rintro rfl; revert hd; decide),
            only "s" (by decide) (by rintro rfl; revert hd; decide)] at hi
          cases hi
        · push Not at hd
          rw [only "d" (by decide) (Ne.symm hd.1), only "v" (by decide) (Ne.symm hd.2)]
          rfl

/-! ## Acceptance -/

/-- The outcome of a case: a list of `n` elements, or the error of a numerical inversion. -/
def Outcome (S : Sol) (n : Nat) (r : Except Err (List Pt)) : Prop :=
  (∃ l, r = .ok l ∧ l.length = n) ∨ ∃ e, r = .error e ∧ Raises S e

/-- Lengths that broadcast to `n`: each is `n` or 1, and one of the two is `n`. -/
def Fits (n a b : Nat) : Prop := (a = n ∨ a = 1) ∧ (b = n ∨ b = 1) ∧ (a = n ∨ b = n)

theorem broadcast_total {α β : Type} {xs : List α} {ys : List β} {n : Nat}
    (h : Fits n xs.length ys.length) :
    ∃ r, broadcast xs ys = .ok r ∧ r.1.length = n ∧ r.2.length = n := by
  obtain ⟨h1, h2, h3⟩ := h
  unfold broadcast
  by_cases he : xs.length = ys.length
  · rw [if_pos he]
    refine ⟨_, rfl, ?_, ?_⟩ <;> dsimp only <;> omega
  · rw [if_neg he]
    match xs, ys with
    | [x], ys => refine ⟨_, rfl, ?_, ?_⟩ <;> simp at h1 h2 h3 he ⊢ <;> omega
    | [], [y] => simp at h1 h2 h3 he; refine ⟨_, rfl, ?_, ?_⟩ <;> simp <;> omega
    | x :: x' :: l, [y] => refine ⟨_, rfl, ?_, ?_⟩ <;> simp at h1 h2 h3 he ⊢ <;> omega
    | [], [] => simp at he
    | [], y :: y' :: m => simp at h1 h2 h3; omega
    | x :: x' :: l, [] => simp at h1 h2 h3; omega
    | x :: x' :: l, y :: y' :: m => simp at h1 h2 h3 he; omega

theorem outcome_bind {α : Type} {S : Sol} {n : Nat} {m : Except Err α} {f : α → Except Err (List Pt)}
    (hm : ∀ e, m = .error e → Raises S e) (hf : ∀ x, m = .ok x → Outcome S n (f x)) :
    Outcome S n (m >>= f) := by
  cases h : m with
  | error e => exact Or.inr ⟨e, by rw [exErr], hm e h⟩
  | ok x => rw [exOk]; exact hf x h

section
variable {B : Sub} {S : Sol} {n : Nat}

theorem askTs_raises {sel : Nan → Bool} {p : List Nan} {e : Err} (h : askTs S sel p = .error e) :
    Raises S e := by
  unfold askTs at h
  split at h
  · exact Or.inl ⟨_, h⟩
  · cases h

theorem mpHP_outcome (i : Inv) {y : List ℝ} {p : List Nan} (h : Fits n y.length p.length) :
    Outcome S n (mpHP B S i y p) := by
  obtain ⟨r, h1, h2, h3⟩ := broadcast_total h
  unfold mpHP
  rw [h1, exOk]
  obtain ⟨y, p⟩ := r
  dsimp only at h2 h3 ⊢
  refine outcome_bind (fun e he => ?_) (fun Ts _ => ?_)
  · exact askTs_raises he
  refine outcome_bind (fun e he => Or.inr (Or.inr (Or.inr (Or.inl ⟨_, _, he⟩)))) (fun T _ => ?_)
  refine outcome_bind (fun e he => Or.inr (Or.inl ⟨_, he⟩)) (fun d _ => ?_)
  exact Or.inl ⟨_, rfl, by simp [h2, h3]⟩

theorem mpHD_outcome (i : Inv) {y d : List ℝ} (h : Fits n y.length d.length) :
    Outcome S n (mpHD B S i y d) := by
  obtain ⟨r, h1, h2, h3⟩ := broadcast_total h
  unfold mpHD
  rw [h1, exOk]
  obtain ⟨y, d⟩ := r
  dsimp only at h2 h3 ⊢
  refine outcome_bind (fun e he => Or.inr (Or.inr (Or.inr (Or.inr (Or.inl ⟨_, _, he⟩))))) (fun T _ => ?_)
  exact Or.inl ⟨_, rfl, by simp [h2, h3]⟩

theorem mpHT_outcome (i : Inv) {y : List ℝ} {T : List Nan} (h : Fits n y.length T.length) :
    Outcome S n (mpHT B S i y T) := by
  obtain ⟨r, h1, h2, h3⟩ := broadcast_total h
  unfold mpHT
  rw [h1, exOk]
  obtain ⟨y, T⟩ := r
  dsimp only at h2 h3 ⊢
  refine outcome_bind (fun e he => Or.inr (Or.inr (Or.inr (Or.inr (Or.inr ⟨_, _, he⟩))))) (fun d _ => ?_)
  exact Or.inl ⟨_, rfl, by simp [h2, h3]⟩

theorem mpTD_outcome {T : List Nan} {d : List ℝ} (h : Fits n T.length d.length) :
    Outcome S n (mpTD B T d) := by
  obtain ⟨r, h1, h2, h3⟩ := broadcast_total h
  unfold mpTD
  rw [h1, exOk]
  obtain ⟨T, d⟩ := r
  dsimp only at h2 h3 ⊢
  exact Or.inl ⟨_, rfl, by simp [h2, h3]⟩

theorem broadcast_mem {α β : Type} {xs : List α} {ys : List β} {r : List α × List β}
    (h : broadcast xs ys = .ok r) : (∀ x ∈ r.1, x ∈ xs) ∧ ∀ y ∈ r.2, y ∈ ys := by
  unfold broadcast at h
  split at h
  · cases h; exact ⟨fun _ h => h, fun _ h => h⟩
  · split at h
    · cases h
      exact ⟨fun x hx => by simpa using (List.mem_replicate.mp hx).2, fun _ h => h⟩
    · cases h
      exact ⟨fun _ h => h, fun x hx => by simpa using (List.mem_replicate.mp hx).2⟩
    · cases h

theorem mpTX_outcome {T : List Nan} {x : List ℝ} (h : Fits n T.length x.length)
    (hT : ∀ t, some t ∈ T → t ≤ B.Tc) (hx : ∀ a ∈ x, 0 ≤ a) : Outcome S n (mpTX B T x) := by
  obtain ⟨r, h1, h2, h3⟩ := broadcast_total h
  obtain ⟨m1, m2⟩ := broadcast_mem h1
  unfold mpTX
  rw [h1, exOk]
  obtain ⟨T', x'⟩ := r
  dsimp only at h2 h3 m1 m2 ⊢
  rw [if_neg, if_neg]
  · exact Or.inl ⟨_, rfl, by simp [h2, h3]⟩
  · rw [List.any_eq_true]
    rintro ⟨a, ha, hl⟩
    simp only [decide_eq_true_eq] at hl
    exact absurd (hx a (m2 a ha)) (not_le.mpr hl)
  · rw [List.any_eq_true]
    rintro ⟨t, ht, hl⟩
    match t, ht, hl with
    | some t, ht, hl =>
      simp only [decide_eq_true_eq] at hl
      exact absurd (hT t (m1 _ ht)) (not_le.mpr hl)
    | none, _, hl => cases hl

theorem mpPX_outcome {p : List Nan} {x : List ℝ} (h : Fits n p.length x.length)
    (hp : ∀ t, some t ∈ p → t ≤ B.pc) (hx : ∀ a ∈ x, 0 ≤ a) : Outcome S n (mpPX B S p x) := by
  obtain ⟨r, h1, h2, h3⟩ := broadcast_total h
  unfold mpPX
  rw [if_neg, if_neg]
  · rw [h1, exOk]
    obtain ⟨p', x'⟩ := r
    dsimp only at h2 h3 ⊢
    refine outcome_bind (fun e he => Or.inl ⟨_, he⟩) (fun T _ => ?_)
    exact Or.inl ⟨_, rfl, by simp [h2, h3]⟩
  · rw [List.any_eq_true]
    rintro ⟨a, ha, hl⟩
    simp only [decide_eq_true_eq] at hl
    exact absurd (hx a ha) (not_le.mpr hl)
  · rw [List.any_eq_true]
    rintro ⟨t, ht, hl⟩
    match t, ht, hl with
    | some t, ht, hl =>
      simp only [decide_eq_true_eq] at hl
      exact absurd (hp t ht) (not_le.mpr hl)
    | none, _, hl => cases hl

theorem mpPD_outcome {d : List ℝ} {p : List Nan} (h : Fits n d.length p.length) :
    Outcome S n ((mpPD B S d p).map (·.1)) := by
  obtain ⟨r, h1, h2, h3⟩ := broadcast_total h
  unfold mpPD
  rw [h1, exOk]
  obtain ⟨d', p'⟩ := r
  dsimp only at h2 h3 ⊢
  have hb : ∀ {α β γ : Type} (m : Except Err α) (f : α → Except Err β) (g : β → γ),
      (m >>= f).map g = (m >>= fun x => (f x).map g) := by
    intro α β γ m f g; cases m <;> rfl
  rw [hb]
  refine outcome_bind (fun e he => ?_) (fun Ts _ => ?_)
  · exact askTs_raises he
  rw [hb]
  refine outcome_bind (fun e he => Or.inr (Or.inr (Or.inl ⟨_, he⟩))) (fun T _ => ?_)
  exact Or.inl ⟨_, rfl, by simp [h2, h3]⟩

theorem mpTPX_outcome {T p : List Nan} {x : List ℝ} {m : Nat} (h : Fits m T.length p.length)
    (h' : Fits n m x.length) : Outcome S n ((mpTPX B S T p x).map (·.1)) := by
  obtain ⟨r, h1, h2, h3⟩ := broadcast_total h
  unfold mpTPX
  rw [h1, exOk]
  obtain ⟨T', p'⟩ := r
  dsimp only at h2 h3 ⊢
  obtain ⟨r, e1, e2, e3⟩ := broadcast_total (xs := T'.zip p') (ys := x) (n := n)
    (by rw [List.length_zip, h2, h3, Nat.min_self]; exact h')
  rw [e1, exOk]
  obtain ⟨w, x'⟩ := r
  dsimp only at e2 e3 ⊢
  have hb : ∀ {α β γ : Type} (m : Except Err α) (f : α → Except Err β) (g : β → γ),
      (m >>= f).map g = (m >>= fun x => (f x).map g) := by
    intro α β γ m f g; cases m <;> rfl
  rw [hb]
  refine outcome_bind (fun e he => Or.inr (Or.inl ⟨_, he⟩)) (fun T _ => ?_)
  exact Or.inl ⟨_, rfl, by simp [e2, e3]⟩

end

/-! ## Roles of the arguments -/

theorem lookup_mem' {kw : Kw} {k : String} {v : Val ℝ} (h : kw.lookup k = some v) : (k, v) ∈ kw := by
  induction kw with
  | nil => cases h
  | cons q l ih =>
    obtain ⟨j, w⟩ := q
    rw [List.lookup_cons] at h
    by_cases hj : k = j
    · subst hj; simp at h; subst h; simp
    · have hb : (k == j) = false := by simpa using hj
      rw [hb] at h
      exact List.mem_cons_of_mem _ (ih h)

section
variable {E : Env} {U : Sys} {B : Sub} {kw : Kw} {k : MStd}

theorem argKg_mem {mw : ℝ} {nm : String} {a : Arg} (h : argKg E U mw kw nm = some a) :
    ∃ v, (nm, v) ∈ kw ∧ a.xs = (Val.elems v).map (internalKg E.a U mw (kindOf nm)) := by
  unfold argKg at h
  rw [Option.map_eq_some_iff] at h
  obtain ⟨v, hv, rfl⟩ := h
  exact ⟨v, lookup_mem' hv, rfl⟩

theorem lookup_of_mem {α : Type} {l : List (String × α)} (hn : (l.map (·.1)).Nodup) {k : String} {v : α}
    (h : (k, v) ∈ l) : l.lookup k = some v := by
  induction l with
  | nil => cases h
  | cons q l ih =>
    obtain ⟨j, w⟩ := q
    rw [List.map_cons, List.nodup_cons] at hn
    rw [List.lookup_cons]
    rcases List.mem_cons.mp h with h | h'
    · cases h; simp
    · have : k ≠ j := by
        rintro rfl
        exact hn.1 (List.mem_map_of_mem (f := (·.1)) h')
      have hb : (k == j) = false := by simpa using this
      rw [hb]
      exact ih hn.2 h'

theorem argKg_of_mem {mw : ℝ} (hn : (kw.map (·.1)).Nodup) {nm : String} {v : Val ℝ} (h : (nm, v) ∈ kw) :
    argKg E U mw kw nm = some ⟨(Val.elems v).map (internalKg E.a U mw (kindOf nm)),
      v.isArr && isInternalKg U nm⟩ := by
  unfold argKg
  rw [lookup_of_mem hn h]
  rfl

theorem role_T (h : Parsed E U B kw k) {t : NArg} (ht : k.T = some t) :
    ∃ a, argKg E U B.mw kw "T" = some a ∧ t.xs = a.xs.map (clip B.Tlo B.Thi) ∧ t.own = a.own := by
  rw [h.T, Option.map_eq_some_iff] at ht
  obtain ⟨a, ha, rfl⟩ := ht
  exact ⟨a, ha, rfl, rfl⟩

theorem role_p (h : Parsed E U B kw k) {t : NArg} (ht : k.p = some t) :
    ∃ a, argKg E U B.mw kw "p" = some a ∧ t.xs = a.xs.map (clip B.plo B.phi) ∧ t.own = a.own := by
  rw [h.p, Option.map_eq_some_iff] at ht
  obtain ⟨a, ha, rfl⟩ := ht
  exact ⟨a, ha, rfl, rfl⟩

theorem role_x (h : Parsed E U B kw k) {x : Arg} (hx : k.x = some x) : argKg E U B.mw kw "x" = some x := by
  rw [← h.x, hx]

theorem role_d (h : Parsed E U B kw k) {d : Arg} (hd : k.d = some d) :
    (argKg E U B.mw kw "d" = some d ∧ kw.has "v" = false) ∨
    ∃ a, argKg E U B.mw kw "v" = some a ∧ d = ⟨a.xs.map (fun x => 1 / x), false⟩ := by
  rw [h.d] at hd
  unfold mpDensity at hd
  split at hd
  · rename_i v hv
    cases hd
    exact Or.inr ⟨v, hv, rfl⟩
  · rename_i hv
    refine Or.inl ⟨hd, ?_⟩
    rw [← argKg_isSome E U B.mw, hv]; rfl

theorem role_inv (h : Parsed E U B kw k) {i : Inv} {y : Arg} (hi : k.inv = some (i, y)) :
    argKg E U B.mw kw i.name = some y := by
  rw [h.inv] at hi
  unfold mpInv at hi
  split at hi
  · rename_i a he; cases hi; exact he
  · rename_i a he hh; cases hi; exact hh
  · rename_i a he hh hs; cases hi; exact hs
  · cases hi

theorem has_of_argKg {mw : ℝ} {nm : String} {a : Arg} (h : argKg E U mw kw nm = some a) :
    nm ∈ kw.map (·.1) := by
  rw [← has_iff, ← argKg_isSome E U mw, h]; rfl

end

/-- The keyword list made of the positional arguments and the rest. -/
theorem bindPos_supplied {varg : List (Val ℝ)} {kw : Kw} (hl : varg.length ≤ 2)
    (hn : (given varg kw).Nodup) :
    ∃ kw', bindPos varg kw = .ok kw' ∧ kw'.Perm (supplied varg kw) := by
  match varg, hl with
  | [], _ => exact ⟨kw, rfl, by simp [supplied]⟩
  | [T], _ =>
    simp only [given, List.length_cons, List.length_nil] at hn
    have hT : Kw.has kw "T" = false := by
      rw [has_false_iff]; exact (List.nodup_cons.mp hn).1
    refine ⟨_, by simp only [bindPos, hT]; rfl, ?_⟩
    simp [supplied]
  | [T, p], _ =>
    simp only [given, List.length_cons, List.length_nil] at hn
    have hn' := List.nodup_cons.mp hn
    have hT : Kw.has kw "T" = false := by
      rw [has_false_iff]; exact fun h => hn'.1 (List.mem_cons_of_mem _ h)
    have hp : Kw.has kw "p" = false := by
      rw [has_false_iff]; exact (List.nodup_cons.mp hn'.2).1
    refine ⟨_, by simp only [bindPos, hT, hp]; rfl, ?_⟩
    simp only [supplied, List.zip_cons_cons, List.zip_nil_left, List.cons_append, List.nil_append]
    exact List.Perm.swap _ _ _

theorem physical_names (a : SetupArgs ℝ) (S : Sys) (mw : ℝ) {varg : List (Val ℝ)} (hl : varg.length ≤ 2)
    (kw : Kw) : (physical a S mw varg kw).map (·.1) = given varg kw := by
  unfold physical supplied given
  rw [List.map_map]
  simp only [Function.comp_def, List.map_append]
  congr 1
  match varg, hl with
  | [], _ => rfl
  | [T], _ => rfl
  | [T, p], _ => rfl

/-- C54, acceptance.  In any valid unit system a call whose arguments follow the rule, with values
the substance can use, for `n` states, returns `n` states - unless a numerical inversion gives up, and
then it is that error that is raised. -/
theorem C54_accepts (E : Env) (U : Sys) (hU : Uses E U) (B : Sub) (hmw : B.mw ≠ 0) (S : Sol)
    (varg : List (Val ℝ)) (kw : Kw) (hl : varg.length ≤ 2) (n : Nat)
    (h : Usable B n (physical E.a U B.mw varg kw)) :
    (∃ r, mpArgparse E B S varg kw = .ok r ∧ r.pts.length = n) ∨
    ∃ e, mpArgparse E B S varg kw = .error e ∧ Raises S e := by
  have hadm : MpAdmissible (given varg kw) := physical_names E.a U B.mw hl kw ▸ h.names
  obtain ⟨kw1, hb, hperm⟩ := bindPos_supplied hl hadm.distinct
  have hnames : (kw1.map (·.1)).Perm (given varg kw) := (bindPos_ok hb).2.1
  have hadm1 : MpAdmissible (kw1.map (·.1)) := (mpAdmissible_perm hnames).mpr hadm
  have hn := hadm1.distinct
  have hlen : kw1.length = (physical E.a U B.mw varg kw).length := by
    rw [hperm.length_eq]; simp [physical]
  have h2 : 2 ≤ kw1.length := by rw [hlen]; exact h.two
  -- the values by name
  have mem : ∀ {nm a}, argKg E U B.mw kw1 nm = some a → (nm, a.xs) ∈ physical E.a U B.mw varg kw := by
    intro nm a ha
    obtain ⟨v, hv, hx⟩ := argKg_mem ha
    unfold physical
    rw [List.mem_map]
    exact ⟨(nm, v), hperm.mem_iff.mp hv, by rw [hx]⟩
  have full : ∃ nm a, argKg E U B.mw kw1 nm = some a ∧ a.xs.length = n := by
    obtain ⟨q, hq, hqn⟩ := h.full
    unfold physical at hq
    rw [List.mem_map] at hq
    obtain ⟨⟨nm, v⟩, hv, rfl⟩ := hq
    exact ⟨nm, _, argKg_of_mem hn (hperm.mem_iff.mpr hv), hqn⟩
  have sizes : ∀ {nm a}, argKg E U B.mw kw1 nm = some a → a.xs.length = n ∨ a.xs.length = 1 :=
    fun ha => h.sizes _ (mem ha)
  obtain ⟨nf, af, hf, hfn⟩ := full
  have pair : ∀ {n1 n2 a1 a2}, argKg E U B.mw kw1 n1 = some a1 → argKg E U B.mw kw1 n2 = some a2 →
      n1 ≠ n2 → kw1.length = 2 → Fits n a1.xs.length a2.xs.length := by
    intro n1 n2 a1 a2 h1 h2' hne hk
    refine ⟨sizes h1, sizes h2', ?_⟩
    rcases two_of_nodup hn (by simp [hk]) (has_of_argKg h1) (has_of_argKg h2') hne (has_of_argKg hf)
      with rfl | rfl
    · rw [h1] at hf; cases hf; exact Or.inl hfn
    · rw [h2'] at hf; cases hf; exact Or.inr hfn
  rw [mpArgparse_eq hU hmw, hb, exOk, afterPos]
  obtain ⟨kw2, e1, -, -, e2⟩ := completed_names hU hadm1
  rw [e1, exOk, e2 h2]
  rcases mpRules_cases kw1 with ⟨hr, -⟩ | ⟨-, hbad⟩
  swap
  · exact absurd ⟨hadm1.known, hadm1.few, hadm1.one_ehs, hadm1.not_dv⟩ hbad
  rw [hr, exOk]
  have hparsed : ∃ k, parsed E U B kw1 = .ok k ∧ Parsed E U B kw1 k := by
    rcases parsed_cases E U B kw1 with hp | hp
    · exfalso
      unfold parsed at hp
      have hT : mpRange B.Tlo B.Thi (argKg E U B.mw kw1 "T") ≠ .error .param := by
        cases ha : argKg E U B.mw kw1 "T" with
        | none => rw [mpRange_none]; simp
        | some a => rw [mpRange_some (h.T _ (mem ha))]; simp
      have hP : mpRange B.plo B.phi (argKg E U B.mw kw1 "p") ≠ .error .param := by
        cases ha : argKg E U B.mw kw1 "p" with
        | none => rw [mpRange_none]; simp
        | some a => rw [mpRange_some (h.p _ (mem ha))]; simp
      rcases mpRange_cases B.Tlo B.Thi (argKg E U B.mw kw1 "T") with h' | h'
      · exact hT h'
      rw [h', exOk] at hp
      rcases mpRange_cases B.plo B.phi (argKg E U B.mw kw1 "p") with h' | h'
      · exact hP h'
      rw [h', exOk] at hp
      rcases mpQuality_cases (argKg E U B.mw kw1 "x") with ⟨-, a, ha, x, hx, hb⟩ | ⟨h', -⟩
      · have := h.x _ (mem ha) x hx
        rcases hb with hb | hb <;> linarith
      · rw [h', exOk] at hp; cases hp
    · exact hp
  obtain ⟨k, hk1, hk⟩ := hparsed
  rw [hk1, exOk]
  -- the shape of the outcome
  have fin : ∀ {r : Except Err (List Pt)} {f : List Pt → Except Err MOut},
      Outcome S n r → (∀ l, ∃ o, f l = .ok o ∧ o.pts = l) →
      (∃ o, (r >>= f) = .ok o ∧ o.pts.length = n) ∨ ∃ e, (r >>= f) = .error e ∧ Raises S e := by
    rintro r f (⟨l, rfl, hl⟩ | ⟨e, rfl, he⟩) hfun
    · obtain ⟨o, ho, hop⟩ := hfun l
      exact Or.inl ⟨o, by rw [exOk, ho], by rw [hop, hl]⟩
    · exact Or.inr ⟨e, by rw [exErr], he⟩
  have fin2 : ∀ {α : Type} {r : Except Err (List Pt × α)} {f : List Pt × α → Except Err MOut},
      Outcome S n (r.map (·.1)) → (∀ l, ∃ o, f l = .ok o ∧ o.pts = l.1) →
      (∃ o, (r >>= f) = .ok o ∧ o.pts.length = n) ∨ ∃ e, (r >>= f) = .error e ∧ Raises S e := by
    intro α r f ho hfun
    cases r with
    | error e =>
      rcases ho with ⟨l, hl, -⟩ | ⟨e', he, hr⟩
      · cases hl
      · cases he; exact Or.inr ⟨e, by rw [exErr], hr⟩
    | ok l =>
      rcases ho with ⟨l', hl, hln⟩ | ⟨e', he, hr⟩
      · cases hl
        obtain ⟨o, ho, hop⟩ := hfun l
        exact Or.inl ⟨o, by rw [exOk, ho], by rw [hop, hln]⟩
      · cases he
  have lenT : ∀ {t : NArg}, k.T = some t → ∃ a, argKg E U B.mw kw1 "T" = some a ∧
      t.xs.length = a.xs.length ∧ ∀ z, some z ∈ t.xs → z ∈ a.xs := by
    intro t ht
    obtain ⟨a, ha, hx, -⟩ := role_T hk ht
    refine ⟨a, ha, by rw [hx, List.length_map], fun z hz => ?_⟩
    rw [hx, List.mem_map] at hz
    obtain ⟨w, hw, hc⟩ := hz
    rw [(clip_some hc).1]; exact hw
  have lenp : ∀ {t : NArg}, k.p = some t → ∃ a, argKg E U B.mw kw1 "p" = some a ∧
      t.xs.length = a.xs.length ∧ ∀ z, some z ∈ t.xs → z ∈ a.xs := by
    intro t ht
    obtain ⟨a, ha, hx, -⟩ := role_p hk ht
    refine ⟨a, ha, by rw [hx, List.length_map], fun z hz => ?_⟩
    rw [hx, List.mem_map] at hz
    obtain ⟨w, hw, hc⟩ := hz
    rw [(clip_some hc).1]; exact hw
  have lend : ∀ {d : Arg}, k.d = some d → ∃ nm a, (nm = "d" ∨ nm = "v") ∧
      argKg E U B.mw kw1 nm = some a ∧ d.xs.length = a.xs.length := by
    intro d hd
    rcases role_d hk hd with ⟨ha, -⟩ | ⟨a, ha, rfl⟩
    · exact ⟨"d", d, Or.inl rfl, ha, rfl⟩
    · exact ⟨"v", a, Or.inr rfl, ha, by simp⟩
  -- three properties are T, p and x
  have three : kw1.length ≠ 2 → ∀ nm a, argKg E U B.mw kw1 nm = some a → nm ∈ ["T", "p", "x"] := by
    intro hne nm a ha
    rcases hadm1.few with hh | hh
    · simp at hh; omega
    · exact hh _ (has_of_argKg ha)
  unfold mpSolve
  cases hinv : k.inv with
  | some q =>
    obtain ⟨i, y⟩ := q
    have hy := role_inv hk hinv
    have hiT : ∀ nm ∈ ["T", "p", "x", "d", "v"], i.name ≠ nm := by
      intro nm hnm; simp at hnm
      rcases hnm with rfl | rfl | rfl | rfl | rfl <;> cases i <;> decide
    have hk2 : kw1.length = 2 := by
      by_contra hne
      have := three hne _ _ hy
      simp only [List.mem_cons, List.not_mem_nil, or_false] at this
      rcases this with h | h | h <;> exact hiT _ (by simp) h
    dsimp only
    unfold mpSolveInv
    cases hp : k.p with
    | some p =>
      obtain ⟨a, ha, hal, -⟩ := lenp hp
      dsimp only
      refine fin (mpHP_outcome i ?_) (fun l => ⟨_, rfl, rfl⟩)
      rw [hal]; exact pair hy ha (hiT _ (by simp)) hk2
    | none =>
      cases hd : k.d with
      | some d =>
        obtain ⟨nm, a, hnm, ha, hal⟩ := lend hd
        dsimp only
        refine fin (mpHD_outcome i ?_) (fun l => ⟨_, rfl, rfl⟩)
        rw [hal]; exact pair hy ha (hiT _ (by rcases hnm with rfl | rfl <;> simp)) hk2
      | none =>
        cases hx : k.x with
        | some x =>
          exfalso
          have := hadm1.x_with (has_of_argKg (role_x hk hx)) _ (has_of_argKg hy)
          simp only [List.mem_cons, List.not_mem_nil, or_false] at this
          rcases this with h | h | h <;> exact hiT _ (by simp) h
        | none =>
          cases hT : k.T with
          | some T =>
            obtain ⟨a, ha, hal, -⟩ := lenT hT
            dsimp only
            refine fin (mpHT_outcome i ?_) (fun l => ⟨_, rfl, rfl⟩)
            rw [hal]; exact pair hy ha (hiT _ (by simp)) hk2
          | none =>
            exfalso
            have e1 : kw1.has "p" = false := by rw [← hk.p_isSome, hp]; rfl
            have e2 : kw1.has "T" = false := by rw [← hk.T_isSome, hT]; rfl
            have e3 : kw1.has "x" = false := by rw [← hk.x_isSome, hx]; rfl
            have e4 : (kw1.has "d" || kw1.has "v") = false := by rw [← hk.d_isSome, hd]; rfl
            rw [Bool.or_eq_false_iff] at e4
            have hall : ∀ c ∈ kw1.map (·.1), c = i.name := by
              intro c hc
              have hl := hadm1.known c hc
              have hbad : ∀ m, kw1.has m = false → c ≠ m := by
                rintro m hm rfl; rw [has_false_iff] at hm; exact hm hc
              apply hadm1.one_ehs c hc _ (has_of_argKg hy)
              · simp only [List.mem_cons, List.not_mem_nil, or_false] at hl ⊢
                rcases hl with h | h | h | h | h | h | h | h
                · exact absurd h (hbad _ e2)
                · exact absurd h (hbad _ e1)
                · exact absurd h (hbad _ e4.1)
                · exact absurd h (hbad _ e4.2)
                · exact absurd h (hbad _ e3)
                all_goals simp [h]
              · cases i <;> decide
            match kw1, hk2, hn, hall with
            | [q1, q2], _, hn, hall =>
              simp only [List.map_cons, List.map_nil, List.nodup_cons, List.mem_cons,
                List.not_mem_nil, or_false] at hn
              exact hn.1 ((hall _ (by simp)).trans (hall _ (by simp)).symm)
  | none =>
    have noinv : ∀ nm ∈ ["e", "h", "s"], kw1.has nm = false := by
      have : k.inv.isSome = false := by rw [hinv]; rfl
      rw [hk.inv_isSome, Bool.or_eq_false_iff, Bool.or_eq_false_iff] at this
      intro nm hnm
      simp at hnm
      rcases hnm with rfl | rfl | rfl
      · exact this.1.1
      · exact this.1.2
      · exact this.2
    dsimp only
    unfold mpSolveBasic
    cases hT : k.T with
    | some T =>
      obtain ⟨aT, haT, halT, hmT⟩ := lenT hT
      cases hp : k.p with
      | some p =>
        obtain ⟨ap, hap, halp, hmp⟩ := lenp hp
        cases hx : k.x with
        | none =>
          have hk2 : kw1.length = 2 := by
            by_contra hne
            have h3 := three hne
            -- names among T, p only, at least three of them
            have hxn : kw1.has "x" = false := by rw [← hk.x_isSome, hx]; rfl
            rw [has_false_iff] at hxn
            have hsub : ∀ c ∈ kw1.map (·.1), c ∈ ["T", "p"] := by
              intro c hc
              obtain ⟨⟨m, v⟩, hv, rfl⟩ := List.mem_map.mp hc
              have := h3 m _ (argKg_of_mem hn hv)
              simp only [List.mem_cons, List.not_mem_nil, or_false] at this ⊢
              rcases this with h | h | h
              · exact Or.inl h
              · exact Or.inr h
              · exact absurd hc (by rw [h]; exact hxn)
            have := hn.length_le_of_subset (l₂ := ["T", "p"]) hsub
            simp at this
            omega
          dsimp only
          refine fin2 (mpTPX_outcome (m := n) ?_ ?_) (fun l => ⟨_, rfl, rfl⟩)
          · rw [halT, halp]; exact pair haT hap (by decide) hk2
          · exact ⟨Or.inl rfl, Or.inr rfl, Or.inl rfl⟩
        | some x =>
          have hax := role_x hk hx
          dsimp only
          -- the common length of T and p
          have hm : ∃ m, Fits m T.xs.length p.xs.length ∧ Fits n m x.xs.length := by
            rw [halT, halp]
            have hf3 : aT.xs.length = n ∨ ap.xs.length = n ∨ x.xs.length = n := by
              have h3 : nf ∈ ["T", "p", "x"] := by
                by_cases hk2 : kw1.length = 2
                · rcases two_of_nodup hn (by simp [hk2]) (has_of_argKg haT) (has_of_argKg hap) (by decide)
                    (has_of_argKg hf) with h | h <;> simp [h]
                · exact three hk2 _ _ hf
              simp only [List.mem_cons, List.not_mem_nil, or_false] at h3
              rcases h3 with rfl | rfl | rfl
              · rw [haT] at hf; cases hf; exact Or.inl hfn
              · rw [hap] at hf; cases hf; exact Or.inr (Or.inl hfn)
              · rw [hax] at hf; cases hf; exact Or.inr (Or.inr hfn)
            by_cases h1 : aT.xs.length = n ∨ ap.xs.length = n
            · exact ⟨n, ⟨sizes haT, sizes hap, h1⟩, Or.inl rfl, sizes hax, Or.inl rfl⟩
            · have s1 := sizes haT
              have s2 := sizes hap
              have s3 := sizes hax
              refine ⟨1, ?_, ?_⟩ <;> unfold Fits <;> omega
          obtain ⟨m, hm1, hm2⟩ := hm
          exact fin2 (mpTPX_outcome hm1 hm2) (fun l => ⟨_, rfl, rfl⟩)
      | none =>
        cases hd : k.d with
        | some d =>
          obtain ⟨nm, a, hnm, ha, hal⟩ := lend hd
          have hk2 : kw1.length = 2 := by
            by_contra hne
            have := three hne _ _ ha
            rcases hnm with rfl | rfl <;> simp at this
          dsimp only
          refine fin (mpTD_outcome ?_) (fun l => ⟨_, rfl, rfl⟩)
          rw [halT, hal]; exact pair haT ha (by rcases hnm with rfl | rfl <;> decide) hk2
        | none =>
          cases hx : k.x with
          | some x =>
            have hax := role_x hk hx
            have hk2 : kw1.length = 2 := by
              by_contra hne
              have hsub : ∀ c ∈ kw1.map (·.1), c ∈ ["T", "x"] := by
                intro c hc
                obtain ⟨⟨m, v⟩, hv, rfl⟩ := List.mem_map.mp hc
                have := three hne m _ (argKg_of_mem hn hv)
                have hpn : kw1.has "p" = false := by rw [← hk.p_isSome, hp]; rfl
                rw [has_false_iff] at hpn
                simp only [List.mem_cons, List.not_mem_nil, or_false] at this ⊢
                rcases this with h | h | h
                · exact Or.inl h
                · exact absurd hc (by rw [h]; exact hpn)
                · exact Or.inr h
              have := hn.length_le_of_subset (l₂ := ["T", "x"]) hsub
              simp at this
              omega
            dsimp only
            refine fin (mpTX_outcome ?_ ?_ ?_) (fun l => ⟨_, rfl, rfl⟩)
            · rw [halT]; exact pair haT hax (by decide) hk2
            · exact fun t ht => h.sat_T _ _ (mem hax) (mem haT) (by rw [← hlen, hk2]) t (hmT t ht)
            · exact h.sat_x _ (mem hax) (by rw [← hlen, hk2])
          | none =>
            exfalso
            have e1 : kw1.has "p" = false := by rw [← hk.p_isSome, hp]; rfl
            have e3 : kw1.has "x" = false := by rw [← hk.x_isSome, hx]; rfl
            have e4 : (kw1.has "d" || kw1.has "v") = false := by rw [← hk.d_isSome, hd]; rfl
            rw [Bool.or_eq_false_iff] at e4
            have hsub : ∀ c ∈ kw1.map (·.1), c ∈ ["T"] := by
              intro c hc
              have hl := hadm1.known c hc
              have hbad : ∀ m, kw1.has m = false → c ≠ m := by
                rintro m hm rfl; rw [has_false_iff] at hm; exact hm hc
              simp only [List.mem_cons, List.not_mem_nil, or_false] at hl ⊢
              rcases hl with h | h | h | h | h | h | h | h
              · exact h
              · exact absurd h (hbad _ e1)
              · exact absurd h (hbad _ e4.1)
              · exact absurd h (hbad _ e4.2)
              · exact absurd h (hbad _ e3)
              · exact absurd h (hbad _ (noinv "e" (by simp)))
              · exact absurd h (hbad _ (noinv "h" (by simp)))
              · exact absurd h (hbad _ (noinv "s" (by simp)))
            have := hn.length_le_of_subset (l₂ := ["T"]) hsub
            simp at this
            omega
    | none =>
      have eT : kw1.has "T" = false := by rw [← hk.T_isSome, hT]; rfl
      have nobad : ∀ m, kw1.has m = false → ∀ c ∈ kw1.map (·.1), c ≠ m := by
        rintro m hm c hc rfl; rw [has_false_iff] at hm; exact hm hc
      cases hp : k.p with
      | some p =>
        obtain ⟨ap, hap, halp, hmp⟩ := lenp hp
        cases hd : k.d with
        | some d =>
          obtain ⟨nm, a, hnm, ha, hal⟩ := lend hd
          have hk2 : kw1.length = 2 := by
            by_contra hne
            have := three hne _ _ ha
            rcases hnm with rfl | rfl <;> simp at this
          dsimp only
          refine fin2 (mpPD_outcome ?_) (fun l => ⟨_, rfl, rfl⟩)
          rw [halp, hal]; exact pair ha hap (by rcases hnm with rfl | rfl <;> decide) hk2
        | none =>
          cases hx : k.x with
          | some x =>
            have hax := role_x hk hx
            have hk2 : kw1.length = 2 := by
              by_contra hne
              have hsub : ∀ c ∈ kw1.map (·.1), c ∈ ["p", "x"] := by
                intro c hc
                have hnT := nobad _ eT c hc
                obtain ⟨⟨m, v⟩, hv, rfl⟩ := List.mem_map.mp hc
                have := three hne m _ (argKg_of_mem hn hv)
                simp only [List.mem_cons, List.not_mem_nil, or_false] at this ⊢
                rcases this with h | h | h
                · exact absurd h hnT
                · exact Or.inl h
                · exact Or.inr h
              have := hn.length_le_of_subset (l₂ := ["p", "x"]) hsub
              simp at this
              omega
            dsimp only
            refine fin (mpPX_outcome ?_ ?_ ?_) (fun l => ⟨_, rfl, rfl⟩)
            · rw [halp]; exact pair hap hax (by decide) hk2
            · exact fun t ht => h.sat_p _ _ (mem hax) (mem hap) (by rw [← hlen, hk2]) t (hmp t ht)
            · exact h.sat_x _ (mem hax) (by rw [← hlen, hk2])
          | none =>
            exfalso
            have e3 : kw1.has "x" = false := by rw [← hk.x_isSome, hx]; rfl
            have e4 : (kw1.has "d" || kw1.has "v") = false := by rw [← hk.d_isSome, hd]; rfl
            rw [Bool.or_eq_false_iff] at e4
            have hsub : ∀ c ∈ kw1.map (·.1), c ∈ ["p"] := by
              intro c hc
              have hl := hadm1.known c hc
              simp only [List.mem_cons, List.not_mem_nil, or_false] at hl ⊢
              rcases hl with h | h | h | h | h | h | h | h
              · exact absurd h (nobad _ eT c hc)
              · exact h
              · exact absurd h (nobad _ e4.1 c hc)
              · exact absurd h (nobad _ e4.2 c hc)
              · exact absurd h (nobad _ e3 c hc)
              · exact absurd h (nobad _ (noinv "e" (by simp)) c hc)
              · exact absurd h (nobad _ (noinv "h" (by simp)) c hc)
              · exact absurd h (nobad _ (noinv "s" (by simp)) c hc)
            have := hn.length_le_of_subset (l₂ := ["p"]) hsub
            simp at this
            omega
      | none =>
        exfalso
        have e1 : kw1.has "p" = false := by rw [← hk.p_isSome, hp]; rfl
        have hsub : ∀ c ∈ kw1.map (·.1), c ∈ ["d", "v", "x"] := by
          intro c hc
          have hl := hadm1.known c hc
          simp only [List.mem_cons, List.not_mem_nil, or_false] at hl ⊢
          rcases hl with h | h | h | h | h | h | h | h
          · exact absurd h (nobad _ eT c hc)
          · exact absurd h (nobad _ e1 c hc)
          · simp [h]
          · simp [h]
          · simp [h]
          · exact absurd h (nobad _ (noinv "e" (by simp)) c hc)
          · exact absurd h (nobad _ (noinv "h" (by simp)) c hc)
          · exact absurd h (nobad _ (noinv "s" (by simp)) c hc)
        by_cases hxm : "x" ∈ kw1.map (·.1)
        · have hsub2 : ∀ c ∈ kw1.map (·.1), c ∈ ["x"] := by
            intro c hc
            have h1 := hadm1.x_with hxm c hc
            have h2 := hsub c hc
            simp only [List.mem_cons, List.not_mem_nil, or_false] at h1 h2 ⊢
            rcases h2 with h | h | h
            · subst h; simp at h1
            · subst h; simp at h1
            · exact h
          have := hn.length_le_of_subset (l₂ := ["x"]) hsub2
          simp at this
          omega
        · have hdv := hadm1.not_dv
          have hsub2 : ∃ z, ∀ c ∈ kw1.map (·.1), c ∈ [z] := by
            by_cases hd : "d" ∈ kw1.map (·.1)
            · refine ⟨"d", fun c hc => ?_⟩
              have h2 := hsub c hc
              simp only [List.mem_cons, List.not_mem_nil, or_false] at h2 ⊢
              rcases h2 with h | h | h
              · exact h
              · exact absurd ⟨hd, h ▸ hc⟩ hdv
              · exact absurd (h ▸ hc) hxm
            · refine ⟨"v", fun c hc => ?_⟩
              have h2 := hsub c hc
              simp only [List.mem_cons, List.not_mem_nil, or_false] at h2 ⊢
              rcases h2 with h | h | h
              · exact absurd (h ▸ hc) hd
              · exact h
              · exact absurd (h ▸ hc) hxm
          obtain ⟨z, hz⟩ := hsub2
          have := hn.length_le_of_subset (l₂ := [z]) hz
          simp at this
          omega

/-- C54, defaults.  A property given alone by name is completed with the configured temperature, or
with the configured pressure if it is the temperature; a call without arguments uses both.  The
defaults `T0`, `p0` are those of the configuration, expressed in the working units. -/
theorem C54_defaults (E : Env) (U : Sys) (hU : Uses E U) (B : Sub) (S : Sol) :
    ∃ T0 p0 : ℝ,
      (∃ s : Scale, E.c.str "def_T_unit" = .ok s.name ∧ toKelvin U.T.name T0 = toKelvin s.name E.c.defT) ∧
      (∃ u, E.c.str "def_p_unit" = .ok u ∧
        p0 * size (pressure E.a) U.p = E.c.defp * size (pressure E.a) u) ∧
      (∀ nm v, nm ≠ "T" →
        mpArgparse E B S [] [(nm, v)] = mpArgparse E B S [] [("T", .scalar T0), (nm, v)]) ∧
      (∀ v, mpArgparse E B S [] [("T", v)] = mpArgparse E B S [] [("p", .scalar p0), ("T", v)]) ∧
      mpArgparse E B S [] [] = mpArgparse E B S [] [("p", .scalar p0), ("T", .scalar T0)] := by
  obtain ⟨s, hs, hT⟩ := defT_eq hU
  obtain ⟨u, hu, hc, hp⟩ := defp_eq hU
  refine ⟨_, _, ⟨s, hs, to_from U.T _⟩, ⟨u, hu, div_mul_cancel₀ _ (ps_ne hU)⟩, ?_, ?_, ?_⟩
  · intro nm v hn
    simp [mpArgparse, bindPos, applyDefaults, hT, hp, exOk, hn]
  · intro v
    simp [mpArgparse, bindPos, applyDefaults, hT, hp, exOk]
  · simp [mpArgparse, bindPos, applyDefaults, hT, hp, exOk]

/-- **C54 disagreement.** The documentation of the arguments lists `e`, `h` and `s` as usable with
quality (`mp1.py:2326-2328`: "requires p, d, v, or x"), but every such call is refused. -/
theorem C54_quality_defect (E : Env) (U : Sys) (hU : Uses E U) (B : Sub) (hmw : B.mw ≠ 0) (S : Sol)
    (i : Inv) (vy vx : Val ℝ) :
    mpArgparse E B S [] [(i.name, vy), ("x", vx)] = .error .param := by
  apply C54_rejects E U hU B hmw
  · cases i <;> simp [Inv.name]
  · rintro ⟨-, h⟩
    have := h.x_with (by simp [given]) i.name (by simp [given])
    cases i <;> simp [Inv.name] at this

/-- The acceptance theorem applies: temperature and quality of two states of a substance with limits
like those of water, in the shipped units. -/
example (B : Sub) (h1 : B.Tlo = 273.16) (h2 : B.Thi = 1273) (h3 : B.Tc = 647.096) :
    Usable B 2 (physical exampleEnv.a exampleSys B.mw [.arr [300, 500]] [("x", .scalar 0.25)]) := by
  have e : physical exampleEnv.a exampleSys B.mw [.arr [300, 500]] [("x", .scalar 0.25)]
      = [("T", [300, 500]), ("x", [0.25])] := by
    have hT : ∀ x : ℝ, internalKg exampleEnv.a exampleSys B.mw (kindOf "T") x = x := by
      intro x
      show toKelvin Scale.K.name x = x
      exact toK_K x
    have hx : ∀ x : ℝ, internalKg exampleEnv.a exampleSys B.mw (kindOf "x") x = x := fun x => rfl
    simp [physical, supplied, Val.elems, hT, hx]
  rw [e]
  refine ⟨by simp, ?_, by simp, ⟨_, List.mem_cons_self, rfl⟩, ?_, by simp, ?_, ?_, ?_, by simp⟩
  · constructor <;> simp
  · intro xs hxs
    simp at hxs
    subst hxs
    exact ⟨300, by simp, by rw [h1]; norm_num, by rw [h2]; norm_num⟩
  · intro xs hxs
    simp at hxs
    subst hxs
    intro x hx; simp at hx; subst hx; norm_num
  · intro xs hxs _
    simp at hxs
    subst hxs
    intro x hx; simp at hx; subst hx; norm_num
  · intro xs zs _ hz _
    simp at hz
    subst hz
    intro x hx; simp at hx; rw [h3]; rcases hx with rfl | rfl <;> norm_num

end PyroMat.Mp.Props
