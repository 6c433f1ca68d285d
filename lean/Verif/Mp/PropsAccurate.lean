import Verif.Mp.PropsGiven

/-!
# C70: the inversions solve for the property they were given
-/

set_option linter.unusedSimpArgs false

namespace PyroMat.Mp.Props

open PyroMat PyroMat.Units PyroMat.Units.Spec PyroMat.Units.Props PyroMat.Gas PyroMat.Gas.Spec
open PyroMat.Gas.Props PyroMat.Mp PyroMat.Mp.Spec PyroMat.Config.Defaults

theorem noWarning_ok {α : Type} {r : Except Err (α × Bool)} {f : α} (h : noWarning r = .ok f) :
    r = .ok (f, false) := by
  match r, h with
  | .ok (_, false), h => cases h; rfl

/-! ## Calls without a warning -/

/-- One set of inversions succeeds only where another does, with the same result. -/
structure Below (S S' : Sol) : Prop where
  Ts : ∀ q f, S.Ts q = .ok f → S'.Ts q = .ok f
  d : ∀ q f, S.d q = .ok f → S'.d q = .ok f
  Tdp : ∀ q f, S.Tdp q = .ok f → S'.Tdp q = .ok f
  Thp : ∀ i q f, S.Thp i q = .ok f → S'.Thp i q = .ok f
  Thd : ∀ i q f, S.Thd i q = .ok f → S'.Thd i q = .ok f
  dhT : ∀ i q f, S.dhT i q = .ok f → S'.dhT i q = .ok f

theorem hloopB_below {F F' : Batch} (hF : ∀ T v, F T = .ok v → F' T = .ok v) (ep : ℝ) :
    ∀ (n : Nat) (l : List (ℝ × HSt)) {r}, hloopB F ep n l = .ok r → hloopB F' ep n l = .ok r := by
  intro n
  induction n with
  | zero => intro l r h; exact h
  | succ n ih =>
    intro l r h
    unfold hloopB at h ⊢
    by_cases c : l.any (·.2.active) = true
    · rw [if_pos c] at h ⊢
      obtain ⟨v, hv, h⟩ := bind_ok h
      rw [hF _ _ hv, exOk]
      exact ih _ h
    · rw [if_neg c] at h ⊢
      exact h

theorem hybridB_below {F F' : Batch} (hF : ∀ T v, F T = .ok v → F' T = .ok v) {ep : ℝ} {n : Nat}
    {l : List BIn} {r} (h : hybridB F ep n l = .ok r) : hybridB F' ep n l = .ok r := by
  unfold hybridB at h ⊢
  obtain ⟨a, ha, h⟩ := bind_ok h
  obtain ⟨b, hb, h⟩ := bind_ok h
  rw [hF _ _ ha, exOk, hF _ _ hb, exOk]
  split at h
  · cases h
  · rename_i c
    rw [if_neg c]
    obtain ⟨t, ht, h⟩ := bind_ok h
    rw [hloopB_below hF ep _ _ ht, exOk]
    exact h

theorem noWarning_map {α : Type} {r : Except Err (α × Bool)} {f : α} (h : noWarning r = .ok f) :
    r.map (·.1) = .ok f := by rw [noWarning_ok h]; rfl

theorem quiet_below (B : Sub) : Below (quietSol B) (codeSol B) := by
  refine ⟨fun _ _ => noWarning_map, fun _ _ => noWarning_map, fun _ _ => noWarning_map, fun i q f h => ?_,
    fun _ _ _ => noWarning_map, fun _ _ _ => noWarning_map⟩
  have h' := noWarning_ok h
  show (codeThp _ B i q).map (·.1) = .ok f
  unfold codeThp at h' ⊢
  rw [hybridB_below (F' := tpiter (fun q => (codeD B q).map (·.1)) B (B.invQ i)
    (q.map (Option.map (fun e => e.2.1)))) ?_ h']
  · rfl
  · intro T v hv
    unfold tpiter at hv ⊢
    obtain ⟨d, hd, hv⟩ := bind_ok hv
    dsimp only at hd ⊢
    rw [noWarning_map hd, exOk]
    exact hv

section
variable {B : Sub} {S S' : Sol} (hS : Below S S')
include hS

theorem askTs_below {sel : Nan → Bool} {p : List Nan} {f : Nat → Nan} (h : askTs S sel p = .ok f) :
    askTs S' sel p = .ok f := by
  unfold askTs at h ⊢
  by_cases c : p.any sel = true
  · rw [if_pos c] at h ⊢
    exact hS.Ts _ _ h
  · rw [if_neg c] at h ⊢
    exact h

theorem solve_below {k : MStd} {r : MOut} (h : mpSolve B S k = .ok r) : mpSolve B S' k = .ok r := by
  have hHP : ∀ {i : Mp.Inv} {y : List ℝ} {p : List Nan} {r : List Pt}, mpHP B S i y p = .ok r →
      mpHP B S' i y p = .ok r := by
    intro i y p r h
    unfold mpHP at h ⊢
    obtain ⟨⟨y', p'⟩, h1, h⟩ := bind_ok h
    rw [h1, exOk]
    dsimp only at h ⊢
    obtain ⟨Ts, h2, h⟩ := bind_ok h
    rw [askTs_below hS h2, exOk]
    obtain ⟨T, h3, h⟩ := bind_ok h
    rw [hS.Thp _ _ _ h3, exOk]
    obtain ⟨d, h4, h⟩ := bind_ok h
    rw [hS.d _ _ h4, exOk]
    exact h
  have hHD : ∀ {i : Mp.Inv} {y d : List ℝ} {r : List Pt}, mpHD B S i y d = .ok r →
      mpHD B S' i y d = .ok r := by
    intro i y d r h
    unfold mpHD at h ⊢
    obtain ⟨⟨y', d'⟩, h1, h⟩ := bind_ok h
    rw [h1, exOk]
    dsimp only at h ⊢
    obtain ⟨T, h3, h⟩ := bind_ok h
    rw [hS.Thd _ _ _ h3, exOk]
    exact h
  have hHT : ∀ {i : Mp.Inv} {y : List ℝ} {T : List Nan} {r : List Pt}, mpHT B S i y T = .ok r →
      mpHT B S' i y T = .ok r := by
    intro i y T r h
    unfold mpHT at h ⊢
    obtain ⟨⟨y', d'⟩, h1, h⟩ := bind_ok h
    rw [h1, exOk]
    dsimp only at h ⊢
    obtain ⟨T, h3, h⟩ := bind_ok h
    rw [hS.dhT _ _ _ h3, exOk]
    exact h
  have hTPX : ∀ {T p : List Nan} {x : List ℝ} {r}, mpTPX B S T p x = .ok r → mpTPX B S' T p x = .ok r := by
    intro T p x r h
    unfold mpTPX at h ⊢
    obtain ⟨⟨T', p'⟩, h1, h⟩ := bind_ok h
    rw [h1, exOk]
    dsimp only at h ⊢
    obtain ⟨⟨w, x'⟩, h2, h⟩ := bind_ok h
    rw [h2, exOk]
    dsimp only at h ⊢
    obtain ⟨d, h3, h⟩ := bind_ok h
    rw [hS.d _ _ h3, exOk]
    exact h
  have hPD : ∀ {d : List ℝ} {p : List Nan} {r}, mpPD B S d p = .ok r → mpPD B S' d p = .ok r := by
    intro d p r h
    unfold mpPD at h ⊢
    obtain ⟨⟨d', p'⟩, h1, h⟩ := bind_ok h
    rw [h1, exOk]
    dsimp only at h ⊢
    obtain ⟨Ts, h2, h⟩ := bind_ok h
    rw [askTs_below hS h2, exOk]
    obtain ⟨T, h3, h⟩ := bind_ok h
    rw [hS.Tdp _ _ h3, exOk]
    exact h
  have hPX : ∀ {p : List Nan} {x : List ℝ} {r}, mpPX B S p x = .ok r → mpPX B S' p x = .ok r := by
    intro p x r h
    unfold mpPX at h ⊢
    split at h
    · cases h
    rename_i c1
    rw [if_neg c1]
    split at h
    · cases h
    rename_i c2
    rw [if_neg c2]
    obtain ⟨⟨p', x'⟩, h1, h⟩ := bind_ok h
    rw [h1, exOk]
    dsimp only at h ⊢
    obtain ⟨Ts, h2, h⟩ := bind_ok h
    rw [hS.Ts _ _ h2, exOk]
    exact h
  unfold mpSolve at h ⊢
  split at h
  · unfold mpSolveInv at h ⊢
    split at h
    · obtain ⟨l, hl, h⟩ := bind_ok h; rw [hHP hl, exOk]; exact h
    · obtain ⟨l, hl, h⟩ := bind_ok h; rw [hHD hl, exOk]; exact h
    · cases h
    · obtain ⟨l, hl, h⟩ := bind_ok h; rw [hHT hl, exOk]; exact h
    · cases h
  · unfold mpSolveBasic at h ⊢
    split at h
    · obtain ⟨l, hl, h⟩ := bind_ok h; rw [hTPX hl, exOk]; exact h
    · obtain ⟨l, hl, h⟩ := bind_ok h; rw [hTPX hl, exOk]; exact h
    · exact h
    · exact h
    · obtain ⟨l, hl, h⟩ := bind_ok h; rw [hPD hl, exOk]; exact h
    · obtain ⟨l, hl, h⟩ := bind_ok h; rw [hPX hl, exOk]; exact h
    · cases h

theorem argparse_below {E : Env} {varg : List (Val ℝ)} {kw : Kw} {r : MOut}
    (h : mpArgparse E B S varg kw = .ok r) : mpArgparse E B S' varg kw = .ok r := by
  unfold mpArgparse at h ⊢
  obtain ⟨a, h1, h⟩ := bind_ok h
  obtain ⟨b, h2, h⟩ := bind_ok h
  obtain ⟨c, h3, h⟩ := bind_ok h
  obtain ⟨d, h4, h⟩ := bind_ok h
  rw [h1, exOk, h2, exOk, h3, exOk, h4, exOk]
  exact solve_below hS h

end

/-- A number returned without a warning is the number the code returns. -/
theorem C70_no_warning {E : Env} {U : Sys} (hU : Uses E U) {B : Sub} (hmw : B.mw ≠ 0) {varg : List (Val ℝ)}
    {kw : Kw} {m : MQuantity} (hm : m ≠ .cv) {i : Nat} {y : ℝ}
    (h : MpGives E B (quietSol B) varg kw m i y) : MpGives E B (codeSol B) varg kw m i y := by
  obtain ⟨r, q, hr, hq⟩ := gives_pt hU hmw hm h
  have hy := (gives_iff hU hmw hr hm hq y).mp h
  exact (gives_iff hU hmw (argparse_below (quiet_below B) hr) hm hq y).mpr hy

/-! ## The bracketed solver -/

/-- The invariant of the solver for limits in any order. -/
structure Inv' (P : Prob) (a b : ℝ) (s : HSt) : Prop where
  min1 : a ≤ s.xmin
  min2 : s.xmin ≤ b
  max1 : a ≤ s.xmax
  max2 : s.xmax ≤ b
  mid : s.xc = 1 / 2 * (s.xmin + s.xmax)
  sides : Sides P s

section
variable {P : Prob} {ep a b : ℝ} {s : HSt}

theorem guess_mem' (hI : Inv' P a b s) {x : ℝ} (h : guess s = .fin x) : a ≤ x ∧ x ≤ b := by
  have m1 := hI.min1
  have m2 := hI.min2
  have m3 := hI.max1
  have m4 := hI.max2
  have hc : a ≤ s.xc ∧ s.xc ≤ b := by
    rw [hI.mid]; constructor <;> linarith
  have hn : ∀ {r : ℝ}, ¬ oob s (.fin r) → a ≤ r ∧ r ≤ b := fun h => by
    have := not_oob_fin h
    constructor <;> linarith [this.1, this.2]
  unfold guess at h
  by_cases hb : oob s s.xb
  · rw [if_pos hb] at h; cases h; exact hc
  rw [if_neg hb] at h
  by_cases ha : oob s s.xa
  · rw [if_pos ha] at h; cases h; exact hc
  rw [if_neg ha] at h
  unfold middle at h
  simp only at h
  split_ifs at h
  · cases h; exact hc
  · rw [h] at hb; exact hn hb
  · rw [h] at ha; exact hn ha

theorem hstep_inv' (hI : Inv' P a b s) : Inv' P a b (hstep P ep s) := by
  unfold hstep
  split
  swap
  · exact hI
  split
  swap
  · exact ⟨hI.min1, hI.min2, hI.max1, hI.max2, hI.mid, hI.sides⟩
  rename_i x hx
  obtain ⟨h1, h2⟩ := guess_mem' hI hx
  have hs := hI.sides
  unfold update
  by_cases hl : low P s.swap x
  · simp only [hl, if_true]
    refine ⟨h1, h2, hI.max1, hI.max2, by simp only; ring, ?_⟩
    unfold Sides low at *
    cases hsw : s.swap <;> simp only [hsw, if_true, if_false, Bool.false_eq_true] at hs hl ⊢
    · exact ⟨hl, hs.2⟩
    · exact ⟨le_of_lt hl, hs.2⟩
  · simp only [hl, if_false]
    refine ⟨hI.min1, hI.min2, h1, h2, by simp only; ring, ?_⟩
    unfold Sides low at *
    cases hsw : s.swap <;> simp only [hsw, if_true, if_false, Bool.false_eq_true, not_le, not_lt] at hs hl ⊢
    · exact ⟨hs.1, le_of_lt hl⟩
    · exact ⟨hs.1, hl⟩

theorem iterate_inv' (hI : Inv' P a b s) (n : Nat) : Inv' P a b ((hstep P ep)^[n] s) := by
  induction n with
  | zero => exact hI
  | succ n ih => rw [Function.iterate_succ_apply']; exact hstep_inv' ih

theorem start_inv' {lo hi : ℝ} (h1 : a ≤ lo) (h2 : lo ≤ b) (h3 : a ≤ hi) (h4 : hi ≤ b)
    (hb : ¬ unbracketed P lo hi) (x : Option ℝ) : Inv' P a b (hstart P lo hi x) := by
  refine ⟨h1, h2, h3, h4, rfl, ?_⟩
  unfold Sides hstart
  unfold unbracketed at hb
  simp only [decide_eq_true_eq]
  by_cases h : P.y ≤ P.f lo
  · rw [if_pos h]
    have : ¬ P.y ≤ P.f hi := fun h' => hb ⟨fun _ => h', fun _ => h⟩
    exact ⟨h, le_of_lt (not_le.mp this)⟩
  · rw [if_neg h]
    have : P.y ≤ P.f hi := by
      by_contra h'
      exact hb ⟨fun a => absurd a h, fun a => absurd a h'⟩
    exact ⟨le_of_lt (not_le.mp h), this⟩

end

/-- `x` solves `f x = y` to a tolerance, all points involved lying between `a` and `b`. -/
def SolvesIn (a b ep : ℝ) (f : ℝ → ℝ) (y x : ℝ) : Prop :=
  a ≤ x ∧ x ≤ b ∧ (|f x - y| ≤ ep * |y| ∨
    ∃ x', a ≤ x' ∧ x' ≤ b ∧ |x' - x| ≤ ep * |x| ∧ (f x ≤ y ∧ y ≤ f x' ∨ f x' ≤ y ∧ y ≤ f x))

theorem SolvesIn.solves {a b ep : ℝ} {f g : ℝ → ℝ} {y x : ℝ} (h : SolvesIn a b ep f y x)
    (hg : ∀ z, a ≤ z → z ≤ b → f z = g z) : Solves ep g y x := by
  obtain ⟨h1, h2, h⟩ := h
  rw [hg x h1 h2] at h
  rcases h with h | ⟨x', h3, h4, h5, h⟩
  · exact Or.inl h
  · rw [hg x' h3 h4] at h
    exact Or.inr ⟨x', h5, h⟩

theorem hybrid_solves {ep : ℝ} {Nmax : Nat} {l : List HIn} {xs : List (Option ℝ)}
    (h : hybrid1 ep Nmax l = .ok (xs, false)) {i : Nat} {e : HIn} (he : l[i]? = some e)
    (hs : e.ids = true) {a b : ℝ} (h1 : a ≤ e.xmin) (h2 : e.xmin ≤ b) (h3 : a ≤ e.xmax) (h4 : e.xmax ≤ b)
    {x : ℝ} (hx : xs[i]? = some (some x)) : SolvesIn a b ep e.P.f e.P.y x := by
  obtain ⟨rfl, hw, -⟩ := hybrid1_ok h
  rw [List.getElem?_map, he] at hx
  simp only [Option.map_some, Option.some.injEq] at hx
  by_cases hu : unbracketed e.P e.xmin e.xmax
  · have := hinit_bad hs hu
    rw [final_inactive this.1, this.2] at hx
    cases hx
  have hna : (final ep Nmax e).active = false := by
    have hm : final ep Nmax e ∈ l.map (final ep Nmax) :=
      List.mem_map_of_mem (List.mem_of_getElem? he)
    by_contra hc
    have := List.any_eq_true.mpr ⟨_, hm, by simpa using hc⟩
    rw [← hw] at this
    cases this
  have hI := iterate_inv' (ep := ep) (start_inv' h1 h2 h3 h4 hu e.x) (Nmax + 1)
  have hl := iterate_limit (P := e.P) (ep := ep) (s := hstart e.P e.xmin e.xmax e.x) rfl Nmax
  unfold final at hx hna
  rw [hinit_good hs hu] at hx hna
  generalize (hstep e.P ep)^[Nmax + 1] (hstart e.P e.xmin e.xmax e.x) = s at *
  rcases hl with ⟨z, hz⟩ | hz
  swap
  · rw [hz.1] at hx; cases hx
  rw [hz.val] at hx
  cases hx
  have hact : ¬ (relGt (s.xmax - s.xmin) x ep ∧ relGt (e.P.f x - e.P.y) e.P.y ep) := by
    rw [← hz.act, hna]; simp
  have hab : a ≤ x ∧ x ≤ b := by
    rcases hz.lim with h | h <;> rw [h]
    exacts [⟨hI.min1, hI.min2⟩, ⟨hI.max1, hI.max2⟩]
  refine ⟨hab.1, hab.2, ?_⟩
  by_cases g1 : relGt (e.P.f x - e.P.y) e.P.y ep
  · right
    have g2 := relGt_false (fun g2 => hact ⟨g2, g1⟩)
    have hsd := hI.sides
    unfold Sides at hsd
    rcases hz.lim with h | h
    · refine ⟨s.xmax, hI.max1, hI.max2, by rw [h] at g2 ⊢; exact g2, ?_⟩
      rw [h]; split_ifs at hsd
      · exact Or.inr ⟨hsd.2, hsd.1⟩
      · exact Or.inl ⟨hsd.1, hsd.2⟩
    · refine ⟨s.xmin, hI.min1, hI.min2, by rw [h] at g2 ⊢; rwa [abs_sub_comm], ?_⟩
      rw [h]; split_ifs at hsd
      · exact Or.inl ⟨hsd.2, hsd.1⟩
      · exact Or.inr ⟨hsd.1, hsd.2⟩
  · exact Or.inl (relGt_false g1)

/-- The elements of a run of the solver without a warning. -/
theorem run_solves {Nmax : Nat} {l : List HIn} {f : Nat → Nan} (h : runHybrid Nmax l = .ok (f, false))
    {i : Nat} {e : HIn} (he : l[i]? = some e) (hs : e.ids = true) {a b : ℝ} (h1 : a ≤ e.xmin)
    (h2 : e.xmin ≤ b) (h3 : a ≤ e.xmax) (h4 : e.xmax ≤ b) {x : ℝ} (hx : f i = some x) :
    SolvesIn a b 1e-6 e.P.f e.P.y x := by
  unfold runHybrid at h
  obtain ⟨⟨xs, w⟩, hr, h⟩ := bind_ok h
  cases h
  dsimp only at hx
  cases hxi : xs[i]? with
  | none => rw [hxi] at hx; cases hx
  | some o =>
    rw [hxi] at hx
    have hx' : o = some x := hx
    subst hx'
    exact hybrid_solves hr he hs h1 h2 h3 h4 hxi

theorem run_solves' {Nmax : Nat} {l : List HIn} {f : Nat → Nan} (h : runHybrid Nmax l = .ok (f, false))
    {i : Nat} {e : HIn} (he : l[i]? = some e) (hs : e.ids = true) {x : ℝ} (hx : f i = some x) :
    Solves 1e-6 e.P.f e.P.y x :=
  (run_solves h he hs (min_le_left e.xmin e.xmax) (le_max_left e.xmin e.xmax) (min_le_right _ _)
    (le_max_right _ _) hx).solves (fun _ _ _ => rfl)

/-- An element with NaN among its arguments is answered with NaN. -/
theorem run_nan {Nmax : Nat} {l : List HIn} {f : Nat → Nan} {w : Bool} (h : runHybrid Nmax l = .ok (f, w))
    {i : Nat} (he : l[i]? = some nanIn) : f i = none := by
  unfold runHybrid at h
  obtain ⟨⟨xs, w'⟩, hr, h⟩ := bind_ok h
  cases h
  dsimp only
  obtain ⟨rfl, -, -⟩ := hybrid1_ok hr
  have hu : unbracketed nanIn.P nanIn.xmin nanIn.xmax := by
    unfold unbracketed nanIn; norm_num
  have := hinit_bad (e := nanIn) rfl hu
  rw [List.getElem?_map, he]
  simp only [Option.map_some, Option.getD_some]
  rw [final_inactive this.1, this.2]

/-! ## The mixture value -/

theorem tditer_value (B : Sub) (f : ℝ → ℝ → Q3) {T D : ℝ} (hv : T < B.Tc → 0 < B.dsv T)
    (hl : T < B.Tc → B.dsv T < B.dsl T) :
    (tditer B f T D).v = valueAt B (fun T d => (f T d).v) T D := by
  unfold tditer valueAt
  by_cases hc : T < B.Tc ∧ D ≤ B.dsl T ∧ D ≥ B.dsv T
  · rw [if_pos hc, if_pos ⟨hc.1, hc.2.2, hc.2.1⟩]
    have h1 := hv hc.1
    have h2 := hl hc.1
    have h3 : 0 < D := lt_of_lt_of_le h1 hc.2.2
    have h4 : 0 < B.dsl T := h1.trans h2
    have h5 : B.dsl T - B.dsv T ≠ 0 := by linarith
    dsimp only
    have e : (B.dsl T / D - 1) * (1 / (B.dsl T / B.dsv T - 1))
        = (1 / D - 1 / B.dsl T) / (1 / B.dsv T - 1 / B.dsl T) := by
      have h6 : B.dsl T / B.dsv T - 1 ≠ 0 := by
        rw [div_sub_one h1.ne']; exact div_ne_zero h5 h1.ne'
      have h7 : 1 / B.dsv T - 1 / B.dsl T ≠ 0 := by
        rw [div_sub_div _ _ h1.ne' h4.ne']
        exact div_ne_zero (by linarith) (mul_ne_zero h1.ne' h4.ne')
      rw [mul_one_div, div_eq_div_iff h6 h7]
      field_simp
    rw [e]; ring
  · rw [if_neg hc, if_neg (fun h => hc ⟨h.1, h.2.2, h.2.1⟩)]

/-! ## The inversions one by one -/

section
variable {B : Sub} {i : Nat}

theorem codeD_solves {q : List (Option (Nan × Nan))} {f : Nat → Nan} (h : codeD B q = .ok (f, false))
    {T p d : ℝ} (hq : q[i]? = some (some (some T, some p))) (hd : f i = some d) :
    Solves 1e-6 (fun d => (B.F.p T d).v) p d := by
  unfold codeD at h
  exact run_solves' h (e := dIn B (some (some T, some p))) (by rw [List.getElem?_map, hq]; rfl) rfl hd

theorem codeD_nan {q : List (Option (Nan × Nan))} {f : Nat → Nan} {w : Bool} (h : codeD B q = .ok (f, w))
    {T p : Nan} (hq : q[i]? = some (some (T, p))) (hn : T = none ∨ p = none) : f i = none := by
  unfold codeD at h
  refine run_nan h ?_
  rw [List.getElem?_map, hq]
  rcases hn with rfl | rfl
  · rfl
  · cases T <;> rfl

theorem codeThd_solves {j : Mp.Inv} {q : List (ℝ × ℝ)} {f : Nat → Nan} (h : codeThd B j q = .ok (f, false))
    {y D T : ℝ} (hq : q[i]? = some (y, D)) (hT : f i = some T) (ho : B.Tlo ≤ B.Thi) :
    SolvesIn B.Tlo B.Thi 1e-6 (fun T => (tditer B (B.invQ j) T D).v) y T := by
  unfold codeThd at h
  exact run_solves h (e := ⟨tdProb B (B.invQ j) D y, B.Tlo, B.Thi, true, none⟩)
    (by rw [List.getElem?_map, hq]; rfl) rfl le_rfl ho ho le_rfl hT

theorem codeDhT_solves {j : Mp.Inv} {q : List (Option (ℝ × Nan))} {f : Nat → Nan}
    (h : codeDhT B j q = .ok (f, false)) {y T d : ℝ} (hq : q[i]? = some (some (y, some T)))
    (hd : f i = some d) : Solves 1e-6 (fun d => B.inv j T d) y d := by
  unfold codeDhT at h
  obtain ⟨l, hl, h⟩ := bind_ok h
  have hF := mapM_ok hl
  have hn : i < q.length := (List.getElem?_eq_some_iff.mp hq).1
  have hn' : i < l.length := by rw [← hF.length_eq]; exact hn
  have := hF.get hn hn'
  rw [List.getElem?_eq_getElem hn, Option.some.injEq] at hq
  rw [List.get_eq_getElem, List.get_eq_getElem, hq] at this
  unfold dhtIn at this
  obtain ⟨da, -, this⟩ := bind_ok this
  have e := (Except.ok.inj this).symm
  have := run_solves' h (List.getElem?_eq_getElem hn') (by rw [e]) hd
  rw [e] at this
  have hj : ∀ d, (B.invQ j T d).v = B.inv j T d := by intro d; cases j <;> rfl
  simp only [hj] at this
  exact this

theorem codeTdp_solves {q : List (Option (ℝ × Nan × Nan))} {f : Nat → Nan}
    (h : codeTdp B q = .ok (f, false)) {D T : ℝ} {p Ts : Nan} (hq : q[i]? = some (some (D, p, Ts)))
    (hT : f i = some T) {a b : ℝ} (h1 : a ≤ B.Tlo) (h2 : B.Tlo ≤ B.Thi) (h3 : B.Thi ≤ b)
    (hs : ∀ t, Ts = some t → a ≤ 1.01 * t ∧ 0 ≤ t ∧ 1.01 * t ≤ b) :
    ∃ P, p = some P ∧ SolvesIn a b 1e-6 (fun T => (tditer B B.F.p T D).v) P T := by
  unfold codeTdp at h
  have hq' : (q.map (tdpIn B))[i]? = some (tdpIn B (some (D, p, Ts))) := by
    rw [List.getElem?_map, hq]; rfl
  cases p with
  | none =>
    rw [run_nan h hq'] at hT; cases hT
  | some P =>
    refine ⟨P, rfl, ?_⟩
    unfold tdpIn at hq'
    cases hl : tdpLimits B D P Ts with
    | none =>
      simp only [hl] at hq'
      rw [run_nan h hq'] at hT; cases hT
    | some l =>
      simp only [hl] at hq'
      have hb : a ≤ l.1 ∧ l.1 ≤ b ∧ a ≤ l.2 ∧ l.2 ≤ b := by
        unfold tdpLimits at hl
        by_cases hc : P ≥ B.pc
        · rw [if_pos hc] at hl
          cases hl
          exact ⟨h1, by linarith, by linarith, h3⟩
        · rw [if_neg hc] at hl
          obtain ⟨t, ht, rfl⟩ := Option.map_eq_some_iff.mp hl
          obtain ⟨s1, s2, s3⟩ := hs t ht
          split
          · exact ⟨le_max_of_le_right h1, max_le (by linarith) (by linarith), by linarith, h3⟩
          · exact ⟨h1, by linarith, by linarith, by linarith⟩
      exact run_solves h hq' rfl hb.1 hb.2.1 hb.2.2.1 hb.2.2.2 hT

/-! ### A property with pressure -/

/-- The density `_d` finds for one element. -/
noncomputable def densOf (B : Sub) (T p : Nan) : Nan := (final 1e-6 50 (dIn B (some (T, p)))).x

theorem codeD_at {q : List (Option (Nan × Nan))} {f : Nat → Nan} {w : Bool} (h : codeD B q = .ok (f, w))
    {T p : Nan} (hq : q[i]? = some (some (T, p))) : f i = densOf B T p := by
  unfold codeD runHybrid at h
  obtain ⟨⟨xs, w'⟩, hr, h⟩ := bind_ok h
  cases h
  obtain ⟨rfl, -, -⟩ := hybrid1_ok hr
  simp only [List.getElem?_map, hq]
  rfl

/-- `g` is at most, at least `y` unless it is NaN. -/
def LeN (y : ℝ) (g : Nan) : Prop := ∀ v, g = some v → v ≤ y
def GeN (y : ℝ) (g : Nan) : Prop := ∀ v, g = some v → y ≤ v

/-- The values at the limits lie on both sides of the target, unless they are NaN. -/
def SidesB (g : ℝ → Nan) (y : ℝ) (s : HSt) : Prop :=
  if s.swap then GeN y (g s.xmin) ∧ LeN y (g s.xmax) else LeN y (g s.xmin) ∧ GeN y (g s.xmax)

/-- The invariant of the iteration for one element: it has just been evaluated at a limit, or is
untouched, or has been dropped with NaN. -/
structure InvB (g : ℝ → Nan) (y ep : ℝ) (s : HSt) : Prop where
  sides : s.active = true ∨ s.x ≠ none → SidesB g y s
  lim : ∀ x v, s.x = some x → g x = some v →
    (x = s.xmin ∨ x = s.xmax) ∧ (s.active = false →
      ¬ (relGt (s.xmax - s.xmin) x ep ∧ relGt (v - y) y ep))

theorem updateB_inv {g : ℝ → Nan} {y ep : ℝ} {s : HSt} (hs : SidesB g y s) {x : ℝ} {v : Nan × Nan}
    (hv : v.1 = g x) : InvB g y ep (updateB y ep s x v) := by
  unfold SidesB at hs
  rcases v with ⟨v, w⟩
  dsimp only at hv
  subst hv
  cases hg : g x with
  | none =>
    have key : SidesB g y (updateB y ep s x (none, w)) := by
      unfold SidesB updateB
      cases hsw : s.swap <;> simp only [hsw, if_true, if_false, Bool.false_eq_true] at hs ⊢
      · exact ⟨hs.1, by rw [hg]; exact (fun v h => by cases h)⟩
      · exact ⟨by rw [hg]; exact (fun v h => by cases h), hs.2⟩
    refine ⟨fun _ => key, ?_⟩
    intro x' v' hx' hv'
    have : x = x' := by simpa [updateB] using hx'
    subst this
    rw [hg] at hv'; cases hv'
  | some yy =>
    refine ⟨fun _ => ?_, ?_⟩
    · unfold SidesB updateB
      cases hsw : s.swap <;> simp only [hsw, if_true, if_false, Bool.false_eq_true] at hs ⊢
      · by_cases hl : yy ≤ y
        · simp only [hl, if_true]
          exact ⟨by rw [hg]; intro v h; cases h; exact hl, hs.2⟩
        · simp only [hl, if_false]
          exact ⟨hs.1, by rw [hg]; intro v h; cases h; exact le_of_lt (not_le.mp hl)⟩
      · by_cases hl : y < yy
        · simp only [hl, if_true]
          exact ⟨by rw [hg]; intro v h; cases h; exact le_of_lt hl, hs.2⟩
        · simp only [hl, if_false]
          exact ⟨hs.1, by rw [hg]; intro v h; cases h; exact not_lt.mp hl⟩
    · intro x' v' hx' hv'
      have : x = x' := by simpa [updateB] using hx'
      subst this
      rw [hg] at hv'; cases hv'
      refine ⟨?_, ?_⟩
      · by_cases hl : (if s.swap then y < yy else yy ≤ y)
        · exact Or.inl (by simp [updateB, hl])
        · exact Or.inr (by simp [updateB, hl])
      · intro ha hc
        have : (updateB y ep s x (some yy, w)).active = true := by
          unfold updateB at hc ⊢
          dsimp only at hc ⊢
          simp only [Bool.and_eq_true, decide_eq_true_eq]
          exact hc
        rw [ha] at this
        cases this

theorem hstepB_inv {g : ℝ → Nan} {y ep : ℝ} {s : HSt} (hI : InvB g y ep s) {v : Nan × Nan}
    (hv : ∀ x, askB s = some (some x) → v.1 = g x) : InvB g y ep (hstepB y ep s v) := by
  unfold hstepB
  cases ha : askB s with
  | none => exact hI
  | some o =>
    have hact : s.active = true := by
      unfold askB at ha
      by_contra hc
      rw [if_neg hc] at ha; cases ha
    cases o with
    | none =>
      refine ⟨fun h => ?_, fun x v h => nomatch h⟩
      rcases h with h | h
      · cases h
      · exact absurd rfl h
    | some x => exact updateB_inv (hI.sides (Or.inl hact)) (hv x ha)

/-- A batch routine whose value at entry `i` depends only on that entry. -/
def At (F : Batch) (i : Nat) (g : ℝ → Nan) : Prop :=
  ∀ T v, F T = .ok v → ∀ x, T[i]? = some (some (some x)) → (v i).1 = g x

theorem hloopB_inv {F : Batch} {g : ℝ → Nan} {ep : ℝ} (hF : At F i g) :
    ∀ (n : Nat) (l r : List (ℝ × HSt)) {w : Bool}, hloopB F ep n l = .ok (r, w) →
      ∀ {y : ℝ} {s : HSt}, l[i]? = some (y, s) → InvB g y ep s →
        ∃ s', r[i]? = some (y, s') ∧ InvB g y ep s' ∧ (w = false → s'.active = false) := by
  intro n
  induction n with
  | zero =>
    intro l r w h y s hl hI
    unfold hloopB at h
    cases h
    refine ⟨s, hl, hI, fun hw => ?_⟩
    by_contra hc
    have : l.any (·.2.active) = true :=
      List.any_eq_true.mpr ⟨(y, s), List.mem_of_getElem? hl, by simpa using hc⟩
    rw [hw] at this; cases this
  | succ n ih =>
    intro l r w h y s hl hI
    unfold hloopB at h
    by_cases c : l.any (·.2.active) = true
    · rw [if_pos c] at h
      obtain ⟨v, hv, h⟩ := bind_ok h
      refine ih _ _ h (s := hstepB y ep s (v i)) (by rw [List.getElem?_mapIdx, hl]; rfl) (hstepB_inv hI ?_)
      intro x hx
      exact hF _ _ hv x (by rw [List.getElem?_map, hl]; simp [hx])
    · rw [if_neg c] at h
      cases h
      refine ⟨s, hl, hI, fun _ => ?_⟩
      by_contra hc
      exact c (List.any_eq_true.mpr ⟨(y, s), List.mem_of_getElem? hl, by simpa using hc⟩)

theorem hybridB_solves {F : Batch} {g : ℝ → Nan} (hF : At F i g) {ep : ℝ} {n : Nat} {l : List BIn}
    {f : Nat → Nan} (h : hybridB F ep n l = .ok (f, false)) {e : BIn} (he : l[i]? = some e)
    (hs : e.ids = true) {x v : ℝ} (hx : f i = some x) (hg : g x = some v) :
    |v - e.y| ≤ ep * |e.y| ∨ ∃ x', |x' - x| ≤ ep * |x| ∧
      (LeN e.y (g x) ∧ GeN e.y (g x') ∨ GeN e.y (g x) ∧ LeN e.y (g x')) := by
  unfold hybridB at h
  obtain ⟨a, ha, h⟩ := bind_ok h
  obtain ⟨b, hb, h⟩ := bind_ok h
  split at h
  · cases h
  obtain ⟨⟨r, w⟩, hr, h⟩ := bind_ok h
  cases h
  have e1 : ∀ {o : BIn → Nan} {c : Nat → Nan × Nan}, F (l.map (fun e => if e.ids then some (o e) else none)) = .ok c →
      ∀ x, o e = some x → (c i).1 = g x := by
    intro o c hc x hx
    exact hF _ _ hc x (by rw [List.getElem?_map, he]; simp [hs, hx])
  have hI : InvB g e.y ep (hinitB e (a i) (b i)) := by
    unfold hinitB
    split
    · rename_i lo hi hlo hhi
      refine ⟨fun h => ?_, fun x v h => nomatch h⟩
      have hbr : unbracketedB e (a i) (b i) = false := by
        rcases h with h | h
        · simpa [hs] using h
        · exact absurd rfl h
      have h1 := e1 ha lo hlo
      have h2 := e1 hb hi hhi
      unfold unbracketedB at hbr
      rw [decide_eq_false_iff_not] at hbr
      have hbr' := hbr
      rw [h1, h2] at hbr'
      unfold SidesB
      dsimp only
      rw [h1]
      have ge : ∀ {o}, geB e.y o → GeN e.y o := by
        intro o ho v hv; subst hv; exact ho
      have le : ∀ {o}, ¬ geB e.y o → LeN e.y o := by
        intro o ho v hv; subst hv; exact le_of_lt (not_le.mp ho)
      by_cases c : geB e.y (g lo)
      · rw [if_pos (by simpa using c)]
        refine ⟨ge c, le (fun h => hbr' ⟨fun _ => h, fun _ => c⟩)⟩
      · rw [if_neg (by simpa using c)]
        refine ⟨le c, ge ?_⟩
        by_contra h
        exact hbr' ⟨fun h' => absurd h' c, fun h' => absurd h' h⟩
    · exact ⟨fun h => by rcases h with h | h; cases h; exact absurd rfl h, fun x v h => nomatch h⟩
  obtain ⟨s', h1, h2, h3⟩ := hloopB_inv hF _ _ r hr (y := e.y) (s := hinitB e (a i) (b i))
    (by rw [List.getElem?_mapIdx, he]; rfl) hI
  dsimp only at hx
  rw [h1, Option.bind_some] at hx
  dsimp only at hx
  obtain ⟨hlim, hact⟩ := h2.lim x v hx hg
  have hact := hact (h3 rfl)
  by_cases g1 : relGt (v - e.y) e.y ep
  · right
    have g2 := relGt_false (fun g2 => hact ⟨g2, g1⟩)
    have hsd := h2.sides (Or.inr (by rw [hx]; simp))
    unfold SidesB at hsd
    rcases hlim with h | h
    · refine ⟨s'.xmax, by rw [h] at g2 ⊢; exact g2, ?_⟩
      rw [h]; split_ifs at hsd
      · exact Or.inr hsd
      · exact Or.inl hsd
    · refine ⟨s'.xmin, by rw [h] at g2 ⊢; rwa [abs_sub_comm], ?_⟩
      rw [h]; split_ifs at hsd
      · exact Or.inl ⟨hsd.2, hsd.1⟩
      · exact Or.inr ⟨hsd.2, hsd.1⟩
  · exact Or.inl (relGt_false g1)

/-- The value of a property that a call with temperature and pressure would find. -/
noncomputable def atTP (B : Sub) (f : ℝ → ℝ → ℝ) (p : Nan) (T : ℝ) : Nan :=
  (densOf B (some T) p).map (f T)

theorem tpiter_at {D : List (Option (Nan × Nan)) → Except Err (Nat → Nan)}
    (hD : ∀ q f, D q = .ok f → ∃ w, codeD B q = .ok (f, w)) {f : ℝ → ℝ → Q3} {ps : List (Option Nan)} {p : Nan}
    (hp : ps[i]? = some (some p)) : At (tpiter D B f ps) i (atTP B (fun T d => (f T d).v) p) := by
  intro T v hv x hx
  unfold tpiter at hv
  obtain ⟨d, hd, hv⟩ := bind_ok hv
  cases hv
  obtain ⟨w, hw⟩ := hD _ _ hd
  have := codeD_at hw (i := i) (T := some x) (p := p) (by
    rw [List.getElem?_zipWith_eq_some]
    exact ⟨_, _, hx, hp, rfl⟩)
  dsimp only
  rw [this, hx, Option.bind_some, Option.bind_some, id]
  unfold atTP tpSlope
  cases densOf B (some x) p <;> rfl

theorem codeThp_solves {D : List (Option (Nan × Nan)) → Except Err (Nat → Nan)}
    (hD : ∀ q f, D q = .ok f → ∃ w, codeD B q = .ok (f, w)) {j : Mp.Inv} {q : List (Option (ℝ × Nan × Nan))}
    {f : Nat → Nan} (h : codeThp D B j q = .ok (f, false)) {y T v : ℝ} {p Ts : Nan}
    (hq : q[i]? = some (some (y, p, Ts))) (hT : f i = some T) (hv : atTP B (B.inv j) p T = some v) :
    |v - y| ≤ 1e-6 * |y| ∨ ∃ T', |T' - T| ≤ 1e-6 * |T| ∧
      (v ≤ y ∧ GeN y (atTP B (B.inv j) p T') ∨ y ≤ v ∧ LeN y (atTP B (B.inv j) p T')) := by
  unfold codeThp at h
  have hj : (fun T d => (B.invQ j T d).v) = B.inv j := by funext T d; cases j <;> rfl
  have hA := tpiter_at hD (f := B.invQ j) (ps := q.map (Option.map (fun e => e.2.1))) (i := i) (p := p)
    (by rw [List.getElem?_map, hq]; rfl)
  rw [hj] at hA
  have := hybridB_solves hA h (e := thpIn B j (some (y, p, Ts))) (by rw [List.getElem?_map, hq]; rfl) rfl hT hv
  rcases this with h | ⟨x', h1, ⟨h2, h3⟩ | ⟨h2, h3⟩⟩
  · exact Or.inl h
  · exact Or.inr ⟨x', h1, Or.inl ⟨h2 _ hv, h3⟩⟩
  · exact Or.inr ⟨x', h1, Or.inr ⟨h2 _ hv, h3⟩⟩

/-! ## Elements -/

theorem quiet_bounded {Tmin : ℝ} (h : GoodSub B Tmin) : Bounded (quietSol B) B Tmin := by
  have h1 : B.Tt * 0.99 ≤ B.Tmid := by
    unfold Sub.Tmid; linarith [h.pos, h.order]
  have h2 : B.Tmid ≤ B.Tc := by unfold Sub.Tmid; linarith [h.order]
  have := code_bounded h1 h2 h.range h.min1 h.min2
  exact ⟨fun q f hq => this.Ts q f ((quiet_below B).Ts q f hq), fun i q f hq => this.Thd i q f ((quiet_below B).Thd i q f hq)⟩

theorem askTs_bounded {Tmin : ℝ} (h : GoodSub B Tmin) {sel : Nan → Bool} {l : List Nan} {Ts : Nat → Nan}
    (ha : askTs (quietSol B) sel l = .ok Ts) {n : Nat} {t : ℝ} (ht : Ts n = some t) :
    B.Tt * 0.99 ≤ t ∧ t ≤ B.Tc := by
  unfold askTs at ha
  split at ha
  · have h1 : B.Tt * 0.99 ≤ B.Tmid := by
      unfold Sub.Tmid; linarith [h.pos, h.order]
    have h2 : B.Tmid ≤ B.Tc := by unfold Sub.Tmid; linarith [h.order]
    exact (codeTs_spec h1 h2 (noWarning_ok ha)).1 n t ht
  · cases ha; cases ht

variable {k : MStd} {q : Pt}

theorem pick_one {o : Option Nan} {f : Nan → Pt} {g : Pt} (hf : ∀ x, (f x).I = true)
    (h : (pick o f g).I = false) : o = none := by
  cases o with
  | none => rfl
  | some x => have := hf x; unfold pick at h; rw [this] at h; cases h

theorem origin_p (ho : Origin B (quietSol B) k i q) {pa : NArg} (hpa : k.p = some pa) {P : ℝ}
    (hP : Elem pa.xs i (some P)) (hd : k.d = none) (hI : q.I = false) {T D : ℝ} (hT : q.T = some T)
    (hD : q.d1 = some D) : Solves 1e-6 (fun D => (B.F.p T D).v) P D := by
  cases ho with
  | hp _ h1 _ h2 _ _ _ _ h3 h4 =>
    have hs := pick_one (fun _ => rfl) hI
    rw [hs] at hT hD
    rw [h1] at hpa; cases hpa
    cases elem_unique h2 hP
    have h5 := h4 hs
    have hT' := hT
    dsimp only [pick, onePt] at hT' hD
    rw [hT'] at h5
    exact codeD_solves (noWarning_ok h3) h5 hD
  | hd _ h => rw [h] at hpa; cases hpa
  | hT _ h => rw [h] at hpa; cases hpa
  | Td _ _ h => rw [h] at hpa; cases hpa
  | Tx _ _ h => rw [h] at hpa; cases hpa
  | pd _ _ _ h => rw [h] at hd; cases hd
  | px => cases hI
  | Tpx _ h0 h1 _ h2 h3 h4 h5 =>
    rw [h1] at hpa; cases hpa
    cases elem_unique h3 hP
    unfold ptTPX at hI hT hD
    split at hI
    · rename_i c; rw [if_pos c] at hT; cases hT
    · rename_i c
      rw [if_neg c] at hT hD
      split at hI
      · rename_i c'
        rw [if_pos c'] at hT hD
        dsimp only at hT hD
        have h6 := h5 c'
        rw [hT] at h6
        exact codeD_solves (noWarning_ok h4) h6 hD
      · cases hI

theorem origin_pd {Tmin : ℝ} (hB : GoodSub B Tmin) (ho : Origin B (quietSol B) k i q) (hi : k.inv = none)
    (hT0 : k.T = none) {pa : NArg} (hpa : k.p = some pa)
    {P : ℝ} (hP : Elem pa.xs i (some P)) {da : Arg} (hd : k.d = some da) (hI : q.I = false) {T D : ℝ}
    (hT : q.T = some T) (hD : q.d1 = some D) :
    Solves 1e-6 (fun T => valueAt B (fun T D => (B.F.p T D).v) T D) P T := by
  cases ho with
  | pd _ _ h1 _ h2 _ _ h3 h4 h5 =>
    have hs := pick_one (fun _ => rfl) hI
    rw [hs] at hT hD
    rw [h1] at hpa; cases hpa
    cases elem_unique h2 hP
    dsimp only [pick, onePt] at hT hD
    cases hD
    have hm1 := hB.min1
    obtain ⟨P', hP', h⟩ := codeTdp_solves (noWarning_ok h4) (h5 hs) hT (a := Tmin)
      (b := max B.Thi (1.01 * B.Tc)) hB.min2 hB.range (le_max_left _ _) (by
        intro t ht
        obtain ⟨b1, b2⟩ := askTs_bounded hB h3 ht
        have := hB.pos
        refine ⟨by linarith, by linarith, le_max_of_le_right (by linarith)⟩)
    cases hP'
    refine h.solves (fun z hz _ => ?_)
    exact tditer_value B B.F.p (fun hc => hB.dome.vapor z hz hc.le) (fun hc => hB.dome.liquid z hz hc)
  | hp h => rw [h] at hi; cases hi
  | hd h => rw [h] at hi; cases hi
  | hT h => rw [h] at hi; cases hi
  | Td _ h => rw [h] at hT0; cases hT0
  | Tx _ h => rw [h] at hT0; cases hT0
  | Tpx _ h => rw [h] at hT0; cases hT0
  | px _ _ _ h => rw [h] at hd; cases hd

theorem origin_hd {Tmin : ℝ} (hB : GoodSub B Tmin) (ho : Origin B (quietSol B) k i q) {j : Mp.Inv} {a : Arg}
    (hi : k.inv = some (j, a)) (hp : k.p = none) {y : ℝ} (hy : Elem a.xs i y) {da : Arg} (hd : k.d = some da)
    {T D : ℝ} (hT : q.T = some T) (hD : q.density = some D) :
    Solves 1e-6 (fun T => valueAt B (B.inv j) T D) y T := by
  have hj : (fun T d => (B.invQ j T d).v) = B.inv j := by funext T d; cases j <;> rfl
  cases ho with
  | hd h1 _ h2 h3 h4 h5 h6 =>
    rename_i j' _ _ _ D' T' _ _
    rw [h1] at hi; cases hi
    cases elem_unique h3 hy
    have hT' : T' i = some T := by
      cases hs : satTD B (satDens B) (T' i) D' with
      | none => rw [hs] at hT; exact hT
      | some x => rw [hs] at hT; exact hT
    have hS := codeThd_solves (noWarning_ok h5) h6 hT' hB.range
    have hD' : D = D' := by
      cases hs : satTD B (satDens B) (T' i) D' with
      | none => rw [hs] at hD; exact (Option.some.inj hD).symm
      | some x =>
        rw [hs] at hD
        rw [hT'] at hs hD
        unfold satTD satDens at hs
        rw [Option.bind_some] at hs
        split at hs
        · rename_i hc
          split at hs
          · rename_i hb
            have hm : Tmin ≤ T := le_trans hB.min2 hS.1
            have := satPt_density (B := B) (hB.dome.vapor T hm hc.le) (hB.dome.liquid T hm hc) hb.1
              (Option.some.inj hs).symm
            dsimp only [pick] at hD
            rw [hD] at this
            rcases this with h | h
            · exact Option.some.inj h
            · cases h
          · cases hs
        · cases hs
    subst hD'
    refine hS.solves (fun z hz _ => ?_)
    have hm := le_trans hB.min2 hz
    rw [tditer_value B (B.invQ j) (fun hc => hB.dome.vapor z hm hc.le) (fun hc => hB.dome.liquid z hm hc), hj]
  | hp _ h => rw [h] at hp; cases hp
  | hT _ _ h => rw [h] at hd; cases hd
  | pd h => rw [h] at hi; cases hi
  | Td h => rw [h] at hi; cases hi
  | Tx h => rw [h] at hi; cases hi
  | Tpx h => rw [h] at hi; cases hi
  | px h => rw [h] at hi; cases hi

theorem origin_hT (ho : Origin B (quietSol B) k i q) {j : Mp.Inv} {a : Arg}
    (hi : k.inv = some (j, a)) (hp : k.p = none) {y : ℝ} (hy : Elem a.xs i y) (hd : k.d = none) (hI : q.I = false)
    {T D : ℝ} (hT : q.T = some T) (hD : q.d1 = some D) : Solves 1e-6 (fun D => B.inv j T D) y D := by
  cases ho with
  | hT h1 _ _ _ _ h2 _ h3 h4 =>
    have hs := pick_one (fun _ => rfl) hI
    rw [hs] at hT hD
    rw [h1] at hi; cases hi
    cases elem_unique h2 hy
    have h5 := h4 hs
    dsimp only [pick, onePt] at hT hD
    rw [hT] at h5
    exact codeDhT_solves (noWarning_ok h3) h5 hD
  | hp _ h => rw [h] at hp; cases hp
  | hd _ _ h => rw [h] at hd; cases hd
  | pd h => rw [h] at hi; cases hi
  | Td h => rw [h] at hi; cases hi
  | Tx h => rw [h] at hi; cases hi
  | Tpx h => rw [h] at hi; cases hi
  | px h => rw [h] at hi; cases hi

theorem origin_hp (ho : Origin B (quietSol B) k i q) {j : Mp.Inv} {a : Arg}
    (hi : k.inv = some (j, a)) {pa : NArg} (hpa : k.p = some pa) {y : ℝ} (hy : Elem a.xs i y) {P : Nan}
    (hP : Elem pa.xs i P) (hI : q.I = false) {T D : ℝ} (hT : q.T = some T) (hD : q.d1 = some D) :
    densOf B (some T) P = some D ∧ (|B.inv j T D - y| ≤ 1e-6 * |y| ∨ ∃ T', |T' - T| ≤ 1e-6 * |T| ∧
      (B.inv j T D ≤ y ∧ GeN y (atTP B (B.inv j) P T') ∨ y ≤ B.inv j T D ∧ LeN y (atTP B (B.inv j) P T'))) := by
  cases ho with
  | hp h1 h2 h3 h4 _ _ h5 h6 h7 h8 =>
    have hs := pick_one (fun _ => rfl) hI
    rw [hs] at hT hD
    rw [h1] at hi; cases hi
    rw [h2] at hpa; cases hpa
    cases elem_unique h3 hy
    cases elem_unique h4 hP
    dsimp only [pick, onePt] at hT hD
    have h9 := h8 hs
    rw [hT] at h9
    have hd := codeD_at (noWarning_ok h7) h9
    rw [hD] at hd
    refine ⟨hd.symm, ?_⟩
    exact codeThp_solves (fun q f h => ⟨false, noWarning_ok h⟩) (noWarning_ok h5) (h6 hs) hT
      (by unfold atTP; rw [← hd]; rfl)
  | hd _ h => rw [h] at hpa; cases hpa
  | hT _ h => rw [h] at hpa; cases hpa
  | pd h => rw [h] at hi; cases hi
  | Td h => rw [h] at hi; cases hi
  | Tx h => rw [h] at hi; cases hi
  | Tpx h => rw [h] at hi; cases hi
  | px h => rw [h] at hi; cases hi

end

/-! ## User level -/

section
variable {E : Env} {U : Sys} {B : Sub} {Tmin : ℝ} {varg : List (Val ℝ)} {kw : Kw} {i : Nat}

/-- The element behind the numbers a call returned. -/
theorem state_of (hU : Uses E U) (hB : GoodSub B Tmin) {S : Sol} (hS : Bounded S B Tmin) (hkw : (kw.map (·.1)).Nodup) {T D : ℝ}
    (hT : MpGives E B S varg kw .T i T) (hD : MpGives E B S varg kw .d i D) :
    ∃ q kw' k, (kw'.map (·.1)).Nodup ∧ (∀ q, q ∈ supplied varg kw → q ∈ kw') ∧
      (∀ q, q ∈ kw' → q ∈ supplied varg kw ∨ q.1 = "T" ∨ q.1 = "p") ∧
      (2 ≤ (supplied varg kw).length → ∀ q, q ∈ kw' → q ∈ supplied varg kw) ∧
      RulesOk (kw'.map (·.1)) ∧ Parsed E U B kw' k ∧ Origin B S k i q ∧
      q.T = some (si E U B .T T) ∧ q.density = some (si E U B .d D) ∧
      (∀ x, MpGives E B S varg kw .x i x → x < 0 → q.I = false ∧ q.d1 = some (si E U B .d D)) ∧
      (∀ m z, m ≠ .cv → MpGives E B S varg kw m i z → ptValue E U B m q = some z) := by
  have hmw := hB.dome.mw.ne'
  obtain ⟨r, q, hr, hq⟩ := gives_pt hU hmw (m := .T) (by simp) hT
  have g := fun m z hm => (gives_iff hU hmw hr (m := m) hm hq z).mp
  obtain ⟨kw', k, hn', hsub, h2, hall, hrules, hpar, ho⟩ := argparse_origin hU hmw hkw hr hq
  have hg := argparse_good hB.dome hS hU hB.min2 hr q (List.mem_of_getElem? hq)
  have hT' := g .T T (by simp) hT
  have hD' := g .d D (by simp) hD
  obtain ⟨t, ht, rfl⟩ := Option.map_eq_some_iff.mp hT'
  obtain ⟨d, hd, rfl⟩ := Option.map_eq_some_iff.mp hD'
  have e1 : si E U B .T (inUnitsKg E.a U B.mw .temperature t) = t := internalKg_inUnitsKg hU hmw _ _
  have e2 : si E U B .d (inUnitsKg E.a U B.mw .density d) = d := internalKg_inUnitsKg hU hmw _ _
  rw [e1, e2]
  refine ⟨q, kw', k, hn', hsub, hall, h2, hrules, hpar, ho, ht, hd, ?_, g⟩
  intro x hx h0
  have hx' := g .x x (by simp) hx
  have hI : q.I = false := by
    cases hI : q.I with
    | false => rfl
    | true => exact absurd ((hg.sat hI).2.2.1 x hx').1 (not_le.mpr h0)
  refine ⟨hI, ?_⟩
  unfold Pt.density at hd
  rwa [hI, if_neg (by simp)] at hd

theorem quiet_state (hU : Uses E U) (hB : GoodSub B Tmin) (hkw : (kw.map (·.1)).Nodup) {T D : ℝ}
    (hT : MpGives E B (quietSol B) varg kw .T i T) (hD : MpGives E B (quietSol B) varg kw .d i D) :
    ∃ q kw' k, (kw'.map (·.1)).Nodup ∧ (∀ q, q ∈ supplied varg kw → q ∈ kw') ∧
      (∀ q, q ∈ kw' → q ∈ supplied varg kw ∨ q.1 = "T" ∨ q.1 = "p") ∧
      (2 ≤ (supplied varg kw).length → ∀ q, q ∈ kw' → q ∈ supplied varg kw) ∧
      RulesOk (kw'.map (·.1)) ∧ Parsed E U B kw' k ∧ Origin B (quietSol B) k i q ∧
      q.T = some (si E U B .T T) ∧ q.density = some (si E U B .d D) ∧
      (∀ x, MpGives E B (quietSol B) varg kw .x i x → x < 0 → q.I = false ∧ q.d1 = some (si E U B .d D)) ∧
      (∀ m z, m ≠ .cv → MpGives E B (quietSol B) varg kw m i z → ptValue E U B m q = some z) :=
  state_of hU hB (quiet_bounded hB) hkw hT hD

theorem no_d (hpar : Parsed E U B kw k) (h : ∀ q, q ∈ kw → q.1 ≠ "d" ∧ q.1 ≠ "v") : k.d = none := by
  cases hk : k.d with
  | none => rfl
  | some a =>
    obtain ⟨n, hn, hdv⟩ := name_d hpar hk
    obtain ⟨w, hw, rfl⟩ := List.mem_map.mp hn
    rcases hdv with hdv | hdv
    exacts [absurd hdv (h w hw).1, absurd hdv (h w hw).2]

theorem no_T (hpar : Parsed E U B kw k) (h : ∀ q, q ∈ kw → q.1 ≠ "T") : k.T = none := by
  cases hk : k.T with
  | none => rfl
  | some a =>
    obtain ⟨w, hw, hn⟩ := List.mem_map.mp (name_T hpar hk)
    exact absurd hn (h w hw)

theorem some_d (hpar : Parsed E U B kw k) {w : Val ℝ} (h : ("d", w) ∈ kw ∨ ("v", w) ∈ kw) :
    (∃ a, k.d = some a) ∧ ∃ n, n ∈ kw.map (·.1) ∧ (n = "d" ∨ n = "v") := by
  have hm : ∃ n, n ∈ kw.map (·.1) ∧ (n = "d" ∨ n = "v") := by
    rcases h with h | h
    · exact ⟨"d", List.mem_map_of_mem (f := (·.1)) h, Or.inl rfl⟩
    · exact ⟨"v", List.mem_map_of_mem (f := (·.1)) h, Or.inr rfl⟩
  refine ⟨?_, hm⟩
  obtain ⟨n, hn, hdv⟩ := hm
  have hs := (has_iff kw n).mpr hn
  rw [← argKg_isSome E U B.mw] at hs
  obtain ⟨a, ha⟩ := Option.isSome_iff_exists.mp hs
  rw [hpar.d]
  unfold mpDensity
  cases hv : argKg E U B.mw kw "v" with
  | some _ => exact ⟨_, rfl⟩
  | none =>
    rcases hdv with rfl | rfl
    · exact ⟨a, ha⟩
    · rw [hv] at ha; cases ha

theorem none_of {α : Type} {o : Option α} (h : ∀ a, o ≠ some a) : o = none := by
  cases o with
  | none => rfl
  | some a => exact absurd rfl (h a)

/-- C70, pressure given, one phase.  In any valid unit system, if a call that is given a pressure within
the limits prints no warning and returns a state that is not saturated, then that state solves for the
pressure given to the relative tolerance 10⁻⁶: by its density at its temperature, or, if density or
specific volume was given too, by its temperature at that density. -/
theorem C70_pressure (E : Env) (U : Sys) (hU : Uses E U) (B : Sub) (Tmin : ℝ) (hB : GoodSub B Tmin)
    (varg : List (Val ℝ)) (kw : Kw) (hkw : (kw.map (·.1)).Nodup) (v : Val ℝ)
    (hv : ("p", v) ∈ supplied varg kw) (i : Nat) (P : ℝ) (hP : Elem (Val.elems v) i P)
    (h1 : B.plo ≤ si E U B .p P) (h2 : si E U B .p P ≤ B.phi) (T D x : ℝ)
    (hT : MpGives E B (quietSol B) varg kw .T i T) (hD : MpGives E B (quietSol B) varg kw .d i D)
    (hx : MpGives E B (quietSol B) varg kw .x i x) (h0 : x < 0) :
    ((∀ w, ("d", w) ∉ supplied varg kw ∧ ("v", w) ∉ supplied varg kw) →
      Solves 1e-6 (fun D' => (B.F.p (si E U B .T T) D').v) (si E U B .p P) (si E U B .d D)) ∧
    ((∃ w, ("d", w) ∈ supplied varg kw ∨ ("v", w) ∈ supplied varg kw) →
      Solves 1e-6 (fun T' => valueAt B (fun T D => (B.F.p T D).v) T' (si E U B .d D)) (si E U B .p P)
        (si E U B .T T)) := by
  obtain ⟨q, kw', k, hn', hsub, hall, -, hrules, hpar, ho, qT, -, qD, -⟩ := quiet_state hU hB hkw hT hD
  obtain ⟨hI, hd1⟩ := qD x hx h0
  obtain ⟨pa, hpa, hel⟩ := given_p hpar hn' (hsub _ hv) hP
  have hc : clip B.plo B.phi (internalKg E.a U B.mw .pressure P) = some (si E U B .p P) :=
    clip_of_mem h1 h2
  rw [hc] at hel
  constructor
  · intro hno
    refine origin_p ho hpa hel (no_d hpar ?_) hI qT hd1
    rintro ⟨n, w⟩ hw
    rcases hall _ hw with h | h | h
    · refine ⟨?_, ?_⟩ <;> rintro rfl
      exacts [(hno w).1 h, (hno w).2 h]
    · dsimp only at h ⊢; rw [h]; decide
    · dsimp only at h ⊢; rw [h]; decide
  · rintro ⟨w, hw⟩
    obtain ⟨⟨da, hda⟩, n, hn, hdv⟩ := some_d hpar (hw.imp (hsub _) (hsub _))
    have hd := dv_ne hdv
    have np := name_p hpar hpa
    refine origin_pd hB ho (none_of ?_) (none_of ?_) hpa hel hda hI qT hd1
    · rintro ⟨j, a⟩ hj
      refine rules_three hrules hn (name_inv hpar hj) np ?_ hd.2.2.1 (inv_name_ne j).2.2.1 hd.1
      rcases hdv with rfl | rfl
      exacts [(inv_name_ne j).2.2.2.2.1.symm, (inv_name_ne j).2.2.2.2.2.symm]
    · intro a ha
      exact rules_three hrules hn (name_T hpar ha) np hd.2.1 hd.2.2.1 (by decide) hd.1

/-- C70, energy, enthalpy or entropy given with density or specific volume.  If the call prints no
warning, the state returned, in one phase or two, solves for the property given by its temperature at
that density. -/
theorem C70_with_density (E : Env) (U : Sys) (hU : Uses E U) (B : Sub) (Tmin : ℝ) (hB : GoodSub B Tmin)
    (varg : List (Val ℝ)) (kw : Kw) (hkw : (kw.map (·.1)).Nodup) (j : Mp.Inv) (v w : Val ℝ)
    (hv : (j.name, v) ∈ supplied varg kw) (hw : ("d", w) ∈ supplied varg kw ∨ ("v", w) ∈ supplied varg kw)
    (i : Nat) (y : ℝ) (hy : Elem (Val.elems v) i y) (T D : ℝ)
    (hT : MpGives E B (quietSol B) varg kw .T i T) (hD : MpGives E B (quietSol B) varg kw .d i D) :
    Solves 1e-6 (fun T' => valueAt B (B.inv j) T' (si E U B .d D)) (si E U B j.quantity y) (si E U B .T T) := by
  obtain ⟨q, kw', k, hn', hsub, hall, -, hrules, hpar, ho, qT, qd, -, -⟩ := quiet_state hU hB hkw hT hD
  obtain ⟨a, ha, hel⟩ := given_inv hpar hn' hrules (hsub _ hv) hy
  obtain ⟨⟨da, hda⟩, n, hn, hdv⟩ := some_d hpar (hw.imp (hsub _) (hsub _))
  have hd := dv_ne hdv
  have e : si E U B j.quantity y = internalKg E.a U B.mw (kindOf j.name) y := by cases j <;> rfl
  rw [e]
  refine origin_hd hB ho ha (none_of ?_) hel hda qT qd
  intro pa hpa
  refine rules_three hrules hn (name_inv hpar ha) (name_p hpar hpa) ?_ hd.2.2.1 (inv_name_ne j).2.2.1 hd.1
  rcases hdv with rfl | rfl
  exacts [(inv_name_ne j).2.2.2.2.1.symm, (inv_name_ne j).2.2.2.2.2.symm]

/-- C70, energy, enthalpy or entropy given with temperature, one phase.  If the call prints no warning,
the state returned solves for the property given by its density at that temperature. -/
theorem C70_with_temperature (E : Env) (U : Sys) (hU : Uses E U) (B : Sub) (Tmin : ℝ) (hB : GoodSub B Tmin)
    (varg : List (Val ℝ)) (kw : Kw) (hkw : (kw.map (·.1)).Nodup) (j : Mp.Inv) (v w : Val ℝ)
    (hv : (j.name, v) ∈ supplied varg kw) (hw : ("T", w) ∈ supplied varg kw)
    (i : Nat) (y : ℝ) (hy : Elem (Val.elems v) i y) (T D x : ℝ)
    (hT : MpGives E B (quietSol B) varg kw .T i T) (hD : MpGives E B (quietSol B) varg kw .d i D)
    (hx : MpGives E B (quietSol B) varg kw .x i x) (h0 : x < 0) :
    Solves 1e-6 (fun D' => B.inv j (si E U B .T T) D') (si E U B j.quantity y) (si E U B .d D) := by
  obtain ⟨q, kw', k, hn', hsub, hall, -, hrules, hpar, ho, qT, -, qD, -⟩ := quiet_state hU hB hkw hT hD
  obtain ⟨hI, hd1⟩ := qD x hx h0
  obtain ⟨a, ha, hel⟩ := given_inv hpar hn' hrules (hsub _ hv) hy
  have nT : "T" ∈ kw'.map (·.1) := List.mem_map_of_mem (f := (·.1)) (hsub _ hw)
  have hj := inv_name_ne j
  have e : si E U B j.quantity y = internalKg E.a U B.mw (kindOf j.name) y := by cases j <;> rfl
  rw [e]
  refine origin_hT ho ha (none_of ?_) hel (none_of ?_) hI qT hd1
  · intro pa hpa
    exact rules_three hrules (name_inv hpar ha) nT (name_p hpar hpa) hj.2.1 hj.2.2.1 (by decide) hj.1
  · intro da hda
    obtain ⟨n, hn, hdv⟩ := name_d hpar hda
    refine rules_three hrules (name_inv hpar ha) nT hn hj.2.1 ?_ (dv_ne hdv).2.1.symm hj.1
    rcases hdv with rfl | rfl
    exacts [hj.2.2.2.2.1, hj.2.2.2.2.2]

/-- The value a call with temperature and pressure returns. -/
theorem call_TP (hU : Uses E U) (hmw : B.mw ≠ 0) {t P z : ℝ} (j : Mp.Inv)
    (hz : MpGives E B (codeSol B) [] [("T", .scalar t), ("p", .scalar P)] j.quantity 0 z)
    (h1 : B.plo ≤ si E U B .p P) (h2 : si E U B .p P ≤ B.phi) :
    atTP B (B.inv j) (some (si E U B .p P)) (si E U B .T t) = some (si E U B j.quantity z) := by
  have hm : j.quantity ≠ .cv := by cases j <;> simp [Inv.quantity]
  obtain ⟨r, q, hr, hq⟩ := gives_pt hU hmw hm hz
  have hv := (gives_iff hU hmw hr hm hq z).mp hz
  obtain ⟨kw', k, hn', hsub, h2', -, hrules, hpar, ho⟩ := argparse_origin hU hmw (by simp) hr hq
  have h2' := h2' (by simp [supplied])
  have hmem : ∀ n, n ∈ kw'.map (·.1) → n = "T" ∨ n = "p" := by
    intro n hn
    obtain ⟨w, hw, rfl⟩ := List.mem_map.mp hn
    have := h2' w hw
    simp [supplied] at this
    rcases this with rfl | rfl
    exacts [Or.inl rfl, Or.inr rfl]
  have ninv : ∀ a, k.inv ≠ some a := by
    rintro ⟨j, a⟩ hj
    have := inv_name_ne j
    rcases hmem _ (name_inv hpar hj) with h | h
    exacts [this.2.1 h, this.2.2.1 h]
  have nx : ∀ a, k.x ≠ some a := by
    intro a ha
    rcases hmem _ (name_x hpar ha) with h | h <;> revert h <;> decide
  obtain ⟨ta, hta, et⟩ := given_T hpar hn' (hsub ("T", .scalar t) (by simp [supplied])) (y := t) (i := 0) (Or.inl rfl)
  obtain ⟨pa, hpa, ep⟩ := given_p hpar hn' (hsub ("p", .scalar P) (by simp [supplied])) (y := P) (i := 0) (Or.inl rfl)
  have hc : clip B.plo B.phi (internalKg E.a U B.mw .pressure P) = some (si E U B .p P) :=
    clip_of_mem h1 h2
  rw [hc] at ep
  cases ho with
  | hp h => exact absurd h (ninv _)
  | hd h => exact absurd h (ninv _)
  | hT h => exact absurd h (ninv _)
  | Td _ _ h => rw [h] at hpa; cases hpa
  | Tx _ _ h => rw [h] at hpa; cases hpa
  | pd _ h => rw [h] at hta; cases hta
  | px _ h => rw [h] at hta; cases hta
  | Tpx gi g1 g2 g3 g4 g5 g6 g7 =>
    rw [g1] at hta; cases hta
    rw [g2] at hpa; cases hpa
    rcases g3 with ⟨-, rfl⟩ | ⟨xa, g3, -⟩
    swap
    · exact absurd g3 (nx _)
    rename_i d l
    cases elem_unique g4 et
    cases elem_unique g5 ep
    have g8 := g7 (by norm_num)
    have hb : ∀ T, badTX B T (-1) = false := by
      intro T; cases T <;> simp [badTX]
    unfold ptTPX at hv
    rw [hb, if_neg (by simp), if_pos (by norm_num)] at hv
    have hg : (codeD B l).map (·.1) = .ok d := g6
    have hd : d 0 = densOf B (clip B.Tlo B.Thi (toKelvin U.T.name t)) (some (si E U B .p P)) := by
      cases hcd : codeD B l with
      | error e => rw [hcd] at hg; cases hg
      | ok r =>
        rw [hcd] at hg
        cases hg
        exact codeD_at (f := r.1) (w := r.2) hcd g8
    have hclip : clip B.Tlo B.Thi (toKelvin U.T.name t) = some (si E U B .T t) := by
      cases hcl : clip B.Tlo B.Thi (toKelvin U.T.name t) with
      | some T' => rw [(clip_some hcl).1]; rfl
      | none =>
        rw [hcl] at hv
        cases j <;> simp [ptValue, Inv.quantity, Pt.mix, Pt.at, nan2] at hv
    rw [hclip] at hd hv
    unfold atTP
    rw [← hd]
    cases hdd : d 0 with
    | none =>
      rw [hdd] at hv
      cases j <;> simp [ptValue, Inv.quantity, Pt.mix, Pt.at, nan2] at hv
    | some D =>
      rw [hdd] at hv
      have key : ∀ (K : Kind) (w : ℝ), internalKg E.a U B.mw K (inUnitsKg E.a U B.mw K w) = w :=
        fun K w => internalKg_inUnitsKg hU hmw _ _
      cases j <;> simp [ptValue, Inv.quantity, Pt.mix, Pt.at, nan2] at hv <;> subst hv <;>
        simp [si, Inv.quantity, MQuantity.kind, key, Sub.inv]

/-- C70, energy, enthalpy or entropy given with pressure, one phase.  If the call prints no warning, then
the property returned is the one given to the relative tolerance 10⁻⁶, or there is a temperature within
that tolerance of the one returned such that a call with it and the pressure does not return a number on
the same side of the property given. -/
theorem C70_with_pressure_partial (E : Env) (U : Sys) (hU : Uses E U) (B : Sub) (Tmin : ℝ) (hB : GoodSub B Tmin)
    (varg : List (Val ℝ)) (kw : Kw) (hkw : (kw.map (·.1)).Nodup) (j : Mp.Inv) (v w : Val ℝ)
    (hv : (j.name, v) ∈ supplied varg kw) (hw : ("p", w) ∈ supplied varg kw)
    (i : Nat) (y P : ℝ) (hy : Elem (Val.elems v) i y) (hP : Elem (Val.elems w) i P)
    (h1 : B.plo ≤ si E U B .p P) (h2 : si E U B .p P ≤ B.phi) (T D x z : ℝ)
    (hT : MpGives E B (quietSol B) varg kw .T i T) (hD : MpGives E B (quietSol B) varg kw .d i D)
    (hx : MpGives E B (quietSol B) varg kw .x i x) (h0 : x < 0)
    (hz : MpGives E B (quietSol B) varg kw j.quantity i z) :
    |si E U B j.quantity z - si E U B j.quantity y| ≤ 1e-6 * |si E U B j.quantity y| ∨
    ∃ t, |si E U B .T t - si E U B .T T| ≤ 1e-6 * |si E U B .T T| ∧
      ∀ z', MpGives E B (codeSol B) [] [("T", .scalar t), ("p", .scalar P)] j.quantity 0 z' →
        (si E U B j.quantity z ≤ si E U B j.quantity y ∧ si E U B j.quantity y ≤ si E U B j.quantity z' ∨
          si E U B j.quantity z' ≤ si E U B j.quantity y ∧ si E U B j.quantity y ≤ si E U B j.quantity z) := by
  have hmw := hB.dome.mw.ne'
  obtain ⟨q, kw', k, hn', hsub, hall, -, hrules, hpar, ho, qT, -, qD, qm⟩ := quiet_state hU hB hkw hT hD
  obtain ⟨hI, hd1⟩ := qD x hx h0
  obtain ⟨a, ha, hel⟩ := given_inv hpar hn' hrules (hsub _ hv) hy
  obtain ⟨pa, hpa, hep⟩ := given_p hpar hn' (hsub _ hw) hP
  have hc : clip B.plo B.phi (internalKg E.a U B.mw .pressure P) = some (si E U B .p P) :=
    clip_of_mem h1 h2
  rw [hc] at hep
  have e : si E U B j.quantity y = internalKg E.a U B.mw (kindOf j.name) y := by cases j <;> rfl
  have hm : j.quantity ≠ .cv := by cases j <;> simp [Inv.quantity]
  have hz' := qm _ _ hm hz
  have key : ∀ (K : Kind) (w : ℝ), internalKg E.a U B.mw K (inUnitsKg E.a U B.mw K w) = w :=
    fun K w => internalKg_inUnitsKg hU hmw _ _
  have ez : si E U B j.quantity z = B.inv j (si E U B .T T) (si E U B .d D) := by
    cases j <;> simp [ptValue, Inv.quantity, Pt.mix, Pt.at, nan2, hI, qT, hd1] at hz' <;> subst hz' <;>
      simp [si, Inv.quantity, MQuantity.kind, key, Sub.inv]
  rw [← e] at hel
  obtain ⟨-, h⟩ := origin_hp ho ha hpa hel hep hI qT hd1
  rw [ez]
  rcases h with h | ⟨T', h3, h⟩
  · exact Or.inl h
  right
  have eT : si E U B .T (inUnitsKg E.a U B.mw .temperature T') = T' := key _ _
  refine ⟨inUnitsKg E.a U B.mw .temperature T', by rw [eT]; exact h3, ?_⟩
  intro z' hz'
  have := call_TP hU hmw j hz' h1 h2
  rw [eT] at this
  rcases h with ⟨h, h'⟩ | ⟨h, h'⟩
  · exact Or.inl ⟨h, h' _ this⟩
  · exact Or.inr ⟨h' _ this, h⟩

theorem askTs_solves (h : GoodSub B Tmin) {sel : Nan → Bool} {l : List Nan} {Ts : Nat → Nan}
    (ha : askTs (quietSol B) sel l = .ok Ts) {P T : ℝ} (hl : l[i]? = some (some P)) (hs : sel (some P) = true)
    (p1 : B.pt ≤ P) (p2 : P ≤ B.pc) (hT : Ts i = some T) :
    ∃ t, B.Tt * 0.99 ≤ t ∧ t ≤ B.Tc ∧ |P - B.ps t| ≤ 1e-6 * |P| ∧ B.psT t ≠ 0 ∧
      |T - t| ≤ |(P - B.ps t) / B.psT t| := by
  have h1 : B.Tt * 0.99 ≤ B.Tmid := by
    unfold Sub.Tmid; linarith [h.pos, h.order]
  have h2 : B.Tmid ≤ B.Tc := by unfold Sub.Tmid; linarith [h.order]
  unfold askTs at ha
  rw [if_pos (List.any_eq_true.mpr ⟨_, List.mem_of_getElem? hl, hs⟩)] at ha
  have := (codeTs_spec h1 h2 (noWarning_ok ha)).2.1 i P (by rw [List.getElem?_map, hl]; simp [hs]) p1 p2 rfl T hT
  rwa [abs_mul, abs_of_pos (by norm_num : (0:ℝ) < 1e-6)] at this

/-- C70, pressure given, two phases.  If a call that is given a pressure between triple and critical, and
no temperature, prints no warning and returns a saturated state, then its temperature is one Newton step
or less from a temperature at which the saturation pressure is the one given to the relative tolerance
10⁻⁶. -/
theorem C70_saturated (E : Env) (U : Sys) (hU : Uses E U) (B : Sub) (Tmin : ℝ) (hB : GoodSub B Tmin)
    (varg : List (Val ℝ)) (kw : Kw) (hkw : (kw.map (·.1)).Nodup) (v : Val ℝ)
    (hv : ("p", v) ∈ supplied varg kw) (hnT : ∀ w, ("T", w) ∉ supplied varg kw)
    (h2 : 2 ≤ (supplied varg kw).length) (i : Nat) (P : ℝ) (hP : Elem (Val.elems v) i P)
    (r1 : B.plo ≤ si E U B .p P) (r2 : si E U B .p P ≤ B.phi)
    (p1 : B.pt ≤ si E U B .p P) (p2 : si E U B .p P ≤ B.pc) (T D x : ℝ)
    (hT : MpGives E B (quietSol B) varg kw .T i T) (hD : MpGives E B (quietSol B) varg kw .d i D)
    (hx : MpGives E B (quietSol B) varg kw .x i x) (h0 : 0 ≤ x) :
    ∃ t, B.Tt * 0.99 ≤ t ∧ t ≤ B.Tc ∧ |si E U B .p P - B.ps t| ≤ 1e-6 * |si E U B .p P| ∧ B.psT t ≠ 0 ∧
      |si E U B .T T - t| ≤ |(si E U B .p P - B.ps t) / B.psT t| := by
  have hmw := hB.dome.mw.ne'
  obtain ⟨q, kw', k, hn', hsub, hall, htwo, hrules, hpar, ho, qT, -, -, qm⟩ := quiet_state hU hB hkw hT hD
  have hx' := qm .x x (by simp) hx
  obtain ⟨pa, hpa, hep⟩ := given_p hpar hn' (hsub _ hv) hP
  have hc : clip B.plo B.phi (internalKg E.a U B.mw .pressure P) = some (si E U B .p P) :=
    clip_of_mem r1 r2
  rw [hc] at hep
  have hkT : k.T = none := by
    refine no_T hpar ?_
    rintro ⟨n, w⟩ hw rfl
    exact hnT w (htwo h2 _ hw)
  simp only [ptValue] at hx'
  have neg : ¬ (some (-1 : ℝ) = some x) := by
    intro h; cases h; norm_num at h0
  cases ho with
  | hd _ h => rw [h] at hpa; cases hpa
  | hT _ h => rw [h] at hpa; cases hpa
  | Td _ h => rw [h] at hkT; cases hkT
  | Tx _ h => rw [h] at hkT; cases hkT
  | Tpx _ h => rw [h] at hkT; cases hkT
  | hp gi g1 gy g2 g3 g4 ga gb gc gd =>
    rw [g1] at hpa; cases hpa
    cases elem_unique g2 hep
    rename_i j _ y _ Ts _ _ _ _
    cases hs : satHP B j (Ts i) (y, some (si E U B .p P)) with
    | none => rw [hs] at hx'; exact absurd hx' neg
    | some x' =>
      rw [hs] at qT
      have hb : betweenP B (some (si E U B .p P)) = true := by
        by_contra hc; unfold satHP at hs; rw [if_neg hc] at hs; cases hs
      exact askTs_solves hB g4 g3 hb p1 p2 qT
  | pd gi gt g1 gd g2 ge g3 g4 ga gb =>
    rw [g1] at hpa; cases hpa
    cases elem_unique g2 hep
    rename_i D' _ Ts _ _
    cases hs : satPD B (Ts i) (D', some (si E U B .p P)) with
    | none => rw [hs] at hx'; exact absurd hx' neg
    | some x' =>
      rw [hs] at qT
      have hb : belowPc B (some (si E U B .p P)) = true := by
        by_contra hc; unfold satPD at hs; rw [if_neg hc] at hs; cases hs
      exact askTs_solves hB g4 g3 hb p1 p2 qT
  | px _ _ g1 _ _ g2 _ g3 g4 =>
    rw [g1] at hpa; cases hpa
    cases elem_unique g2 hep
    have h1 : B.Tt * 0.99 ≤ B.Tmid := by
      unfold Sub.Tmid; linarith [hB.pos, hB.order]
    have h2 : B.Tmid ≤ B.Tc := by unfold Sub.Tmid; linarith [hB.order]
    have := (codeTs_spec h1 h2 (noWarning_ok g3)).2.1 i _ g4 p1 p2 rfl _ qT
    rwa [abs_mul, abs_of_pos (by norm_num : (0:ℝ) < 1e-6)] at this

end

end PyroMat.Mp.Props
