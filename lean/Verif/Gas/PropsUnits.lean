import Verif.Gas.PropsThermo

/-!
# C37: results do not depend on the working unit system
-/

set_option linter.unusedSimpArgs false

namespace PyroMat.Gas.Props

open PyroMat PyroMat.Units PyroMat.Units.Spec PyroMat.Units.Props PyroMat.Gas PyroMat.Gas.Spec
open PyroMat.Config.Defaults

/-- The part of a state the methods read. -/
def State.core (st : State) : List Nan × Option (List Nan) × Option (List Nan) := (st.T, st.p, st.d)

/-- Same outcome up to what is left in the caller's arrays. -/
def Same (r1 r2 : Except Err State) : Prop := r1.map State.core = r2.map State.core

/-- Same contents, whoever owns the array. -/
def SameArg (x y : Option Arg) : Prop := x.map Arg.xs = y.map Arg.xs

def SameT (x y : Option TArg) : Prop :=
  x.map (fun a => (a.xs, a.warned)) = y.map (fun a => (a.xs, a.warned))

structure SameStd (k1 k2 : Std) : Prop where
  T : SameArg k1.T k2.T
  p : SameArg k1.p k2.p
  d : SameArg k1.d k2.d
  v : SameArg k1.v k2.v
  h : SameArg k1.h k2.h
  e : SameArg k1.e k2.e
  s : SameArg k1.s k2.s

theorem sameArg_cases {x y : Option Arg} (h : SameArg x y) :
    (x = none ∧ y = none) ∨ ∃ xs b b', x = some ⟨xs, b⟩ ∧ y = some ⟨xs, b'⟩ := by
  unfold SameArg at h
  match x, y with
  | none, none => exact Or.inl ⟨rfl, rfl⟩
  | some ⟨xs, b⟩, some ⟨ys, b'⟩ => simp at h; subst h; exact Or.inr ⟨xs, b, b', rfl, rfl⟩
  | none, some _ => simp at h
  | some _, none => simp at h

theorem sameT_cases {x y : Option TArg} (h : SameT x y) :
    (x = none ∧ y = none) ∨ ∃ xs w b b', x = some ⟨xs, b, w⟩ ∧ y = some ⟨xs, b', w⟩ := by
  unfold SameT at h
  match x, y with
  | none, none => exact Or.inl ⟨rfl, rfl⟩
  | some ⟨xs, b, w⟩, some ⟨ys, b', w'⟩ =>
    simp at h; obtain ⟨rfl, rfl⟩ := h; exact Or.inr ⟨xs, w, b, b', rfl, rfl⟩
  | none, some _ => simp at h
  | some _, none => simp at h

theorem same_density {k1 k2 : Std} (h : SameStd k1 k2) : SameArg (densityOf k1) (densityOf k2) := by
  unfold densityOf
  rcases sameArg_cases h.v with ⟨e1, e2⟩ | ⟨xs, b, b', e1, e2⟩ <;> rw [e1, e2]
  · exact h.d
  · rfl

theorem same_temp {k1 k2 : Std} (h : SameStd k1 k2) (G : Gas) :
    (tempOf G k1).map (fun T => T.map (fun a => (a.xs, a.warned)))
      = (tempOf G k2).map (fun T => T.map (fun a => (a.xs, a.warned))) := by
  unfold tempOf
  rcases sameArg_cases h.e with ⟨e1, e2⟩ | ⟨xs, b, b', e1, e2⟩ <;> rw [e1, e2]
  rcases sameArg_cases h.h with ⟨e1, e2⟩ | ⟨xs, b, b', e1, e2⟩ <;> rw [e1, e2]
  rcases sameArg_cases h.T with ⟨e1, e2⟩ | ⟨xs, b, b', e1, e2⟩ <;> rw [e1, e2]
  rfl

theorem same_bind {α : Type} (m : Except Err α) {f g : α → Except Err State}
    (h : ∀ x, Same (f x) (g x)) : Same (m >>= f) (m >>= g) := by
  cases m with
  | error e => exact rfl
  | ok x => exact h x

theorem same_solve {E1 E2 : Env} (hc : E1.cell = E2.cell) (G : Gas) {k1 k2 : Std} (h : SameStd k1 k2)
    {T1 T2 : Option TArg} (hT : SameT T1 T2) : Same (solve E1 G k1 T1) (solve E2 G k2 T2) := by
  have hadj : ∀ s p, adjustS E1 G.pref s p = adjustS E2 G.pref s p := by
    intro s p; unfold adjustS; rw [hc]
  unfold solve
  dsimp only
  rcases sameArg_cases h.s with ⟨e1, e2⟩ | ⟨xs, b, b', e1, e2⟩ <;> rw [e1, e2] <;> dsimp only
  · rcases sameT_cases hT with ⟨t1, t2⟩ | ⟨ts, w, tb, tb', t1, t2⟩ <;> rw [t1, t2] <;> dsimp only
    · rcases sameArg_cases h.p with ⟨p1, p2⟩ | ⟨ps, pb, pb', p1, p2⟩ <;> rw [p1, p2] <;> dsimp only
      · exact rfl
      · rcases sameArg_cases (same_density h) with ⟨d1, d2⟩ | ⟨ds, db, db', d1, d2⟩ <;> rw [d1, d2] <;>
          dsimp only
        · exact rfl
        · exact same_bind _ (fun _ => rfl)
    · rcases sameArg_cases h.p with ⟨p1, p2⟩ | ⟨ps, pb, pb', p1, p2⟩ <;> rw [p1, p2] <;> dsimp only
      · rcases sameArg_cases (same_density h) with ⟨d1, d2⟩ | ⟨ds, db, db', d1, d2⟩ <;> rw [d1, d2] <;>
          dsimp only
        · exact rfl
        · exact same_bind _ (fun _ => rfl)
      · exact same_bind _ (fun _ => rfl)
  · rcases sameArg_cases (same_density h) with ⟨d1, d2⟩ | ⟨ds, db, db', d1, d2⟩ <;> rw [d1, d2] <;>
      dsimp only
    · rcases sameArg_cases h.p with ⟨p1, p2⟩ | ⟨ps, pb, pb', p1, p2⟩ <;> rw [p1, p2] <;> dsimp only
      · rcases sameT_cases hT with ⟨t1, t2⟩ | ⟨ts, w, tb, tb', t1, t2⟩ <;> rw [t1, t2] <;> dsimp only
        · exact rfl
        · exact same_bind _ (fun _ => rfl)
      · rw [hadj]
        refine same_bind _ (fun _ => same_bind _ (fun _ => same_bind _ (fun _ => rfl)))
    · exact rfl

theorem same_range (G : Gas) {r1 r2 : Except Err State} (h : Same r1 r2) :
    Same (r1 >>= rangeTest G) (r2 >>= rangeTest G) := by
  unfold Same at h ⊢
  match r1, r2 with
  | .error e, .error e' =>
    have : e = e' := by simpa [Except.map] using h
    subst this; rfl
  | .ok s1, .ok s2 =>
    simp only [Except.map, Except.ok.injEq, State.core, Prod.mk.injEq] at h
    obtain ⟨h1, h2, h3⟩ := h
    rw [exOk, exOk]
    unfold rangeTest
    rw [h1]
    split
    · rfl
    split
    · simp [Except.map, State.core, h2, h3]
    · simp [Except.map, State.core, h1, h2, h3]
  | .error e, .ok _ => simp [Except.map] at h
  | .ok _, .error e => simp [Except.map] at h

theorem same_pre {E1 E2 : Env} {S1 S2 : Sys} (hc : E1.cell = E2.cell) (G : Gas) {kw1 kw2 : Kw}
    (h : SameStd (stdOf E1 S1 G.mw kw1) (stdOf E2 S2 G.mw kw2)) :
    Same (pre E1 G S1 kw1) (pre E2 G S2 kw2) := by
  unfold pre
  have ht := same_temp h G
  cases h1 : tempOf G (stdOf E1 S1 G.mw kw1) with
  | error e =>
    cases h2 : tempOf G (stdOf E2 S2 G.mw kw2) with
    | error e' => rw [h1, h2] at ht; simp [Except.map] at ht; subst ht; exact rfl
    | ok T2 => rw [h1, h2] at ht; simp [Except.map] at ht
  | ok T1 =>
    cases h2 : tempOf G (stdOf E2 S2 G.mw kw2) with
    | error e' => rw [h1, h2] at ht; simp [Except.map] at ht
    | ok T2 =>
      rw [h1, h2] at ht
      simp only [Except.map, Except.ok.injEq] at ht
      rw [exOk, exOk]
      exact same_solve hc G h ht

theorem same_std {E1 E2 : Env} {S1 S2 : Sys} (mw : ℝ) {a b : String} {va1 va2 vb1 vb2 : Val ℝ}
    (hab : a ≠ b)
    (ha : (Val.elems va1).map (internal E1.a S1 mw (kindOf a))
      = (Val.elems va2).map (internal E2.a S2 mw (kindOf a)))
    (hb : (Val.elems vb1).map (internal E1.a S1 mw (kindOf b))
      = (Val.elems vb2).map (internal E2.a S2 mw (kindOf b))) :
    SameStd (stdOf E1 S1 mw [(a, va1), (b, vb1)]) (stdOf E2 S2 mw [(a, va2), (b, vb2)]) := by
  have key : ∀ n, SameArg (stdArg E1 S1 mw [(a, va1), (b, vb1)] n) (stdArg E2 S2 mw [(a, va2), (b, vb2)] n) := by
    intro n
    have k1 := stdArg_of E1 S1 mw va1 vb1 hab
    have k2 := stdArg_of E2 S2 mw va2 vb2 hab
    by_cases hna : n = a
    · subst hna; rw [k1.1, k2.1]; simpa [SameArg] using ha
    · by_cases hnb : n = b
      · subst hnb; rw [k1.2.1, k2.2.1]; simpa [SameArg] using hb
      · rw [k1.2.2 n hna hnb, k2.2.2 n hna hnb]; exact rfl
  exact ⟨key "T", key "p", key "d", key "v", key "h", key "e", key "s"⟩

theorem argparse_same {E1 E2 : Env} {S1 S2 : Sys} (hU1 : Uses E1 S1) (hU2 : Uses E2 S2)
    (hc : E1.cell = E2.cell) {G : Gas} (hmw : G.mw ≠ 0)
    {varg1 varg2 : List (Val ℝ)} {kw1 kw2 : Kw} {a b : String} {va1 va2 vb1 vb2 : Val ℝ}
    (h1 : Supplies varg1 kw1 a va1 b vb1) (h2 : Supplies varg2 kw2 a va2 b vb2)
    (ha : (Val.elems va1).map (internal E1.a S1 G.mw (kindOf a))
      = (Val.elems va2).map (internal E2.a S2 G.mw (kindOf a)))
    (hb : (Val.elems vb1).map (internal E1.a S1 G.mw (kindOf b))
      = (Val.elems vb2).map (internal E2.a S2 G.mw (kindOf b))) :
    Same (argparse E1 G varg1 kw1) (argparse E2 G varg2 kw2) := by
  rw [argparse_pair hU1 hmw h1, argparse_pair hU2 hmw h2]
  have hab : a ≠ b := by simpa using h1.ok.distinct
  exact same_range G (same_pre hc G (same_std G.mw hab ha hb))

theorem method_error {E : Env} {S : Sys} (hU : Uses E S) {G : Gas} (hmw : G.mw ≠ 0)
    {varg : List (Val ℝ)} {kw : Kw} (hc : varg.length + kw.length ≠ 1) {e : Err}
    (h : argparse E G varg kw = .error e) (q : Quantity) : method q E G varg kw = .error e := by
  cases q <;> simp only [method]
  · rw [mT_eq hU, mTdefault_two hc, h, exErr]
  · rw [mP_eq hU, h, exErr]
  · rw [mD_eq hU hmw, h, exErr]
  · rw [mV, mD_eq hU hmw, h, exErr, exErr]
  · rw [mH_eq hU hmw, h, exErr]
  · rw [mE_eq hU hmw, h, exErr]
  · rw [mS_eq hU hmw, h, exErr]
  · rw [mG_eq hU hmw, h, exErr]
  · rw [mF_eq hU hmw, h, exErr]
  · rw [mCp_eq hU hmw, h, exErr]
  · rw [mCv_eq hU hmw, h, exErr]
  · rw [mGam, h, exErr]

theorem core_row {st1 st2 : State} (h : State.core st1 = State.core st2) {i : Nat} {T p d : Nan}
    (hr : Row st1 i T p d) : Row st2 i T p d := by
  simp only [State.core, Prod.mk.injEq] at h
  obtain ⟨h1, h2, h3⟩ := h
  unfold Row State.pressure State.density at *
  rw [h1, h2, h3] at hr
  exact hr

/-- A value read back in internal units does not depend on the unit system. -/
theorem value_internal {E : Env} {S : Sys} (hU : Uses E S) {G : Gas} (hmw : G.mw ≠ 0) (q : Quantity)
    (T p d : Nan) :
    (value E.a S G q T p d).map (internal E.a S G.mw (kindOf q.name)) =
      match q with
      | .T => T | .p => p | .d => d | .v => d.map (fun x => 1 / x)
      | .h => G.hI T | .e => G.eI T | .s => G.sI T p | .g => G.gI T p | .f => G.fI T p
      | .cp => G.cpI T | .cv => G.cvI T | .gam => G.gamI T := by
  have key : ∀ k (x : Nan), (x.map (inUnits E.a S G.mw k)).map (internal E.a S G.mw k) = x := by
    intro k x
    cases x with
    | none => rfl
    | some x => simp [internal_inUnits hU hmw]
  cases q
  case v =>
    simp only [value, kindOf, Quantity.name]
    cases d with
    | none => rfl
    | some d =>
      have h2 := vs_ne hU
      have h5 := ms_ne hU hmw
      simp only [Option.map_some, Option.some.injEq, inUnits, internal]
      by_cases hd : d = 0
      · simp [hd]
      · field_simp
  case gam =>
    simp only [value, kindOf, Quantity.name, internal]
    exact Option.map_id'
  all_goals
    simp only [value, kindOf, Quantity.name]
    exact key _ _

/-- C37.  Two calls made under two unit systems whose arguments denote the same physical values
have the same outcome in every method: the same error, or results of the same length that denote
the same physical values (and NaN at the same places). -/
theorem C37_unit_independence (E1 E2 : Env) (S1 S2 : Sys) (hU1 : Uses E1 S1) (hU2 : Uses E2 S2)
    (hc : E1.cell = E2.cell) (G : Gas) (hmw : G.mw ≠ 0)
    (varg1 varg2 : List (Val ℝ)) (kw1 kw2 : Kw) (a b : String) (va1 va2 vb1 vb2 : Val ℝ)
    (h1 : Supplies varg1 kw1 a va1 b vb1) (h2 : Supplies varg2 kw2 a va2 b vb2)
    (ha : (Val.elems va1).map (internal E1.a S1 G.mw (kindOf a))
      = (Val.elems va2).map (internal E2.a S2 G.mw (kindOf a)))
    (hb : (Val.elems vb1).map (internal E1.a S1 G.mw (kindOf b))
      = (Val.elems vb2).map (internal E2.a S2 G.mw (kindOf b))) (q : Quantity) :
    (∃ e, method q E1 G varg1 kw1 = .error e ∧ method q E2 G varg2 kw2 = .error e) ∨
    (∃ xs1 xs2, method q E1 G varg1 kw1 = .ok xs1 ∧ method q E2 G varg2 kw2 = .ok xs2 ∧
      xs1.map (Option.map (internal E1.a S1 G.mw (kindOf q.name)))
        = xs2.map (Option.map (internal E2.a S2 G.mw (kindOf q.name)))) := by
  have hs := argparse_same hU1 hU2 hc hmw h1 h2 ha hb
  have c1 : varg1.length + kw1.length ≠ 1 := by rw [supplies_count h1]; decide
  have c2 : varg2.length + kw2.length ≠ 1 := by rw [supplies_count h2]; decide
  unfold Same at hs
  cases r1 : argparse E1 G varg1 kw1 with
  | error e =>
    cases r2 : argparse E2 G varg2 kw2 with
    | error e' =>
      rw [r1, r2] at hs; simp [Except.map] at hs; subst hs
      exact Or.inl ⟨e, method_error hU1 hmw c1 r1 q, method_error hU2 hmw c2 r2 q⟩
    | ok s2 => rw [r1, r2] at hs; simp [Except.map] at hs
  | ok s1 =>
    cases r2 : argparse E2 G varg2 kw2 with
    | error e' => rw [r1, r2] at hs; simp [Except.map] at hs
    | ok s2 =>
      rw [r1, r2] at hs
      simp only [Except.map, Except.ok.injEq] at hs
      right
      have g1 := good_of_pair hU1 hmw h1 r1
      have g2 := good_of_pair hU2 hmw h2 r2
      obtain ⟨xs1, m1, l1, v1⟩ := method_rows hU1 hmw c1 r1 g1 q
      obtain ⟨xs2, m2, l2, v2⟩ := method_rows hU2 hmw c2 r2 g2 q
      refine ⟨xs1, xs2, m1, m2, ?_⟩
      have hT : s1.T = s2.T := by
        simp only [State.core, Prod.mk.injEq] at hs; exact hs.1
      refine List.ext_getElem? (fun i => ?_)
      rw [List.getElem?_map, List.getElem?_map]
      by_cases hi : i < s1.T.length
      · obtain ⟨T, p, d, hr⟩ := g1.exists_row hi
        rw [v1 i T p d hr, v2 i T p d (core_row hs hr)]
        simp only [Option.map_some, Option.some.injEq]
        rw [value_internal hU1 hmw, value_internal hU2 hmw]
      · rw [List.getElem?_eq_none (by omega), List.getElem?_eq_none (by rw [l2, ← hT]; omega)]
        rfl

end PyroMat.Gas.Props
