import Verif.Gas.PropsInverse
import Verif.Gas.PropsUnits

/-!
# C34: arrays are evaluated element by element; temperatures out of range
-/

set_option linter.unusedSimpArgs false

namespace PyroMat.Gas.Props

open PyroMat PyroMat.Units PyroMat.Units.Spec PyroMat.Units.Props PyroMat.Gas PyroMat.Gas.Spec
open PyroMat.Config.Defaults

/-- Element `i` of an argument, as a one-element argument. -/
def pick (A : Option Arg) (i : Nat) : Option Arg :=
  A.bind (fun a => (nth a.xs i).map (fun x => ⟨[x], false⟩))

def Std.pick (k : Std) (i : Nat) : Std where
  T := Props.pick k.T i
  p := Props.pick k.p i
  d := Props.pick k.d i
  v := Props.pick k.v i
  h := Props.pick k.h i
  e := Props.pick k.e i
  s := Props.pick k.s i

/-- Every argument given has an element `i`. -/
def Has (A : Option Arg) (i : Nat) : Prop := ∀ a, A = some a → ∃ x, nth a.xs i = some x

theorem pick_cases {A : Option Arg} {i : Nat} (h : Has A i) :
    (A = none ∧ pick A i = none) ∨ ∃ a x, A = some a ∧ nth a.xs i = some x ∧ pick A i = some ⟨[x], false⟩ := by
  cases A with
  | none => exact Or.inl ⟨rfl, rfl⟩
  | some a =>
    obtain ⟨x, hx⟩ := h a rfl
    exact Or.inr ⟨a, x, rfl, hx, by simp [pick, hx]⟩

theorem pick_std (E : Env) (S : Sys) (mw : ℝ) {a b : String} (hab : a ≠ b) {va vb : Val ℝ} {i : Nat}
    {x y : ℝ} (hx : nth (Val.elems va) i = some x) (hy : nth (Val.elems vb) i = some y) :
    stdOf E S mw [(a, .scalar x), (b, .scalar y)] = Std.pick (stdOf E S mw [(a, va), (b, vb)]) i := by
  have key : ∀ n, stdArg E S mw [(a, .scalar x), (b, .scalar y)] n
      = pick (stdArg E S mw [(a, va), (b, vb)] n) i := by
    intro n
    have k1 := stdArg_of E S mw (.scalar x) (.scalar y) hab
    have k2 := stdArg_of E S mw va vb hab
    by_cases hna : n = a
    · subst hna; rw [k1.1, k2.1]; simp only [pick, Option.bind_some, nth_map, hx, Option.map_some]; rfl
    · by_cases hnb : n = b
      · subst hnb; rw [k1.2.1, k2.2.1]; simp only [pick, Option.bind_some, nth_map, hy, Option.map_some]; rfl
      · rw [k1.2.2 n hna hnb, k2.2.2 n hna hnb]; rfl
  simp only [stdOf, Std.pick, key]

theorem pick_density {k : Std} {i : Nat} (hv : Has k.v i) :
    densityOf (Std.pick k i) = pick (densityOf k) i := by
  unfold densityOf
  rcases pick_cases hv with ⟨e1, e2⟩ | ⟨a, x, e1, hx, e2⟩
  · simp only [Std.pick, e2]
    simp only [e1]
  · simp only [Std.pick, e2]
    simp only [e1]
    simp [pick, nth_map, hx]

/-- The temperature argument of a one-element call. -/
def PickT (T T' : Option TArg) (i : Nat) : Prop :=
  (T = none ∧ T' = none) ∨ ∃ t v o w, T = some t ∧ nth t.xs i = some v ∧ T' = some ⟨[v], o, w⟩

theorem pick_temp {G : Gas} {k : Std} {i : Nat} (he : Has k.e i) (hh : Has k.h i) (hT : Has k.T i)
    {T : Option TArg} (h : tempOf G k = .ok T) :
    ∃ T', tempOf G (Std.pick k i) = .ok T' ∧ PickT T T' i := by
  unfold tempOf at h ⊢
  rcases pick_cases he with ⟨e1, e2⟩ | ⟨a, x, e1, hx, e2⟩
  · simp only [Std.pick, e2]
    simp only [e1] at h
    rcases pick_cases hh with ⟨h1, h2⟩ | ⟨a, x, h1, hx, h2⟩
    · simp only [h2]
      simp only [h1] at h
      rcases pick_cases hT with ⟨t1, t2⟩ | ⟨a, x, t1, hx, t2⟩
      · simp only [t1, Option.map_none, Except.ok.injEq] at h
        simp only [t2, Option.map_none]
        exact ⟨none, rfl, Or.inl ⟨h.symm, rfl⟩⟩
      · simp only [t1, Option.map_some, Except.ok.injEq] at h
        simp only [t2, Option.map_some]
        exact ⟨_, rfl, Or.inr ⟨_, some x, _, _, h.symm, by simp [nth_map, hx], rfl⟩⟩
    · simp only [h2]
      simp only [h1] at h
      obtain ⟨r, hr, h⟩ := bind_ok h
      simp only [Except.ok.injEq] at h
      obtain ⟨v, w, hv, hit, -⟩ := iter1_nth hr hx
      refine ⟨_, by rw [List.map_singleton, hit, exOk], Or.inr ⟨_, v, _, _, h.symm, hv, rfl⟩⟩
  · simp only [Std.pick, e2]
    simp only [e1] at h
    obtain ⟨r, hr, h⟩ := bind_ok h
    simp only [Except.ok.injEq] at h
    obtain ⟨v, w, hv, hit, -⟩ := iter1_nth hr hx
    refine ⟨_, by rw [List.map_singleton, hit, exOk], Or.inr ⟨_, v, _, _, h.symm, hv, rfl⟩⟩

/-- Row `i` of the optional array `xs`, as an optional one-element array. -/
def RowOf (xs xs' : Option (List Nan)) (i : Nat) : Prop :=
  (xs = none ∧ xs' = none) ∨ ∃ l v, xs = some l ∧ l[i]? = some v ∧ xs' = some [v]

theorem pick_solve {E : Env} {G : Gas} {k : Std} {T T' : Option TArg} {st : State} {n i : Nat}
    (hS : Solved E G k T st n) (two : Two k T) (hi : i < n) (hs : Has k.s i) (hp : Has k.p i)
    (hd : Has (densityOf k) i) (hv : Has k.v i) (hT : PickT T T' i)
    (hone : ∀ s P, k.s = some s → k.p = some P → s.xs.length ≠ 1 ∨ P.xs.length ≤ 1) :
    ∃ st' v, solve E G (Std.pick k i) T' = .ok st' ∧ st.T[i]? = some v ∧ st'.T = [v] ∧
      RowOf st.p st'.p i ∧ RowOf st.d st'.d i := by
  have hdd := pick_density hv
  have nop : k.p = none → st.d.isSome = true → st.p = none := by
    intro h1 h2
    cases hsp : st.p with
    | none => rfl
    | some ps => have := (hS.both (by rw [hsp]; rfl) h2).1; rw [h1] at this; cases this
  have nod : densityOf k = none → st.p.isSome = true → st.d = none := by
    intro h1 h2
    cases hsp : st.d with
    | none => rfl
    | some ps => have := (hS.both h2 (by rw [hsp]; rfl)).2; rw [h1] at this; cases this
  unfold Two at two
  unfold solve
  rw [hdd]
  rcases pick_cases hs with ⟨s1, s2⟩ | ⟨sa, s, s1, hsx, s2⟩
  · rcases hT with ⟨t1, t2⟩ | ⟨ta, t, o, w, t1, htx, t2⟩
    · -- p and d
      rcases pick_cases hp with ⟨p1, p2⟩ | ⟨pa, p, p1, hpx, p2⟩
      · rw [s1, t1, p1] at two
        simp at two
        cases hdk : (densityOf k).isSome <;> rw [hdk] at two <;> simp at two
      rcases pick_cases hd with ⟨d1, d2⟩ | ⟨da, d, d1, hdx, d2⟩
      · rw [s1, t1, p1, d1] at two; simp at two
      obtain ⟨ps, hps, hpi⟩ := hS.p _ p1
      obtain ⟨ds, hds, hdi⟩ := hS.d _ d1
      obtain ⟨x, hx1, hx2⟩ := hpi i hi
      obtain ⟨y, hy1, hy2⟩ := hdi i hi
      obtain ⟨x', y', hx3, hy3, hT3⟩ := hS.pd _ _ p1 d1 i hi
      rw [hpx] at hx1 hx3; cases hx1; cases hx3
      rw [hdx] at hy1 hy3; cases hy1; cases hy3
      simp only [Std.pick, s2, t2, p2, d2, broadcast, List.length_singleton, if_true, exOk]
      refine ⟨_, _, rfl, hT3, rfl, Or.inr ⟨ps, _, hps, hx2, rfl⟩, Or.inr ⟨ds, _, hds, hy2, rfl⟩⟩
    · obtain ⟨x, hx1, hx2⟩ := hS.T _ t1 i hi
      rw [htx] at hx1; cases hx1
      rcases pick_cases hp with ⟨p1, p2⟩ | ⟨pa, p, p1, hpx, p2⟩
      · rcases pick_cases hd with ⟨d1, d2⟩ | ⟨da, d, d1, hdx, d2⟩
        · rw [s1, t1, p1, d1] at two; simp at two
        obtain ⟨ds, hds, hdi⟩ := hS.d _ d1
        obtain ⟨y, hy1, hy2⟩ := hdi i hi
        rw [hdx] at hy1; cases hy1
        simp only [Std.pick, s2, t2, p2, d2, broadcast, List.length_singleton, if_true, exOk]
        exact ⟨_, _, rfl, hx2, rfl, Or.inl ⟨nop p1 (by rw [hds]; rfl), rfl⟩,
          Or.inr ⟨ds, _, hds, hy2, rfl⟩⟩
      · have d1 : densityOf k = none := by
          cases hdk : densityOf k with
          | none => rfl
          | some _ => rw [s1, t1, p1, hdk] at two; simp at two
        have d2 : pick (densityOf k) i = none := by rw [d1]; rfl
        obtain ⟨ps, hps, hpi⟩ := hS.p _ p1
        obtain ⟨y, hy1, hy2⟩ := hpi i hi
        rw [hpx] at hy1; cases hy1
        simp only [Std.pick, s2, t2, p2, d2, broadcast, List.length_singleton, if_true, exOk]
        exact ⟨_, _, rfl, hx2, rfl, Or.inr ⟨ps, _, hps, hy2, rfl⟩,
          Or.inl ⟨nod d1 (by rw [hps]; rfl), rfl⟩⟩
  · rcases pick_cases hd with ⟨d1, d2⟩ | ⟨da, d, d1, hdx, d2⟩
    · rcases pick_cases hp with ⟨p1, p2⟩ | ⟨pa, p, p1, hpx, p2⟩
      · rcases hT with ⟨t1, t2⟩ | ⟨ta, t, o, w, t1, htx, t2⟩
        · rw [s1, t1, p1, d1] at two; simp at two
        obtain ⟨x, hx1, hx2⟩ := hS.T _ t1 i hi
        rw [htx] at hx1; cases hx1
        obtain ⟨ps, hps, hpi⟩ := hS.sT _ _ s1 t1
        obtain ⟨x, y, hx3, hy3, hx4⟩ := hpi i hi
        rw [hsx] at hx3; cases hx3
        rw [htx] at hy3; cases hy3
        simp only [Std.pick, s2, t2, p2, d2, broadcast, List.length_singleton, if_true, exOk]
        exact ⟨_, _, rfl, hx2, rfl, Or.inr ⟨ps, _, hps, hx4, rfl⟩,
          Or.inl ⟨nod d1 (by rw [hps]; rfl), rfl⟩⟩
      · obtain ⟨ps, hps, hpi⟩ := hS.p _ p1
        obtain ⟨y, hy1, hy2⟩ := hpi i hi
        rw [hpx] at hy1; cases hy1
        obtain ⟨x, y, v, w, hx3, hy3, hv3, hit, -⟩ := hS.sp _ _ s1 p1 (hone _ _ s1 p1) i hi
        rw [hsx] at hx3; cases hx3
        rw [hpx] at hy3; cases hy3
        simp only [Std.pick, s2, p2, d2, broadcast, adjustS, List.length_singleton, if_true, exOk,
          List.zipWith_cons_cons, List.zipWith_nil_left, lt_self_iff_false, if_false, List.map_singleton, hit]
        exact ⟨_, _, rfl, hv3, rfl, Or.inr ⟨ps, _, hps, hy2, rfl⟩,
          Or.inl ⟨nod d1 (by rw [hps]; rfl), rfl⟩⟩
    · obtain ⟨ds, hds, hdi⟩ := hS.d _ d1
      obtain ⟨y, hy1, hy2⟩ := hdi i hi
      rw [hdx] at hy1; cases hy1
      obtain ⟨x, y, v, w, hx3, hy3, hv3, hit, -⟩ := hS.sd _ _ s1 d1 i hi
      rw [hsx] at hx3; cases hx3
      rw [hdx] at hy3; cases hy3
      have p1 : k.p = none := by
        cases hdk : k.p with
        | none => rfl
        | some _ => rw [s1, d1, hdk] at two; simp at two; omega
      simp only [Std.pick, s2, d2, broadcast, List.length_singleton, if_true, exOk,
          List.zipWith_cons_cons, List.zipWith_nil_left, List.map_singleton, hit]
      exact ⟨_, _, rfl, hv3, rfl, Or.inl ⟨nop p1 (by rw [hds]; rfl), rfl⟩,
          Or.inr ⟨ds, _, hds, hy2, rfl⟩⟩

/-! ## Lengths -/

/-- `n` is the common length of arrays of these lengths. -/
def Fit (n a b : Nat) : Prop := (n = a ∨ n = b) ∧ (a = n ∨ a = 1) ∧ (b = n ∨ b = 1)

theorem Fit.symm {n a b : Nat} (h : Fit n a b) : Fit n b a := ⟨h.1.symm, h.2.2, h.2.1⟩

theorem broadcast_fit {α β : Type} {xs : List α} {ys : List β} {r : List α × List β}
    (h : broadcast xs ys = .ok r) : Fit r.1.length xs.length ys.length ∧ r.2.length = r.1.length := by
  unfold broadcast at h
  split at h
  · rename_i hl
    cases h
    exact ⟨⟨Or.inl rfl, Or.inl rfl, Or.inl hl.symm⟩, hl.symm⟩
  · split at h
    · cases h; simp [Fit]
    · cases h; simp [Fit]
    · cases h

/-- Length of an argument. -/
def Len (A : Option Arg) (n : Nat) : Prop := ∃ a, A = some a ∧ a.xs.length = n

theorem solve_fit {E : Env} {G : Gas} {k : Std} {T : Option TArg} {st : State} (two : Two k T)
    (h : solve E G k T = .ok st) :
    (∀ a b, k.s = some a → densityOf k = some b → Fit st.T.length a.xs.length b.xs.length) ∧
    (∀ a b, k.s = some a → k.p = some b → Fit st.T.length a.xs.length b.xs.length) ∧
    (∀ a b, k.s = some a → T = some b → Fit st.T.length a.xs.length b.xs.length) ∧
    (∀ a b, T = some a → k.p = some b → Fit st.T.length a.xs.length b.xs.length) ∧
    (∀ a b, T = some a → densityOf k = some b → Fit st.T.length a.xs.length b.xs.length) ∧
    (∀ a b, k.p = some a → densityOf k = some b → Fit st.T.length a.xs.length b.xs.length) := by
  unfold solve at h
  unfold Two at two
  dsimp only at h
  cases hs : k.s with
  | some s =>
    rw [hs] at h two
    cases hd : densityOf k with
    | some d =>
      rw [hd] at h two
      have hp : k.p = none := by
        cases hp : k.p with
        | none => rfl
        | some p => rw [hp] at two; cases T <;> simp at two
      have hT : T = none := by
        cases T with
        | none => rfl
        | some t => rw [hp] at two; simp at two
      simp only at h
      obtain ⟨⟨sb, db⟩, hb, h⟩ := bind_ok h
      obtain ⟨r, hr, h⟩ := bind_ok h
      cases h
      obtain ⟨f1, f2⟩ := broadcast_fit hb
      obtain ⟨c1, -⟩ := iter1_each hr
      simp only [List.length_zipWith] at c1 f1 f2
      simp only [hp, hT, Option.some.injEq, reduceCtorEq, false_imp_iff, implies_true, and_true]
      rintro _ _ rfl rfl
      rw [c1, f2, min_self]; exact f1
    | none =>
      rw [hd] at h two
      cases hp : k.p with
      | some p =>
        rw [hp] at h two
        have hT : T = none := by
          cases T with
          | none => rfl
          | some t => simp at two
        simp only at h
        obtain ⟨⟨sb, pb⟩, hb, h⟩ := bind_ok h
        obtain ⟨sa, hsa, h⟩ := bind_ok h
        obtain ⟨r, hr, h⟩ := bind_ok h
        cases h
        obtain ⟨f1, f2⟩ := broadcast_fit hb
        obtain ⟨c1, -⟩ := iter1_each hr
        simp only [List.length_map] at c1 f1 f2
        have hlen : sa.length = sb.length := by
          unfold adjustS at hsa
          rw [hb, exOk] at hsa
          dsimp only at hsa
          split at hsa
          · split at hsa
            · cases hsa; simp [f2]
            · cases hsa; simp [f2]
          · cases hsa; simp [f2]
        simp only [hT, Option.some.injEq, reduceCtorEq, false_imp_iff, implies_true, and_true, true_and]
        rintro _ _ rfl rfl
        rw [c1, hlen]; exact f1
      | none =>
        rw [hp] at h
        cases T with
        | none => simp only at h; cases h
        | some t =>
          simp only at h
          obtain ⟨⟨sb, tb⟩, hb, h⟩ := bind_ok h
          cases h
          obtain ⟨f1, f2⟩ := broadcast_fit hb
          simp only [Option.some.injEq, reduceCtorEq, false_imp_iff, implies_true, and_true, true_and]
          rintro _ _ rfl rfl
          simp only at f1 f2 ⊢
          rw [f2]; exact f1
  | none =>
    rw [hs] at h two
    cases T with
    | some t =>
      simp only at h
      cases hp : k.p with
      | some p =>
        rw [hp] at h two
        have hd : densityOf k = none := by
          cases hd : densityOf k with
          | none => rfl
          | some p => rw [hd] at two; simp at two
        simp only at h
        obtain ⟨⟨tb, pb⟩, hb, h⟩ := bind_ok h
        cases h
        obtain ⟨f1, f2⟩ := broadcast_fit hb
        simp only [hd, Option.some.injEq, reduceCtorEq, false_imp_iff, implies_true, and_true, true_and]
        rintro _ _ rfl rfl
        exact f1
      | none =>
        rw [hp] at h two
        cases hd : densityOf k with
        | none => rw [hd] at h; simp only at h; cases h
        | some d =>
          rw [hd] at h
          simp only at h
          obtain ⟨⟨tb, pb⟩, hb, h⟩ := bind_ok h
          cases h
          obtain ⟨f1, f2⟩ := broadcast_fit hb
          simp only [Option.some.injEq, reduceCtorEq, false_imp_iff, implies_true, and_true, true_and]
          rintro _ _ rfl rfl
          exact f1
    | none =>
      simp only at h
      cases hp : k.p with
      | none => rw [hp] at h; simp only at h; cases h
      | some p =>
        rw [hp] at h
        cases hd : densityOf k with
        | none => rw [hd] at h; simp only at h; cases h
        | some d =>
          rw [hd] at h
          simp only at h
          obtain ⟨⟨tb, pb⟩, hb, h⟩ := bind_ok h
          cases h
          obtain ⟨f1, f2⟩ := broadcast_fit hb
          simp only [Option.some.injEq, reduceCtorEq, false_imp_iff, implies_true, and_true, true_and]
          rintro _ _ rfl rfl
          simp only [List.length_zipWith] at f1 f2 ⊢
          rw [f2, min_self]; exact f1

theorem temp_len {G : Gas} {k : Std} {t : TArg} (h : tempOf G k = .ok (some t)) :
    (∀ a, k.e = some a → t.xs.length = a.xs.length) ∧
    (∀ a, k.e = none → k.h = some a → t.xs.length = a.xs.length) ∧
    (∀ a, k.e = none → k.h = none → k.T = some a → t.xs.length = a.xs.length) := by
  unfold tempOf at h
  cases he : k.e with
  | some e =>
    rw [he] at h
    obtain ⟨r, hr, h⟩ := bind_ok h
    cases h
    have := (iter1_each hr).1
    simp only [Option.some.injEq, reduceCtorEq, false_imp_iff, implies_true, and_true]
    rintro _ rfl
    simpa using this
  | none =>
    rw [he] at h
    cases hh : k.h with
    | some e =>
      rw [hh] at h
      obtain ⟨r, hr, h⟩ := bind_ok h
      cases h
      have := (iter1_each hr).1
      simp only [Option.some.injEq, reduceCtorEq, false_imp_iff, implies_true, and_true, true_and]
      rintro _ _ rfl
      simpa using this
    | none =>
      rw [hh] at h
      simp only [Option.some.injEq, reduceCtorEq, false_imp_iff, implies_true, and_true, true_and]
      rintro a _ _ ha
      rw [ha] at h
      simp only [Option.map_some, Except.ok.injEq, Option.some.injEq] at h
      subst h
      simp

/-- The group an argument belongs to in the case split. -/
inductive Role | S | D | P | T
  deriving DecidableEq

def roleOf (n : String) : Role :=
  if n = "s" then .S else if n = "d" ∨ n = "v" then .D else if n = "p" then .P else .T

/-- The length of an argument is the length of the array the case split sees for its group. -/
theorem role_len {E : Env} {G : Gas} {S : Sys} {a b : String} {va vb : Val ℝ} {T : Option TArg}
    (hadm : Admissible [a, b]) (hT : tempOf G (stdOf E S G.mw [(a, va), (b, vb)]) = .ok T) :
    (roleOf a = .S → ∃ x, (stdOf E S G.mw [(a, va), (b, vb)]).s = some x ∧ x.xs.length = (Val.elems va).length) ∧
    (roleOf a = .D → ∃ x, densityOf (stdOf E S G.mw [(a, va), (b, vb)]) = some x ∧ x.xs.length = (Val.elems va).length) ∧
    (roleOf a = .P → ∃ x, (stdOf E S G.mw [(a, va), (b, vb)]).p = some x ∧ x.xs.length = (Val.elems va).length) ∧
    (roleOf a = .T → ∃ x, T = some x ∧ x.xs.length = (Val.elems va).length) := by
  have hab : a ≠ b := by simpa using hadm.distinct
  have ka := hadm.known a (by simp)
  obtain ⟨k1, -, k3⟩ := stdArg_of E S G.mw va vb hab
  have hpr := (presence hT).2.2.2
  have getT : a = "T" ∨ a = "h" ∨ a = "e" → ∃ x, T = some x ∧ x.xs.length = (Val.elems va).length := by
    intro hh
    have hTs : T.isSome = true := by rw [hpr]; rcases hh with rfl | rfl | rfl <;> simp
    obtain ⟨t, rfl⟩ := Option.isSome_iff_exists.mp hTs
    obtain ⟨l1, l2, l3⟩ := temp_len hT
    have hb : ∀ n ∈ ["T", "e", "h"], n ≠ a → n ≠ b := by
      rintro n hn hna rfl
      exact hna (hadm.one_of_Teh n (by simp) a (by simp) hn (by rcases hh with rfl | rfl | rfl <;> simp))
    refine ⟨t, rfl, ?_⟩
    rcases hh with rfl | rfl | rfl
    · have := l3 _ (k3 "e" (by decide) (hb "e" (by simp) (by decide)))
        (k3 "h" (by decide) (hb "h" (by simp) (by decide))) k1
      simpa using this
    · have := l2 _ (k3 "e" (by decide) (hb "e" (by simp) (by decide))) k1
      simpa using this
    · have := l1 _ k1
      simpa using this
  simp only [List.mem_cons, List.not_mem_nil, or_false] at ka
  rcases ka with rfl | rfl | rfl | rfl | rfl | rfl | rfl
  · exact ⟨by simp [roleOf], by simp [roleOf], by simp [roleOf], fun _ => getT (by simp)⟩
  · exact ⟨by simp [roleOf], by simp [roleOf], fun _ => ⟨_, k1, by simp⟩, by simp [roleOf]⟩
  · refine ⟨by simp [roleOf], fun _ => ?_, by simp [roleOf], by simp [roleOf]⟩
    have hbv : b ≠ "v" := by rintro rfl; exact hadm.not_dv (by simp)
    have hv : (stdOf E S G.mw [("d", va), (b, vb)]).v = none := k3 "v" (by decide) hbv.symm
    unfold densityOf
    rw [hv]
    exact ⟨_, k1, by simp⟩
  · refine ⟨by simp [roleOf], fun _ => ?_, by simp [roleOf], by simp [roleOf]⟩
    have hv : (stdOf E S G.mw [("v", va), (b, vb)]).v = some _ := k1
    unfold densityOf
    rw [hv]
    exact ⟨_, rfl, by simp⟩
  · exact ⟨by simp [roleOf], by simp [roleOf], by simp [roleOf], fun _ => getT (by simp)⟩
  · exact ⟨by simp [roleOf], by simp [roleOf], by simp [roleOf], fun _ => getT (by simp)⟩
  · exact ⟨fun _ => ⟨_, k1, by simp⟩, by simp [roleOf], by simp [roleOf], by simp [roleOf]⟩

theorem stdOf_swap (E : Env) (S : Sys) (mw : ℝ) {a b : String} (va vb : Val ℝ) (hab : a ≠ b) :
    stdOf E S mw [(a, va), (b, vb)] = stdOf E S mw [(b, vb), (a, va)] := by
  have key : ∀ n, stdArg E S mw [(a, va), (b, vb)] n = stdArg E S mw [(b, vb), (a, va)] n := by
    intro n
    unfold stdArg
    rw [lookup_perm (List.Perm.swap _ _ _) (by simpa using hab)]
  simp only [stdOf, key]

/-- The number of rows is the common length of the two arguments. -/
theorem pair_fit {E : Env} {G : Gas} {S : Sys} {a b : String} {va vb : Val ℝ} {T : Option TArg} {st : State}
    (hadm : Admissible [a, b]) (hT : tempOf G (stdOf E S G.mw [(a, va), (b, vb)]) = .ok T)
    (h : solve E G (stdOf E S G.mw [(a, va), (b, vb)]) T = .ok st) :
    Fit st.T.length (Val.elems va).length (Val.elems vb).length := by
  have hab : a ≠ b := by simpa using hadm.distinct
  have two := two_of_admissible hadm hT
  obtain ⟨f1, f2, f3, f4, f5, f6⟩ := solve_fit two h
  have hadm' : Admissible [b, a] := (admissible_perm (List.Perm.swap _ _ _)).mpr hadm
  obtain ⟨a1, a2, a3, a4⟩ := role_len hadm hT
  have hT' : tempOf G (stdOf E S G.mw [(b, vb), (a, va)]) = .ok T := by
    rw [stdOf_swap E S G.mw vb va hab.symm]; exact hT
  obtain ⟨b1, b2, b3, b4⟩ := role_len hadm' hT'
  rw [stdOf_swap E S G.mw vb va hab.symm] at b1 b2 b3
  have hroles : roleOf a ≠ roleOf b := by
    have ka := hadm.known a (by simp)
    have kb := hadm.known b (by simp)
    have h1 := hadm.one_of_Teh a (by simp) b (by simp)
    have h2 := hadm.not_dv
    simp only [List.mem_cons, List.not_mem_nil, or_false] at ka kb
    rcases ka with rfl | rfl | rfl | rfl | rfl | rfl | rfl <;>
      rcases kb with rfl | rfl | rfl | rfl | rfl | rfl | rfl <;>
      first
        | (exact absurd rfl hab)
        | (simp [roleOf]; done)
        | (simp at h2; done)
        | (simp at h1; done)
  cases ha : roleOf a <;> cases hb : roleOf b
  · exact absurd (ha.trans hb.symm) hroles
  · obtain ⟨x, hx, lx⟩ := a1 ha
    obtain ⟨y, hy, ly⟩ := b2 hb
    rw [← lx, ← ly]; exact f1 _ _ hx hy
  · obtain ⟨x, hx, lx⟩ := a1 ha
    obtain ⟨y, hy, ly⟩ := b3 hb
    rw [← lx, ← ly]; exact f2 _ _ hx hy
  · obtain ⟨x, hx, lx⟩ := a1 ha
    obtain ⟨y, hy, ly⟩ := b4 hb
    rw [← lx, ← ly]; exact f3 _ _ hx hy
  · obtain ⟨x, hx, lx⟩ := a2 ha
    obtain ⟨y, hy, ly⟩ := b1 hb
    rw [← lx, ← ly]; exact (f1 _ _ hy hx).symm
  · exact absurd (ha.trans hb.symm) hroles
  · obtain ⟨x, hx, lx⟩ := a2 ha
    obtain ⟨y, hy, ly⟩ := b3 hb
    rw [← lx, ← ly]; exact (f6 _ _ hy hx).symm
  · obtain ⟨x, hx, lx⟩ := a2 ha
    obtain ⟨y, hy, ly⟩ := b4 hb
    rw [← lx, ← ly]; exact (f5 _ _ hy hx).symm
  · obtain ⟨x, hx, lx⟩ := a3 ha
    obtain ⟨y, hy, ly⟩ := b1 hb
    rw [← lx, ← ly]; exact (f2 _ _ hy hx).symm
  · obtain ⟨x, hx, lx⟩ := a3 ha
    obtain ⟨y, hy, ly⟩ := b2 hb
    rw [← lx, ← ly]; exact f6 _ _ hx hy
  · exact absurd (ha.trans hb.symm) hroles
  · obtain ⟨x, hx, lx⟩ := a3 ha
    obtain ⟨y, hy, ly⟩ := b4 hb
    rw [← lx, ← ly]; exact (f4 _ _ hy hx).symm
  · obtain ⟨x, hx, lx⟩ := a4 ha
    obtain ⟨y, hy, ly⟩ := b1 hb
    rw [← lx, ← ly]; exact (f3 _ _ hy hx).symm
  · obtain ⟨x, hx, lx⟩ := a4 ha
    obtain ⟨y, hy, ly⟩ := b2 hb
    rw [← lx, ← ly]; exact f5 _ _ hx hy
  · obtain ⟨x, hx, lx⟩ := a4 ha
    obtain ⟨y, hy, ly⟩ := b3 hb
    rw [← lx, ← ly]; exact f4 _ _ hx hy
  · exact absurd (ha.trans hb.symm) hroles

theorem nth_of_fit {α : Type} {xs : List α} {n i : Nat} (hi : i < n) (h : xs.length = n ∨ xs.length = 1) :
    ∃ x, nth xs i = some x := by
  match xs, h with
  | [x], _ => exact ⟨x, rfl⟩
  | [], h => rcases h with h | h <;> simp at h; omega
  | x :: y :: l, h =>
    rcases h with h | h
    · exact exists_of_lt (by omega)
    · simp at h

theorem std_has {E : Env} {S : Sys} {mw : ℝ} {a b : String} {va vb : Val ℝ} (hab : a ≠ b) {i : Nat} {x y : ℝ}
    (hx : nth (Val.elems va) i = some x) (hy : nth (Val.elems vb) i = some y) (n : String) :
    Has (stdArg E S mw [(a, va), (b, vb)] n) i := by
  intro A hA
  have k := stdArg_of E S mw va vb hab
  by_cases hna : n = a
  · subst hna; rw [k.1] at hA; cases hA; exact ⟨_, by rw [nth_map, hx]; rfl⟩
  · by_cases hnb : n = b
    · subst hnb; rw [k.2.1] at hA; cases hA; exact ⟨_, by rw [nth_map, hy]; rfl⟩
    · rw [k.2.2 n hna hnb] at hA; cases hA

/-- Row `i` before the range test is what the call on the `i`-th elements computes. -/
theorem pick_pre {E : Env} {G : Gas} {S : Sys} {a b : String} {va vb : Val ℝ} {st : State}
    (hadm : Admissible [a, b])
    (hone : ∀ vs vp, (a, va, b, vb) = ("s", vs, "p", vp) ∨ (a, va, b, vb) = ("p", vp, "s", vs) →
      (Val.elems vs).length ≠ 1 ∨ (Val.elems vp).length ≤ 1)
    (h : pre E G S [(a, va), (b, vb)] = .ok st) {i : Nat} (hi : i < st.T.length) :
    ∃ x y st' v, nth (Val.elems va) i = some x ∧ nth (Val.elems vb) i = some y ∧
      pre E G S [(a, .scalar x), (b, .scalar y)] = .ok st' ∧ st.T[i]? = some v ∧ st'.T = [v] ∧
      RowOf st.p st'.p i ∧ RowOf st.d st'.d i := by
  have hab : a ≠ b := by simpa using hadm.distinct
  unfold pre at h
  obtain ⟨T, hT, h⟩ := bind_ok h
  have two := two_of_admissible hadm hT
  obtain ⟨n, hS⟩ := solve_ok two h
  obtain ⟨-, fa, fb⟩ := pair_fit hadm hT h
  obtain ⟨x, hx⟩ := nth_of_fit hi fa
  obtain ⟨y, hy⟩ := nth_of_fit hi fb
  have has := std_has (E := E) (S := S) (mw := G.mw) hab hx hy
  obtain ⟨T', hT', hP⟩ := pick_temp (i := i) (has "e") (has "h") (has "T") hT
  have hD : Has (densityOf (stdOf E S G.mw [(a, va), (b, vb)])) i := by
    unfold densityOf
    intro A hA
    cases hv : (stdOf E S G.mw [(a, va), (b, vb)]).v with
    | none => rw [hv] at hA; exact has "d" A hA
    | some w =>
      rw [hv] at hA
      simp only [Option.some.injEq] at hA
      subst hA
      obtain ⟨z, hz⟩ := has "v" w hv
      exact ⟨_, by rw [nth_map, hz]; rfl⟩
  obtain ⟨st', v, e1, e2, e3, e4, e5⟩ := pick_solve (T' := T') hS two (by rw [← hS.lenT]; exact hi)
    (has "s") (has "p") hD (has "v") hP (by
      intro s P hs hp
      have k := stdArg_of E S G.mw va vb hab
      have hs' : stdArg E S G.mw [(a, va), (b, vb)] "s" = some s := hs
      have hp' : stdArg E S G.mw [(a, va), (b, vb)] "p" = some P := hp
      by_cases h1 : "s" = a
      · by_cases h2 : "p" = b
        · subst h1 h2
          rw [k.1] at hs'; rw [k.2.1] at hp'
          cases hs'; cases hp'
          simpa using hone va vb (Or.inl rfl)
        · rw [k.2.2 "p" (by rw [← h1]; decide) h2] at hp'; cases hp'
      · by_cases h2 : "s" = b
        · by_cases h3 : "p" = a
          · subst h2 h3
            rw [k.2.1] at hs'; rw [k.1] at hp'
            cases hs'; cases hp'
            simpa using hone vb va (Or.inr rfl)
          · rw [k.2.2 "p" h3 (by rw [← h2]; decide)] at hp'; cases hp'
        · rw [k.2.2 "s" h1 h2] at hs'; cases hs')
  refine ⟨x, y, st', v, hx, hy, ?_, e2, e3, e4, e5⟩
  unfold pre
  rw [pick_std E S G.mw hab hx hy, hT', exOk]
  exact e1

/-- Where the returned pressures and densities come from. -/
theorem solve_pd {E : Env} {G : Gas} {k : Std} {T : Option TArg} {st : State}
    (h : solve E G k T = .ok st) :
    (st.p.isSome = true → k.p.isSome = true ∨ (k.s.isSome = true ∧ T.isSome = true)) ∧
    (st.d.isSome = true → (densityOf k).isSome = true) := by
  unfold solve at h
  dsimp only at h
  cases hs : k.s with
  | some s =>
    rw [hs] at h
    cases hd : densityOf k with
    | some d =>
      rw [hd] at h
      obtain ⟨⟨sb, db⟩, -, h⟩ := bind_ok h
      obtain ⟨r, -, h⟩ := bind_ok h
      cases h; simp
    | none =>
      rw [hd] at h
      cases hp : k.p with
      | some p =>
        rw [hp] at h
        obtain ⟨⟨sb, db⟩, -, h⟩ := bind_ok h
        obtain ⟨r, -, h⟩ := bind_ok h
        obtain ⟨r, -, h⟩ := bind_ok h
        cases h; simp
      | none =>
        rw [hp] at h
        cases T with
        | none => cases h
        | some t =>
          obtain ⟨⟨sb, db⟩, -, h⟩ := bind_ok h
          cases h; simp
  | none =>
    rw [hs] at h
    cases T with
    | some t =>
      cases hp : k.p with
      | some p =>
        rw [hp] at h
        obtain ⟨⟨sb, db⟩, -, h⟩ := bind_ok h
        cases h; simp
      | none =>
        rw [hp] at h
        cases hd : densityOf k with
        | none => rw [hd] at h; cases h
        | some d =>
          rw [hd] at h
          obtain ⟨⟨sb, db⟩, -, h⟩ := bind_ok h
          cases h; simp
    | none =>
      cases hp : k.p with
      | none => rw [hp] at h; cases h
      | some p =>
        rw [hp] at h
        cases hd : densityOf k with
        | none => rw [hd] at h; cases h
        | some d =>
          rw [hd] at h
          obtain ⟨⟨sb, db⟩, -, h⟩ := bind_ok h
          cases h; simp

theorem range_scalar {G : Gas} {st : State} {v : Nan} (h : st.T = [v]) :
    rangeTest G st = if oob G v then .error .param else .ok st := by
  unfold rangeTest
  rw [h]
  cases hv : oob G v <;> simp [hv]

theorem supplies_scalar {varg : List (Val ℝ)} {kw : Kw} {a b : String} {va vb : Val ℝ}
    (h : Supplies varg kw a va b vb) (x y : ℝ) :
    Supplies [] [(a, .scalar x), (b, .scalar y)] a (.scalar x) b (.scalar y) :=
  ⟨by simp, by simp [supplied], h.ok⟩

theorem argparse_range {E : Env} {S : Sys} (hU : Uses E S) {G : Gas} (hmw : G.mw ≠ 0)
    {varg : List (Val ℝ)} {kw : Kw} {a b : String} {va vb : Val ℝ}
    (h : Supplies varg kw a va b vb) {st : State} (hst : argparse E G varg kw = .ok st) :
    ∃ st0, pre E G S [(a, va), (b, vb)] = .ok st0 ∧
      st.T = st0.T.map (fun T => if oob G T then none else T) ∧ st.p = st0.p ∧ st.d = st0.d ∧
      ¬ st0.T.all (oob G) = true := by
  rw [argparse_pair hU hmw h] at hst
  obtain ⟨st0, h1, h2⟩ := bind_ok hst
  refine ⟨st0, h1, ?_⟩
  unfold rangeTest at h2
  split at h2
  · cases h2
  · rename_i hall
    split at h2
    · cases h2; exact ⟨rfl, rfl, rfl, hall⟩
    · rename_i hany
      cases h2
      refine ⟨?_, rfl, rfl, hall⟩
      rw [List.map_congr_left (g := id)]
      · simp
      · intro T hT
        have : oob G T = false := by
          simp only [List.any_eq_true, not_exists, not_and, Bool.not_eq_true] at hany
          exact hany T hT
        simp [this]

/-- The property asked for is one of those given, possibly as its reciprocal. -/
def Echo (a b : String) : Quantity → Prop
  | .p => "p" = a ∨ "p" = b
  | .d | .v => "d" = a ∨ "d" = b ∨ "v" = a ∨ "v" = b
  | _ => False

/-- Nothing is known of the gas outside its limits (true of `ig` and `ig2` objects). -/
def Bounded (G : Gas) : Prop := ∀ T, T < G.Tlo ∨ G.Thi < T → G.s T = none

theorem bounded_ig (D : Data) (hw : WellFormed D) : Bounded (ig D) :=
  fun T h => (C33_evaluation D hw T).2 h _ (fun c T => (Sho.s c T, Sho.sT c T))

theorem bounded_ig2 (D : Data) (hw : WellFormed D) : Bounded (ig2 D) :=
  fun T h => (C33_evaluation D hw T).2 h _ (fun c T => (Nasa.s c T, Nasa.sT c T))

/-- C34, elementwise.  A call with arrays returns at each element what the same call on the two
numbers at that element returns; where that call on numbers raises because the temperature is
outside the limits, the temperature is the out-of-bounds value (NaN) and so is every property
other than the ones given.  (Excepted: one entropy with several pressures, see
`C30_shared_entropy_defect`.) -/
theorem C34_elementwise (E : Env) (S : Sys) (hU : Uses E S) (G : Gas) (hmw : G.mw ≠ 0) (hB : Bounded G)
    (varg : List (Val ℝ)) (kw : Kw) (a b : String) (va vb : Val ℝ)
    (h : Supplies varg kw a va b vb)
    (hone : ∀ vs vp, (a, va, b, vb) = ("s", vs, "p", vp) ∨ (a, va, b, vb) = ("p", vp, "s", vs) →
      (Val.elems vs).length ≠ 1 ∨ (Val.elems vp).length ≤ 1)
    (q : Quantity) (xs : List Nan) (hx : method q E G varg kw = .ok xs) (i : Nat) (hi : i < xs.length) :
    ∃ x y v, nth (Val.elems va) i = some x ∧ nth (Val.elems vb) i = some y ∧ xs[i]? = some v ∧
      (method q E G [] [(a, .scalar x), (b, .scalar y)] = .ok [v] ∨
       (method q E G [] [(a, .scalar x), (b, .scalar y)] = .error .param ∧
        (∃ ts, mT E G varg kw = .ok ts ∧ ts[i]? = some none) ∧ (v = none ∨ Echo a b q))) := by
  obtain ⟨st, hst, hg, hl, hr⟩ := method_result hU hmw h hx
  obtain ⟨st0, h0, e1, e2, e3, -⟩ := argparse_range hU hmw h hst
  have hi0 : i < st0.T.length := by rw [e1, List.length_map] at hl; omega
  obtain ⟨x, y, st', t, hxe, hye, hpre, ht, hT', hp', hd'⟩ := pick_pre h.ok hone h0 hi0
  obtain ⟨T, p, d, hrow⟩ := hg.exists_row (i := i) (by omega)
  have hv := hr i T p d hrow
  have hs := supplies_scalar h x y
  have hTi : T = if oob G t then none else t := by
    have := hrow.1
    rw [e1, List.getElem?_map, ht] at this
    simpa using this.symm
  have hps : argparse E G [] [(a, .scalar x), (b, .scalar y)] = if oob G t then .error .param else .ok st' := by
    rw [argparse_pair hU hmw hs, hpre, exOk, range_scalar hT']
  refine ⟨x, y, _, hxe, hye, hv, ?_⟩
  by_cases ho : oob G t = true
  · right
    rw [if_pos ho] at hps hTi
    refine ⟨method_error hU hmw (by simp) hps q, ?_, ?_⟩
    · obtain ⟨ts, ht1, -, ht3⟩ := method_rows hU hmw (by rw [supplies_count h]; decide) hst hg .T
      refine ⟨ts, ht1, ?_⟩
      rw [ht3 i T p d hrow, hTi]; rfl
    · obtain ⟨t0, rfl⟩ : ∃ t0, t = some t0 := by
        cases t with
        | none => simp [oob] at ho
        | some t => exact ⟨t, rfl⟩
      have hout : t0 < G.Tlo ∨ G.Thi < t0 := by simpa [oob] using ho
      subst hTi
      -- the state before the range test
      unfold pre at h0
      obtain ⟨Ta, hTa, h0⟩ := bind_ok h0
      have two := two_of_admissible h.ok hTa
      obtain ⟨n, hS⟩ := solve_ok two h0
      obtain ⟨pr1, pr2⟩ := solve_pd h0
      obtain ⟨q1, q2, q3, q4⟩ := presence hTa
      have hd0 : ¬ ("d" = a ∨ "d" = b ∨ "v" = a ∨ "v" = b) → d = none := by
        intro hne
        have hsd : st.d = none := by
          cases hsd : st.d with
          | none => rfl
          | some ds =>
            exfalso
            have := pr2 (by rw [← e3, hsd]; rfl)
            rw [q2] at this
            simp only [Bool.or_eq_true, beq_iff_eq] at this
            exact hne (by rcases this with ((rfl | rfl) | rfl) | rfl <;> simp)
        obtain ⟨-, -, ⟨ds, hds, hdi⟩⟩ := hrow
        unfold State.density at hds
        rw [hsd] at hds
        cases hsp : st.p with
        | none => rw [hsp] at hds; cases hds
        | some ps =>
          rw [hsp] at hds
          simp only [Except.ok.injEq] at hds
          subst hds
          rw [List.getElem?_zipWith] at hdi
          cases h1 : ps[i]? with
          | none => rw [h1] at hdi; simp at hdi
          | some p1 =>
            have h2 : st.T[i]? = some none := by rw [e1, List.getElem?_map, ht]; simp [ho]
            rw [h1, h2] at hdi
            simp only [Option.some.injEq] at hdi
            rw [← hdi]
            cases p1 <;> rfl
      have hp0 : ¬ ("p" = a ∨ "p" = b) → p = none := by
        intro hne
        obtain ⟨-, ⟨ps, hps', hpi⟩, -⟩ := hrow
        unfold State.pressure at hps'
        cases hsp : st.p with
        | none =>
          rw [hsp] at hps'
          cases hsd : st.d with
          | none => rw [hsd] at hps'; cases hps'
          | some ds =>
            rw [hsd] at hps'
            simp only [Except.ok.injEq] at hps'
            subst hps'
            rw [List.getElem?_zipWith] at hpi
            cases h1 : ds[i]? with
            | none => rw [h1] at hpi; simp at hpi
            | some p1 =>
              have h2 : st.T[i]? = some none := by rw [e1, List.getElem?_map, ht]; simp [ho]
              rw [h1, h2] at hpi
              simp only [Option.some.injEq] at hpi
              rw [← hpi]
              cases p1 <;> rfl
        | some ps0 =>
          rw [hsp] at hps'
          simp only [Except.ok.injEq] at hps'
          subst hps'
          rcases pr1 (by rw [← e2, hsp]; rfl) with h1 | ⟨h1, h2⟩
          · exfalso
            rw [q3] at h1
            simp only [Bool.or_eq_true, beq_iff_eq] at h1
            exact hne (by rcases h1 with rfl | rfl <;> simp)
          · obtain ⟨sa, hsa⟩ := Option.isSome_iff_exists.mp h1
            obtain ⟨ta, hta⟩ := Option.isSome_iff_exists.mp h2
            have hin : i < n := by rw [← hS.lenT]; exact hi0
            obtain ⟨ps, hps1, hps2⟩ := hS.sT _ _ hsa hta
            obtain ⟨xx, yy, -, hyy, hpp⟩ := hps2 i hin
            obtain ⟨zz, hzz, hT0⟩ := hS.T _ hta i hin
            rw [hyy] at hzz; cases hzz
            rw [ht] at hT0; cases hT0
            rw [← e2, hsp] at hps1; cases hps1
            rw [hpi] at hpp
            simp only [Option.bind_some, hB t0 hout, Option.map_none, Option.some.injEq] at hpp
            exact hpp
      cases q
      case p =>
        by_cases he : "p" = a ∨ "p" = b
        · exact Or.inr he
        · left; rw [hp0 he]; rfl
      case d =>
        by_cases he : "d" = a ∨ "d" = b ∨ "v" = a ∨ "v" = b
        · exact Or.inr he
        · left; rw [hd0 he]; rfl
      case v =>
        by_cases he : "d" = a ∨ "d" = b ∨ "v" = a ∨ "v" = b
        · exact Or.inr he
        · left; rw [hd0 he]; rfl
      all_goals exact Or.inl rfl
  · left
    rw [if_neg ho] at hps hTi
    subst hTi
    have hgs := good_of_pair hU hmw hs hps
    obtain ⟨ys, hy1, hy2, hy3⟩ := method_rows hU hmw (by simp) hps hgs q
    have hrow' : Row st' 0 T p d := by
      have hpn : st'.p = none ↔ st.p = none := by
        rw [e2]
        rcases hp' with ⟨r1, r2⟩ | ⟨l, v, r1, -, r2⟩ <;> simp [r1, r2]
      obtain ⟨-, ⟨ps, hps1, hpi⟩, ⟨ds, hds1, hdi⟩⟩ := hrow
      have htst : st.T[i]? = some T := by rw [e1, List.getElem?_map, ht]; simp [ho]
      refine ⟨by rw [hT']; rfl, ?_, ?_⟩
      · unfold State.pressure at hps1 ⊢
        rw [e2, e3] at hps1
        rcases hp' with ⟨r1, r2⟩ | ⟨l, v, r1, r3, r2⟩
        · rcases hd' with ⟨w1, w2⟩ | ⟨l', v', w1, w3, w2⟩
          · rw [r1, w1] at hps1; cases hps1
          · rw [r1, w1] at hps1
            simp only [Except.ok.injEq] at hps1
            subst hps1
            rw [List.getElem?_zipWith, w3, htst] at hpi
            simp only [Option.some.injEq] at hpi
            rw [r2, w2, hT']
            exact ⟨_, rfl, by simp [hpi]⟩
        · rw [r1] at hps1
          simp only [Except.ok.injEq] at hps1
          subst hps1
          rw [r3] at hpi; cases hpi
          rw [r2]
          exact ⟨_, rfl, rfl⟩
      · unfold State.density at hds1 ⊢
        rw [e2, e3] at hds1
        rcases hd' with ⟨w1, w2⟩ | ⟨l', v', w1, w3, w2⟩
        · rcases hp' with ⟨r1, r2⟩ | ⟨l, v, r1, r3, r2⟩
          · rw [r1, w1] at hds1; cases hds1
          · rw [r1, w1] at hds1
            simp only [Except.ok.injEq] at hds1
            subst hds1
            rw [List.getElem?_zipWith, r3, htst] at hdi
            simp only [Option.some.injEq] at hdi
            rw [r2, w2, hT']
            exact ⟨_, rfl, by simp [hdi]⟩
        · rw [w1] at hds1
          simp only [Except.ok.injEq] at hds1
          subst hds1
          rw [w3] at hdi; cases hdi
          rw [w2]
          exact ⟨_, rfl, rfl⟩
    have := hy3 0 _ _ _ hrow'
    rw [hT', List.length_singleton] at hy2
    rw [hy1]
    match ys, hy2, this with
    | [z], _, hz =>
      simp only [List.getElem?_cons_zero, Option.some.injEq] at hz
      rw [hz]

/-- C34, when a call raises.  A call with arrays that returns has an element whose own call
returns; a call refused with a parameter error is one whose elements are all refused with it. -/
theorem C34_all_out (E : Env) (S : Sys) (hU : Uses E S) (G : Gas) (hmw : G.mw ≠ 0)
    (varg : List (Val ℝ)) (kw : Kw) (a b : String) (va vb : Val ℝ)
    (h : Supplies varg kw a va b vb)
    (hone : ∀ vs vp, (a, va, b, vb) = ("s", vs, "p", vp) ∨ (a, va, b, vb) = ("p", vp, "s", vs) →
      (Val.elems vs).length ≠ 1 ∨ (Val.elems vp).length ≤ 1) (q : Quantity) :
    (∀ xs, method q E G varg kw = .ok xs → ∃ (i : Nat) (x y : ℝ), i < xs.length ∧
      nth (Val.elems va) i = some x ∧ nth (Val.elems vb) i = some y ∧
      ∃ w, method q E G [] [(a, .scalar x), (b, .scalar y)] = .ok [w]) ∧
    (method q E G varg kw = .error .param → ∀ (i : Nat) (x y : ℝ),
      (i < (Val.elems va).length ∨ i < (Val.elems vb).length) →
      nth (Val.elems va) i = some x → nth (Val.elems vb) i = some y →
      method q E G [] [(a, .scalar x), (b, .scalar y)] = .error .param) := by
  constructor
  · intro xs hx
    obtain ⟨st, hst, hg, hl, -⟩ := method_result hU hmw h hx
    obtain ⟨st0, h0, e1, -, -, hall⟩ := argparse_range hU hmw h hst
    simp only [List.all_eq_true, not_forall, Bool.not_eq_true] at hall
    obtain ⟨t, ht, ho⟩ := hall
    obtain ⟨i, hi, hti⟩ := List.getElem_of_mem ht
    obtain ⟨x, y, st', t', hxe, hye, hpre, ht', hT', -, -⟩ := pick_pre h.ok hone h0 hi
    rw [List.getElem?_eq_getElem hi, hti] at ht'
    cases ht'
    have hs := supplies_scalar h x y
    have hps : argparse E G [] [(a, .scalar x), (b, .scalar y)] = .ok st' := by
      rw [argparse_pair hU hmw hs, hpre, exOk, range_scalar hT', ho]; rfl
    obtain ⟨ys, hy1, hy2, -⟩ := method_rows hU hmw (by simp) hps (good_of_pair hU hmw hs hps) q
    rw [hT', List.length_singleton] at hy2
    refine ⟨i, x, y, ?_, hxe, hye, ?_⟩
    · rw [hl, e1, List.length_map]; exact hi
    · match ys, hy2, hy1 with
      | [w], _, hw => exact ⟨w, hw⟩
  · intro he i x y hlt hx hy
    have hc : varg.length + kw.length ≠ 1 := by rw [supplies_count h]; decide
    have hs := supplies_scalar h x y
    cases hst : argparse E G varg kw with
    | ok st =>
      obtain ⟨ys, hy1, -⟩ := method_rows hU hmw hc hst (good_of_pair hU hmw h hst) q
      rw [hy1] at he; cases he
    | error e =>
      rw [method_error hU hmw hc hst q] at he
      cases he
      rw [argparse_pair hU hmw h] at hst
      cases h0 : pre E G S [(a, va), (b, vb)] with
      | error e =>
        rw [h0, exErr] at hst
        cases hst
        rcases pre_error h.ok h0 with h1 | h1 <;> cases h1
      | ok st0 =>
        rw [h0, exOk] at hst
        have hall : st0.T.all (oob G) = true := by
          unfold rangeTest at hst
          split at hst
          · assumption
          · split at hst <;> cases hst
        have hi : i < st0.T.length := by
          have h0' := h0
          unfold pre at h0'
          obtain ⟨T, hT, h1⟩ := bind_ok h0'
          obtain ⟨fn, fa, fb⟩ := pair_fit h.ok hT h1
          have na : (Val.elems va).length ≠ 0 := by
            intro h0; rw [List.length_eq_zero_iff] at h0; rw [h0] at hx; simp [nth] at hx
          have nb : (Val.elems vb).length ≠ 0 := by
            intro h0; rw [List.length_eq_zero_iff] at h0; rw [h0] at hy; simp [nth] at hy
          omega
        obtain ⟨x', y', st', t, hxe, hye, hpre, ht, hT', -, -⟩ := pick_pre h.ok hone h0 hi
        rw [hx] at hxe; cases hxe
        rw [hy] at hye; cases hye
        have ho : oob G t = true := by
          rw [List.all_eq_true] at hall
          exact hall t (List.mem_of_getElem? ht)
        refine method_error hU hmw (by simp) ?_ q
        rw [argparse_pair hU hmw hs, hpre, exOk, range_scalar hT', ho]
        rfl

end PyroMat.Gas.Props
