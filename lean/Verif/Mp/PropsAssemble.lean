import Verif.Mp.PropsArray

/-!
# C80: an array call returns if the calls with its elements do
-/

set_option linter.unusedSimpArgs false

namespace PyroMat.Mp.Spec

open PyroMat PyroMat.Units PyroMat.Gas PyroMat.Gas.Spec PyroMat.Mp

/-- An argument of the call for element `i` alone: a single number.  An array of one number, like a single
number, serves every element. -/
def entry (i : Nat) : Val ℝ → Val ℝ
  | .scalar x => .scalar x
  | .arr [x] => .scalar x
  | .arr xs => .scalar (xs.getD i 0)

/-- The keyword arguments of the call for element `i` alone. -/
def entryKw (i : Nat) (kw : Kw) : Kw := kw.map (fun q => (q.1, entry i q.2))

/-- The call is for `n` states: every argument is an array of `n` numbers, an array of one or a single
number, and some argument does have `n` of them. -/
structure Size (varg : List (Val ℝ)) (kw : Kw) (n : Nat) : Prop where
  pos : 0 < n
  all : ∀ q ∈ supplied varg kw, (Val.elems q.2).length = n ∨ (Val.elems q.2).length = 1
  some : n = 1 ∨ ∃ q ∈ supplied varg kw, (Val.elems q.2).length = n

end PyroMat.Mp.Spec

namespace PyroMat.Mp.Props

open PyroMat PyroMat.Units PyroMat.Units.Spec PyroMat.Units.Props PyroMat.Gas PyroMat.Gas.Spec
open PyroMat.Gas.Props PyroMat.Mp PyroMat.Mp.Spec PyroMat.Config.Defaults

/-! ## The inversions -/

/-- An inversion of an array returns if it returns for each selected element alone. -/
structure Assembles (B : Sub) (S : Sol) : Prop where
  Ts : ∀ l, (∀ p, some p ∈ l → ∃ f, S.Ts [some p] = .ok f) → ∃ f, S.Ts l = .ok f
  d : ∀ l, (∀ e, some e ∈ l → ∃ f, S.d [some e] = .ok f) → ∃ f, S.d l = .ok f
  Tdp : ∀ l, (∀ d p t, some (d, p, t) ∈ l → ∃ t' f, S.Tdp [some (d, p, t')] = .ok f ∧ (belowPc B p = true → t = t')) →
    ∃ f, S.Tdp l = .ok f
  Thp : ∀ k l, (∀ y p t, some (y, p, t) ∈ l → ∃ t' f, S.Thp k [some (y, p, t')] = .ok f ∧ (betweenP B p = true → t = t')) →
    ∃ f, S.Thp k l = .ok f
  Thd : ∀ k l, (∀ e ∈ l, ∃ f, S.Thd k [e] = .ok f) → ∃ f, S.Thd k l = .ok f
  dhT : ∀ k l, (∀ e, some e ∈ l → ∃ f, S.dhT k [some e] = .ok f) → ∃ f, S.dhT k l = .ok f

theorem ok_map {α β : Type} {x : Except Err (α × β)} (h : ∃ r, x = .ok r) : ∃ f, x.map (·.1) = .ok f := by
  obtain ⟨r, rfl⟩ := h
  exact ⟨_, rfl⟩

theorem hybrid1_single {ep : ℝ} {N : Nat} {e : HIn} {r} (h : hybrid1 ep N [e] = .ok r) (he : e.ids = true) :
    ¬ unbracketed e.P e.xmin e.xmax := by
  intro hc
  unfold hybrid1 at h
  rw [if_pos ⟨by simp [he], by simpa using fun _ => hc⟩] at h
  cases h

theorem runHybrid_assembles {N : Nat} {l : List HIn} (h : ∀ e ∈ l, e.ids = true → ∃ r, runHybrid N [e] = .ok r) :
    ∃ r, runHybrid N l = .ok r := by
  unfold runHybrid hybrid1
  rw [if_neg]
  · exact ⟨_, rfl⟩
  · rintro ⟨h1, h2⟩
    obtain ⟨e, he, hs⟩ := List.any_eq_true.mp h1
    obtain ⟨r, hr⟩ := h e he hs
    unfold runHybrid at hr
    obtain ⟨r', hr', -⟩ := bind_ok hr
    exact hybrid1_single hr' hs (h2 e he hs)

theorem codeTs_assembles {B : Sub} (l : List (Option Nan)) (h : ∀ p, some p ∈ l → ∃ r, codeTs B [some p] = .ok r) :
    ∃ r, codeTs B l = .ok r := by
  have key : ∀ e ∈ l, ∃ o, single 1e-6 (B.Tt * 0.99) B.Tc 20 20 (tsEl B e) = .ok o := by
    intro e he
    cases e with
    | none => exact ⟨_, single_inact rfl⟩
    | some p =>
      obtain ⟨⟨f, w⟩, hr⟩ := h p he
      obtain ⟨o, ho, -⟩ := codeTs_elem hr (i := 0) (e := some p) rfl
      exact ⟨o, ho⟩
  unfold codeTs
  rw [iterLoop_eq]
  have : ∃ rs, (l.map (tsEl B)).mapM (single 1e-6 (B.Tt * 0.99) B.Tc 20 20) = .ok rs := by
    clear h
    induction l with
    | nil => exact ⟨[], rfl⟩
    | cons a l ih =>
      obtain ⟨o, ho⟩ := key a (by simp)
      obtain ⟨rs, hrs⟩ := ih (fun e he => key e (by simp [he]))
      refine ⟨o :: rs, ?_⟩
      rw [List.map_cons, List.mapM_cons, ho, exOk, hrs, exOk]
      rfl
  obtain ⟨rs, hrs⟩ := this
  rw [hrs]
  exact ⟨_, rfl⟩

theorem codeD_assembles {B : Sub} (l : List (Option (Nan × Nan))) (h : ∀ e, some e ∈ l → ∃ r, codeD B [some e] = .ok r) :
    ∃ r, codeD B l = .ok r := by
  apply runHybrid_assembles
  intro e he hs
  obtain ⟨o, ho, rfl⟩ := List.mem_map.mp he
  cases o with
  | none => cases hs
  | some q => exact h q ho

theorem tdpIn_same {B : Sub} {d : ℝ} {p t t' : Nan} (ht : belowPc B p = true → t = t') :
    tdpIn B (some (d, p, t)) = tdpIn B (some (d, p, t')) := by
  cases p with
  | none => rfl
  | some p =>
    by_cases hc : p ≥ B.pc
    · simp [tdpIn, tdpLimits, hc]
    · rw [ht (by simp [belowPc]; linarith)]

/-! ### The solver on a routine that may raise -/

section
variable {B : Sub} {f : ℝ → ℝ → Q3}

/-- The routine of `_tpiter`. -/
noncomputable abbrev tpF (B : Sub) (f : ℝ → ℝ → Q3) (ps : List (Option Nan)) : Batch :=
  tpiter (fun q => (codeD B q).map (·.1)) B f ps

theorem tpiter_ask {p : Nan} {T : Option Nan} {v} (h : tpF B f [some p] [T] = .ok v) :
    ∃ r, codeD B [T.bind (fun T => some (T, p))] = .ok r := by
  unfold tpF tpiter at h
  obtain ⟨d, hd, -⟩ := bind_ok h
  obtain ⟨w, hw⟩ := ex_map_fst hd
  exact ⟨_, hw⟩

theorem tpiter_assembles {ps : List (Option Nan)} {T : List (Option Nan)}
    (h : ∀ (i : Nat) p t, ps[i]? = some (some p) → T[i]? = some (some t) → ∃ v, tpF B f [some p] [some t] = .ok v) :
    ∃ v, tpF B f ps T = .ok v := by
  unfold tpF tpiter
  obtain ⟨r, hr⟩ := codeD_assembles (B := B)
    (List.zipWith (fun T p => T.bind (fun T => p.map (fun p => (T, p)))) T ps) (by
      intro e he
      obtain ⟨i, hi⟩ := List.mem_iff_getElem?.mp he
      rw [List.getElem?_zipWith] at hi
      cases hT : T[i]? with
      | none => rw [hT] at hi; cases hi
      | some t =>
        cases hp : ps[i]? with
        | none => rw [hT, hp] at hi; cases hi
        | some p =>
          rw [hT, hp] at hi
          cases t with
          | none => simp at hi
          | some t =>
            cases p with
            | none => simp at hi
            | some p =>
              simp only [Option.bind_some, Option.map_some, Option.some.injEq] at hi
              subst hi
              obtain ⟨v, hv⟩ := h i p t hp hT
              exact tpiter_ask hv)
  dsimp only
  rw [hr]
  exact ⟨_, rfl⟩

theorem tpF_same {ps T : List (Option Nan)} {v v1 : Nat → Nan × Nan} {i : Nat} {p t : Nan} (h : tpF B f ps T = .ok v)
    (h1 : tpF B f [some p] [some t] = .ok v1) (hp : ps[i]? = some (some p)) (ht : T[i]? = some (some t)) : v i = v1 0 := by
  cases t with
  | some x =>
    rw [tpiter_only hp T v h x ht, tpiter_only (i := 0) (p := p) rfl _ v1 h1 x rfl]
  | none =>
    unfold tpF tpiter at h h1
    obtain ⟨d, hd, h⟩ := bind_ok h
    obtain ⟨d', hd', h'⟩ := bind_ok h1
    cases h; cases h'
    simp [ht, tpSlope]

theorem hloopB_assembles {ep : ℝ} {ps : List (Option Nan)} : ∀ (n : Nat) (l : List (ℝ × HSt)),
    (∀ (i : Nat) y s, l[i]? = some (y, s) → s.active = false ∨
      ∃ p, ps[i]? = some (some p) ∧ ∃ r, hloopB (tpF B f [some p]) ep n [(y, s)] = .ok r) →
    ∃ r, hloopB (tpF B f ps) ep n l = .ok r := by
  intro n
  induction n with
  | zero => intro l h; exact ⟨_, rfl⟩
  | succ n ih =>
    intro l h
    unfold hloopB
    split
    swap
    · exact ⟨_, rfl⟩
    have one : ∀ (i : Nat) y s, l[i]? = some (y, s) → s.active = true → ∃ p v, ps[i]? = some (some p) ∧
        tpF B f [some p] [askB s] = .ok v ∧ ∃ r, hloopB (tpF B f [some p]) ep n [(y, hstepB y ep s (v 0))] = .ok r := by
      intro i y s hl hs
      rcases h i y s hl with hc | ⟨p, hp, r, hr⟩
      · rw [hc] at hs; cases hs
      unfold hloopB at hr
      rw [if_pos (by simp [hs])] at hr
      obtain ⟨v, hv, hr⟩ := bind_ok hr
      exact ⟨p, v, hp, hv, r, hr⟩
    have act : ∀ {s : HSt} {t}, askB s = some t → s.active = true := by
      intro s t ha
      by_contra hs
      simp [askB, hs] at ha
    obtain ⟨v, hv⟩ := tpiter_assembles (B := B) (f := f) (ps := ps) (T := l.map (fun e => askB e.2)) (by
      intro i p t hp ht
      rw [List.getElem?_map, Option.map_eq_some_iff] at ht
      obtain ⟨⟨y, s⟩, hl, ha⟩ := ht
      obtain ⟨p', v, hp', hv, -⟩ := one i y s hl (act ha)
      rw [hp] at hp'
      cases hp'
      rw [ha] at hv
      exact ⟨v, hv⟩)
    rw [hv, exOk]
    apply ih
    intro i y s' hl'
    rw [List.getElem?_mapIdx, Option.map_eq_some_iff] at hl'
    obtain ⟨⟨y', s⟩, hl, he⟩ := hl'
    obtain ⟨rfl, rfl⟩ := Prod.mk.inj he
    dsimp only at *
    cases ha : askB s with
    | none =>
      left
      have hs : s.active = false := by
        by_contra hs
        simp [askB, hs] at ha
      simp only [hstepB, ha, hs]
    | some t =>
      right
      obtain ⟨p, v1, hp, hv1, r, hr⟩ := one i _ s hl (act ha)
      refine ⟨p, hp, r, ?_⟩
      rw [ha] at hv1
      rw [tpF_same hv hv1 hp (by rw [List.getElem?_map, hl, Option.map_some, ha])]
      exact hr

end

theorem codeThp_assembles {B : Sub} {k : Mp.Inv} (l : List (Option (ℝ × Nan × Nan)))
    (h : ∀ y p t, some (y, p, t) ∈ l → ∃ t' r, codeThp (fun q => (codeD B q).map (·.1)) B k [some (y, p, t')] = .ok r ∧
      (betweenP B p = true → t = t')) :
    ∃ r, codeThp (fun q => (codeD B q).map (·.1)) B k l = .ok r := by
  -- the run of one element
  have one : ∀ (i : Nat) y p t, l[i]? = some (some (y, p, t)) → ∃ a b,
      tpF B (B.invQ k) [some p] [some (thpLimits B k y p t).1] = .ok a ∧
      tpF B (B.invQ k) [some p] [some (thpLimits B k y p t).2] = .ok b ∧
      unbracketedB (thpIn B k (some (y, p, t))) (a 0) (b 0) = false ∧
      ∃ r, hloopB (tpF B (B.invQ k) [some p]) 1e-6 51 [(y, hinitB (thpIn B k (some (y, p, t))) (a 0) (b 0))] = .ok r := by
    intro i y p t hi
    obtain ⟨t', r, hr, ht⟩ := h y p t (List.mem_of_getElem? hi)
    have e : thpIn B k (some (y, p, t)) = thpIn B k (some (y, p, t')) := by
      unfold thpIn thpLimits
      by_cases hb : betweenP B p = true
      · rw [ht hb]
      · simp [hb]
    have e1 : (thpLimits B k y p t).1 = (thpLimits B k y p t').1 := congrArg BIn.xmin e
    have e2 : (thpLimits B k y p t).2 = (thpLimits B k y p t').2 := congrArg BIn.xmax e
    unfold codeThp hybridB at hr
    obtain ⟨a, ha, hr⟩ := bind_ok hr
    obtain ⟨b, hb, hr⟩ := bind_ok hr
    split at hr
    · cases hr
    rename_i hc
    obtain ⟨r', hr', hr⟩ := bind_ok hr
    refine ⟨a, b, ?_, ?_, ?_, r', ?_⟩
    · rw [e1]; exact ha
    · rw [e2]; exact hb
    · rw [e]
      simpa [thpIn] using hc
    · rw [e]; exact hr'
  have off : ∀ (i : Nat) e, l[i]? = some e → (thpIn B k e).ids = true → ∃ y p t, e = some (y, p, t) := by
    intro i e hi he
    cases e with
    | none => cases he
    | some e => exact ⟨_, _, _, rfl⟩
  unfold codeThp hybridB
  have ask : ∀ pr : BIn → Nan, (∀ (i : Nat) y p t, l[i]? = some (some (y, p, t)) →
      ∃ a, tpF B (B.invQ k) [some p] [some (pr (thpIn B k (some (y, p, t))))] = .ok a) →
      ∃ a, tpF B (B.invQ k) (l.map (Option.map (fun e => e.2.1)))
        ((l.map (thpIn B k)).map (fun e => if e.ids then some (pr e) else none)) = .ok a := by
    intro pr hpr
    apply tpiter_assembles
    intro i p t hp ht
    simp only [List.getElem?_map, Option.map_eq_some_iff] at hp ht
    obtain ⟨_, ⟨e, he, rfl⟩, ht⟩ := ht
    obtain ⟨_, he', ⟨y, p', t'⟩, rfl, rfl⟩ := hp
    rw [he] at he'
    cases he'
    obtain ⟨a, ha⟩ := hpr i y p' t' he
    simp only [thpIn, if_true, Option.some.injEq] at ht
    subst ht
    exact ⟨a, ha⟩
  obtain ⟨a, ha⟩ := ask (·.xmin) (fun i y p t hi => by obtain ⟨a, b, h1, -⟩ := one i y p t hi; exact ⟨a, h1⟩)
  obtain ⟨b, hb⟩ := ask (·.xmax) (fun i y p t hi => by obtain ⟨a, b, -, h1, -⟩ := one i y p t hi; exact ⟨b, h1⟩)
  unfold tpF at ha hb
  rw [ha, exOk, hb, exOk]
  have pos : ∀ (i : Nat) y p t, l[i]? = some (some (y, p, t)) →
      unbracketedB (thpIn B k (some (y, p, t))) (a i) (b i) = false ∧
      ∃ r, hloopB (tpF B (B.invQ k) [some p]) 1e-6 51 [(y, hinitB (thpIn B k (some (y, p, t))) (a i) (b i))] = .ok r := by
    intro i y p t hi
    obtain ⟨a', b', h1, h2, h3, h4⟩ := one i y p t hi
    rw [tpF_same ha h1 (i := i) (by simp [hi]) (by simp [hi, thpIn]),
      tpF_same hb h2 (i := i) (by simp [hi]) (by simp [hi, thpIn])]
    exact ⟨h3, h4⟩
  rw [if_neg]
  · obtain ⟨r, hr⟩ := hloopB_assembles (B := B) (f := B.invQ k) (ep := 1e-6) (ps := l.map (Option.map (fun e => e.2.1)))
      (50 + 1) ((l.map (thpIn B k)).mapIdx (fun n e => (e.y, hinitB e (a n) (b n)))) (by
        intro i y s hs
        simp only [List.getElem?_mapIdx, List.getElem?_map, Option.map_eq_some_iff, Prod.mk.injEq] at hs
        obtain ⟨_, ⟨e, he, rfl⟩, rfl, rfl⟩ := hs
        cases e with
        | none => exact .inl rfl
        | some e => exact .inr ⟨e.2.1, by simp [he], (pos i _ _ _ he).2⟩)
    unfold tpF at hr
    rw [hr]
    exact ⟨_, rfl⟩
  · intro hc
    rw [Bool.and_eq_true] at hc
    obtain ⟨e, he, hs⟩ := List.any_eq_true.mp hc.1
    obtain ⟨i, hi⟩ := List.mem_iff_getElem?.mp he
    rw [List.getElem?_map, Option.map_eq_some_iff] at hi
    obtain ⟨o, ho, rfl⟩ := hi
    obtain ⟨y, p, t, rfl⟩ := off i o ho hs
    have := List.all_eq_true.mp hc.2 _ (List.mem_iff_getElem?.mpr
      ⟨i, by rw [List.getElem?_mapIdx, List.getElem?_map, ho]; rfl⟩)
    simp only [id, (pos i y p t ho).1] at this
    simp [thpIn] at this

theorem assembles_code (B : Sub) : Assembles B (codeSol B) where
  Ts := fun l h => ok_map (codeTs_assembles l (fun p hp => by
    obtain ⟨f, hf⟩ := h p hp
    obtain ⟨w, hw⟩ := ex_map_fst hf
    exact ⟨_, hw⟩))
  d := fun l h => ok_map (codeD_assembles l (fun p hp => by
    obtain ⟨f, hf⟩ := h p hp
    obtain ⟨w, hw⟩ := ex_map_fst hf
    exact ⟨_, hw⟩))
  Tdp := fun l h => ok_map (by
    apply runHybrid_assembles
    intro e he hs
    obtain ⟨o, ho, rfl⟩ := List.mem_map.mp he
    match o, ho with
    | none, _ => cases hs
    | some (d, p, t), ho =>
      obtain ⟨t', f, hf, ht⟩ := h d p t ho
      obtain ⟨w, hw⟩ := ex_map_fst hf
      rw [tdpIn_same ht]
      exact ⟨_, hw⟩)
  Thp := fun k l h => ok_map (codeThp_assembles l (fun y p t hm => by
    obtain ⟨t', f, hf, ht⟩ := h y p t hm
    obtain ⟨w, hw⟩ := ex_map_fst hf
    exact ⟨t', _, hw, ht⟩))
  Thd := fun k l h => ok_map (by
    apply runHybrid_assembles
    intro e he hs
    obtain ⟨o, ho, rfl⟩ := List.mem_map.mp he
    obtain ⟨f, hf⟩ := h o ho
    obtain ⟨w, hw⟩ := ex_map_fst hf
    exact ⟨_, hw⟩)
  dhT := fun k l h => ok_map (by
    have one : ∀ e ∈ l, ∃ o, dhtIn B k e = .ok o ∧ (o.ids = true → ∃ r, runHybrid 50 [o] = .ok r) := by
      intro e he
      cases e with
      | none => exact ⟨_, rfl, fun h => by cases h⟩
      | some e =>
        obtain ⟨f, hf⟩ := h e he
        obtain ⟨w, hw⟩ := ex_map_fst hf
        unfold codeDhT at hw
        obtain ⟨m, hm, hw⟩ := bind_ok hw
        rw [List.mapM_cons, List.mapM_nil] at hm
        obtain ⟨o, ho, hm⟩ := bind_ok hm
        cases hm
        exact ⟨o, ho, fun _ => ⟨_, hw⟩⟩
    have : ∃ m, l.mapM (dhtIn B k) = .ok m ∧ ∀ o ∈ m, o.ids = true → ∃ r, runHybrid 50 [o] = .ok r := by
      clear h
      induction l with
      | nil => exact ⟨[], rfl, by simp⟩
      | cons a l ih =>
        obtain ⟨o, ho, hr⟩ := one a (by simp)
        obtain ⟨m, hm, hm'⟩ := ih (fun e he => one e (by simp [he]))
        refine ⟨o :: m, by rw [List.mapM_cons, ho, exOk, hm, exOk]; rfl, ?_⟩
        intro o' ho'
        rcases List.mem_cons.mp ho' with rfl | ho'
        · exact hr
        · exact hm' o' ho'
    obtain ⟨m, hm, hr⟩ := this
    unfold codeDhT
    rw [hm, exOk]
    exact runHybrid_assembles hr)

/-! ## The forms -/

theorem broadcast_ok {α β : Type} {xs : List α} {ys : List β} {n : Nat} (hx : xs.length = n ∨ xs.length = 1)
    (hy : ys.length = n ∨ ys.length = 1) : ∃ xs' ys', broadcast xs ys = .ok (xs', ys') ∧ xs'.length = ys'.length ∧
      (xs'.length = n ∨ xs'.length = 1) ∧ (xs.length = n ∨ ys.length = n → xs'.length = n) := by
  by_cases h : xs.length = ys.length
  · exact ⟨xs, ys, broadcast_same h, h, hx, fun hh => hh.elim id (fun h2 => h.trans h2)⟩
  · rcases hx with hx | hx <;> rcases hy with hy | hy
    · exact absurd (hx.trans hy.symm) h
    · match ys, hy with
      | [y], hy =>
        refine ⟨xs, List.replicate xs.length y, ?_, by simp, .inl hx, fun _ => hx⟩
        unfold broadcast
        rw [if_neg h]
        match xs, h with
        | [], _ => rfl
        | [a], h => exact absurd rfl h
        | _ :: _ :: _, _ => rfl
    · match xs, hx with
      | [x], hx =>
        refine ⟨List.replicate ys.length x, ys, ?_, by simp, .inl (by simpa using hy), fun _ => by simpa using hy⟩
        unfold broadcast
        rw [if_neg h]
    · exact absurd (hx.trans hy.symm) h

theorem broadcast_one {α β : Type} (x : α) (y : β) : broadcast [x] [y] = .ok ([x], [y]) := broadcast_same rfl

theorem zip_len {α β : Type} {xs : List α} {ys : List β} (h : xs.length = ys.length) : (xs.zip ys).length = xs.length := by
  simp [h]

section
variable {B : Sub} {S : Sol} (hE : Elementwise B S) (hA : Assembles B S) {n : Nat} (hn : 0 < n)

theorem askTs_assembles (hA : Assembles B S) {sel : Nan → Bool} {l : List Nan}
    (h : ∀ (i : Nat) p, l[i]? = some p → ∃ f, askTs S sel [p] = .ok f) : ∃ f, askTs S sel l = .ok f := by
  unfold askTs
  split
  swap
  · exact ⟨_, rfl⟩
  apply hA.Ts
  intro p hp
  obtain ⟨i, hi⟩ := List.mem_iff_getElem?.mp hp
  rw [List.getElem?_map, Option.map_eq_some_iff] at hi
  obtain ⟨p', hp', he⟩ := hi
  split at he
  · rename_i hs
    cases he
    obtain ⟨f, hf⟩ := h i p hp'
    unfold askTs at hf
    simp only [List.any_cons, List.any_nil, hs, Bool.true_or, if_true, List.map_cons, List.map_nil] at hf
    exact ⟨f, hf⟩
  · cases he

include hE hA hn

theorem mpHP_assembles {j : Mp.Inv} {ys : List ℝ} {ps : List Nan} (ly : ys.length = n ∨ ys.length = 1)
    (lp : ps.length = n ∨ ps.length = 1)
    (h : ∀ (i : Nat) y p, i < n → Elem ys i y → Elem ps i p → ∃ r, mpHP B S j [y] [p] = .ok r) :
    ∃ r, mpHP B S j ys ps = .ok r ∧ (ys.length = n ∨ ps.length = n → r.length = n) := by
  obtain ⟨ys', ps', hb, hlen, hm, hfull⟩ := broadcast_ok ly lp
  have one : ∀ (i : Nat) y p, (ys'.zip ps')[i]? = some (y, p) → ∃ Ts T d, askTs S (betweenP B) [p] = .ok Ts ∧
      S.Thp j [if (satHP B j (Ts 0) (y, p)).isSome then none else some (y, p, Ts 0)] = .ok T ∧
      S.d [if (satHP B j (Ts 0) (y, p)).isSome then none else some (T 0, p)] = .ok d := by
    intro i y p hi
    obtain ⟨h1, h2⟩ := zip_at hi
    have hi' : i < n := by
      have := (List.getElem?_eq_some_iff.mp h1).1
      rcases hm with hm | hm <;> omega
    obtain ⟨r, hr⟩ := h i y p hi' ((broadcast_at hb i).1 _ h1) ((broadcast_at hb i).2 _ h2)
    unfold mpHP at hr
    rw [broadcast_one, exOk] at hr
    dsimp only at hr
    obtain ⟨Ts, hTs, hr⟩ := bind_ok hr
    obtain ⟨T, hT, hr⟩ := bind_ok hr
    obtain ⟨d, hd, hr⟩ := bind_ok hr
    exact ⟨Ts, T, d, hTs, hT, hd⟩
  have at' : ∀ (i : Nat) p, ps'[i]? = some p → ∃ y, (ys'.zip ps')[i]? = some (y, p) := by
    intro i p hp
    have : i < ys'.length := by
      have := (List.getElem?_eq_some_iff.mp hp).1
      omega
    exact ⟨ys'[i], by rw [List.getElem?_zip_eq_some]; exact ⟨by simp [this], hp⟩⟩
  unfold mpHP
  rw [hb, exOk]
  dsimp only
  obtain ⟨Ts, hTs⟩ := askTs_assembles hA (sel := betweenP B) (l := ps') (by
    intro i p hp
    obtain ⟨y, hy⟩ := at' i p hp
    obtain ⟨Ts, T, d, h1, -⟩ := one i y p hy
    exact ⟨Ts, h1⟩)
  rw [hTs, exOk]
  have sat : ∀ (i : Nat) y p Ts', (ys'.zip ps')[i]? = some (y, p) → askTs S (betweenP B) [p] = .ok Ts' →
      (betweenP B p = true → Ts i = Ts' 0) ∧ satHP B j (Ts i) (y, p) = satHP B j (Ts' 0) (y, p) := by
    intro i y p Ts' hi h'
    have e : betweenP B p = true → Ts i = Ts' 0 :=
      askTs_same hE hTs h' (zip_at hi).2 (j := 0) rfl
    refine ⟨e, ?_⟩
    unfold satHP
    by_cases hb : betweenP B p = true
    · rw [e hb]
    · simp [hb]
  obtain ⟨T, hT⟩ := hA.Thp j ((ys'.zip ps').mapIdx (fun n e =>
      if (satHP B j (Ts n) e).isSome then none else some (e.1, e.2, Ts n))) (by
    intro y p t hm
    obtain ⟨i, hi⟩ := List.mem_iff_getElem?.mp hm
    rw [List.getElem?_mapIdx, Option.map_eq_some_iff] at hi
    obtain ⟨⟨y', p'⟩, hi, he⟩ := hi
    split at he
    · cases he
    rename_i hs
    simp only [Option.some.injEq, Prod.mk.injEq] at he
    obtain ⟨rfl, rfl, rfl⟩ := he
    obtain ⟨Ts', T, d, h1, h2, h3⟩ := one i _ _ hi
    obtain ⟨s1, s2⟩ := sat i _ _ Ts' hi h1
    rw [← s2, if_neg hs] at h2
    exact ⟨_, T, h2, s1⟩)
  rw [hT, exOk]
  obtain ⟨d, hd⟩ := hA.d ((ys'.zip ps').mapIdx (fun n e => if (satHP B j (Ts n) e).isSome then none else some (T n, e.2))) (by
    intro e hm
    obtain ⟨i, hi⟩ := List.mem_iff_getElem?.mp hm
    rw [List.getElem?_mapIdx, Option.map_eq_some_iff] at hi
    obtain ⟨⟨y, p⟩, hi, he⟩ := hi
    split at he
    · cases he
    rename_i hs
    cases he
    obtain ⟨Ts', T', d, h1, h2, h3⟩ := one i _ _ hi
    obtain ⟨s1, s2⟩ := sat i _ _ Ts' hi h1
    rw [← s2, if_neg hs] at h2 h3
    have : T i = T' 0 := hE.Thp hT h2 (i := i) (j := 0) (t := Ts i)
      (by rw [List.getElem?_mapIdx, hi, Option.map_some, if_neg hs]) rfl s1
    rw [← this] at h3
    exact ⟨d, h3⟩)
  rw [hd, exOk]
  exact ⟨_, rfl, fun hf => by rw [List.length_mapIdx, zip_len hlen, hfull hf]⟩

theorem mpHD_assembles {j : Mp.Inv} {ys ds : List ℝ} (ly : ys.length = n ∨ ys.length = 1)
    (ld : ds.length = n ∨ ds.length = 1)
    (h : ∀ (i : Nat) y d, i < n → Elem ys i y → Elem ds i d → ∃ r, mpHD B S j [y] [d] = .ok r) :
    ∃ r, mpHD B S j ys ds = .ok r ∧ (ys.length = n ∨ ds.length = n → r.length = n) := by
  obtain ⟨ys', ds', hb, hlen, hm, hfull⟩ := broadcast_ok ly ld
  unfold mpHD
  rw [hb, exOk]
  dsimp only
  obtain ⟨T, hT⟩ := hA.Thd j (ys'.zip ds') (by
    intro e he
    obtain ⟨i, hi⟩ := List.mem_iff_getElem?.mp he
    obtain ⟨h1, h2⟩ := zip_at hi
    have hi' : i < n := by
      have := (List.getElem?_eq_some_iff.mp h1).1
      rcases hm with hm | hm <;> omega
    obtain ⟨r, hr⟩ := h i e.1 e.2 hi' ((broadcast_at hb i).1 _ h1) ((broadcast_at hb i).2 _ h2)
    unfold mpHD at hr
    rw [broadcast_one, exOk] at hr
    dsimp only at hr
    obtain ⟨T, hT, hr⟩ := bind_ok hr
    exact ⟨T, hT⟩)
  rw [hT, exOk]
  exact ⟨_, rfl, fun hf => by rw [List.length_mapIdx, zip_len hlen, hfull hf]⟩

theorem mpHT_assembles {j : Mp.Inv} {ys : List ℝ} {ts : List Nan} (ly : ys.length = n ∨ ys.length = 1)
    (lt : ts.length = n ∨ ts.length = 1)
    (h : ∀ (i : Nat) y t, i < n → Elem ys i y → Elem ts i t → ∃ r, mpHT B S j [y] [t] = .ok r) :
    ∃ r, mpHT B S j ys ts = .ok r ∧ (ys.length = n ∨ ts.length = n → r.length = n) := by
  obtain ⟨ys', ts', hb, hlen, hm, hfull⟩ := broadcast_ok ly lt
  unfold mpHT
  rw [hb, exOk]
  dsimp only
  obtain ⟨d, hd⟩ := hA.dhT j ((ys'.zip ts').map (fun e => if (satHT B j e).isSome then none else some e)) (by
    intro e he
    obtain ⟨e', he', hs⟩ := List.mem_map.mp he
    split at hs
    · cases hs
    rename_i hs'
    cases hs
    obtain ⟨i, hi⟩ := List.mem_iff_getElem?.mp he'
    obtain ⟨h1, h2⟩ := zip_at hi
    have hi' : i < n := by
      have := (List.getElem?_eq_some_iff.mp h1).1
      rcases hm with hm | hm <;> omega
    obtain ⟨r, hr⟩ := h i e.1 e.2 hi' ((broadcast_at hb i).1 _ h1) ((broadcast_at hb i).2 _ h2)
    unfold mpHT at hr
    rw [broadcast_one, exOk] at hr
    dsimp only at hr
    obtain ⟨d, hd, hr⟩ := bind_ok hr
    simp only [List.zip_cons_cons, List.zip_nil_left, List.map_cons, List.map_nil, Prod.mk.eta, if_neg hs'] at hd
    exact ⟨d, hd⟩)
  rw [hd, exOk]
  exact ⟨_, rfl, fun hf => by rw [List.length_mapIdx, zip_len hlen, hfull hf]⟩

theorem mpPD_assembles {ds : List ℝ} {ps : List Nan} (ld : ds.length = n ∨ ds.length = 1)
    (lp : ps.length = n ∨ ps.length = 1)
    (h : ∀ (i : Nat) d p, i < n → Elem ds i d → Elem ps i p → ∃ r, mpPD B S [d] [p] = .ok r) :
    ∃ r, mpPD B S ds ps = .ok r ∧ (ds.length = n ∨ ps.length = n → r.1.length = n) := by
  obtain ⟨ds', ps', hb, hlen, hm, hfull⟩ := broadcast_ok ld lp
  have one : ∀ (i : Nat) d p, (ds'.zip ps')[i]? = some (d, p) → ∃ Ts T, askTs S (belowPc B) [p] = .ok Ts ∧
      S.Tdp [if (satPD B (Ts 0) (d, p)).isSome then none else some (d, p, Ts 0)] = .ok T := by
    intro i y p hi
    obtain ⟨h1, h2⟩ := zip_at hi
    have hi' : i < n := by
      have := (List.getElem?_eq_some_iff.mp h1).1
      rcases hm with hm | hm <;> omega
    obtain ⟨r, hr⟩ := h i y p hi' ((broadcast_at hb i).1 _ h1) ((broadcast_at hb i).2 _ h2)
    unfold mpPD at hr
    rw [broadcast_one, exOk] at hr
    dsimp only at hr
    obtain ⟨Ts, hTs, hr⟩ := bind_ok hr
    obtain ⟨T, hT, hr⟩ := bind_ok hr
    exact ⟨Ts, T, hTs, hT⟩
  have at' : ∀ (i : Nat) p, ps'[i]? = some p → ∃ y, (ds'.zip ps')[i]? = some (y, p) := by
    intro i p hp
    have : i < ds'.length := by
      have := (List.getElem?_eq_some_iff.mp hp).1
      omega
    exact ⟨ds'[i], by rw [List.getElem?_zip_eq_some]; exact ⟨by simp [this], hp⟩⟩
  unfold mpPD
  rw [hb, exOk]
  dsimp only
  obtain ⟨Ts, hTs⟩ := askTs_assembles hA (sel := belowPc B) (l := ps') (by
    intro i p hp
    obtain ⟨y, hy⟩ := at' i p hp
    obtain ⟨Ts, T, h1, -⟩ := one i y p hy
    exact ⟨Ts, h1⟩)
  rw [hTs, exOk]
  obtain ⟨T, hT⟩ := hA.Tdp ((ds'.zip ps').mapIdx (fun n e =>
      if (satPD B (Ts n) e).isSome then none else some (e.1, e.2, Ts n))) (by
    intro y p t hm
    obtain ⟨i, hi⟩ := List.mem_iff_getElem?.mp hm
    rw [List.getElem?_mapIdx, Option.map_eq_some_iff] at hi
    obtain ⟨⟨y', p'⟩, hi, he⟩ := hi
    split at he
    · cases he
    rename_i hs
    simp only [Option.some.injEq, Prod.mk.injEq] at he
    obtain ⟨rfl, rfl, rfl⟩ := he
    obtain ⟨Ts', T, h1, h2⟩ := one i _ _ hi
    have e : belowPc B p' = true → Ts i = Ts' 0 := askTs_same hE hTs h1 (zip_at hi).2 (j := 0) rfl
    have : satPD B (Ts i) (y', p') = satPD B (Ts' 0) (y', p') := by
      unfold satPD
      by_cases hb : belowPc B p' = true
      · rw [e hb]
      · simp [hb]
    rw [← this, if_neg hs] at h2
    exact ⟨_, T, h2, e⟩)
  rw [hT, exOk]
  exact ⟨_, rfl, fun hf => by rw [List.length_mapIdx, zip_len hlen, hfull hf]⟩

theorem mpPX_assembles {ps : List Nan} {xs : List ℝ} (lp : ps.length = n ∨ ps.length = 1)
    (lx : xs.length = n ∨ xs.length = 1)
    (h : ∀ (i : Nat) p x, i < n → Elem ps i p → Elem xs i x → ∃ r, mpPX B S [p] [x] = .ok r) :
    ∃ r, mpPX B S ps xs = .ok r ∧ (ps.length = n ∨ xs.length = n → r.length = n) := by
  obtain ⟨ps', xs', hb, hlen, hm, hfull⟩ := broadcast_ok lp lx
  have ex : ∀ {α : Type} {l : List α} (i : Nat), l.length = n ∨ l.length = 1 → i < n → ∃ a, Elem l i a := by
    intro α l i hl hi
    rcases hl with hl | hl
    · exact ⟨l[i], .inl (by simp [hl, hi])⟩
    · match l, hl with
      | [a], _ => exact ⟨a, .inr rfl⟩
  have lt : ∀ {α : Type} {l : List α} {i : Nat} {a : α}, l.length = n ∨ l.length = 1 → l[i]? = some a → i < n := by
    intro α l i a hl hi
    have := (List.getElem?_eq_some_iff.mp hi).1
    rcases hl with hl | hl <;> omega
  unfold mpPX
  rw [if_neg, if_neg, hb, exOk]
  · dsimp only
    obtain ⟨Ts, hTs⟩ := hA.Ts (ps'.map some) (by
      intro p hp
      obtain ⟨p', hp', he⟩ := List.mem_map.mp hp
      cases he
      obtain ⟨i, hi⟩ := List.mem_iff_getElem?.mp hp'
      have hi' := lt hm hi
      obtain ⟨x, hx⟩ := ex i lx hi'
      obtain ⟨r, hr⟩ := h i p x hi' ((broadcast_at hb i).1 _ hi) hx
      unfold mpPX at hr
      split at hr
      · cases hr
      split at hr
      · cases hr
      rw [broadcast_one, exOk] at hr
      obtain ⟨Ts, hTs, -⟩ := bind_ok hr
      exact ⟨Ts, hTs⟩)
    rw [hTs, exOk]
    exact ⟨_, rfl, fun hf => by rw [List.length_mapIdx, zip_len hlen, hfull hf]⟩
  · intro hc
    obtain ⟨x, hx, hneg⟩ := List.any_eq_true.mp hc
    obtain ⟨i, hi⟩ := List.mem_iff_getElem?.mp hx
    obtain ⟨p, hp⟩ := ex i lp (lt lx hi)
    obtain ⟨r, hr⟩ := h i p x (lt lx hi) hp (.inl hi)
    unfold mpPX at hr
    split at hr
    · cases hr
    rw [if_pos (by simpa using hneg)] at hr
    cases hr
  · intro hc
    obtain ⟨p, hp, hneg⟩ := List.any_eq_true.mp hc
    obtain ⟨i, hi⟩ := List.mem_iff_getElem?.mp hp
    obtain ⟨x, hx⟩ := ex i lx (lt lp hi)
    obtain ⟨r, hr⟩ := h i p x (lt lp hi) (.inl hi) hx
    unfold mpPX at hr
    rw [if_pos (by simpa using hneg)] at hr
    cases hr

theorem mpTX_assembles {ts : List Nan} {xs : List ℝ} (lt : ts.length = n ∨ ts.length = 1)
    (lx : xs.length = n ∨ xs.length = 1)
    (h : ∀ (i : Nat) t x, i < n → Elem ts i t → Elem xs i x → ∃ r, mpTX B [t] [x] = .ok r) :
    ∃ r, mpTX B ts xs = .ok r ∧ (ts.length = n ∨ xs.length = n → r.length = n) := by
  obtain ⟨ts', xs', hb, hlen, hm, hfull⟩ := broadcast_ok lt lx
  have one : ∀ (i : Nat) t x, ts'[i]? = some t → xs'[i]? = some x → ∃ r, mpTX B [t] [x] = .ok r := by
    intro i t x h1 h2
    have hi' : i < n := by
      have := (List.getElem?_eq_some_iff.mp h1).1
      rcases hm with hm | hm <;> omega
    exact h i t x hi' ((broadcast_at hb i).1 _ h1) ((broadcast_at hb i).2 _ h2)
  have other : ∀ {α β : Type} {l : List α} {l' : List β} {i : Nat} {a : α}, l.length = l'.length → l[i]? = some a →
      ∃ b, l'[i]? = some b := by
    intro α β l l' i a hl hi
    have := (List.getElem?_eq_some_iff.mp hi).1
    exact ⟨l'[i]'(by omega), by simp [← hl, this]⟩
  unfold mpTX
  rw [hb, exOk]
  dsimp only
  rw [if_neg, if_neg]
  · exact ⟨_, rfl, fun hf => by rw [List.length_map, zip_len hlen, hfull hf]⟩
  · intro hc
    obtain ⟨x, hx, hneg⟩ := List.any_eq_true.mp hc
    obtain ⟨i, hi⟩ := List.mem_iff_getElem?.mp hx
    obtain ⟨t, ht⟩ := other hlen.symm hi
    obtain ⟨r, hr⟩ := one i t x ht hi
    unfold mpTX at hr
    rw [broadcast_one, exOk] at hr
    dsimp only at hr
    split at hr
    · cases hr
    rw [if_pos (by simpa using hneg)] at hr
    cases hr
  · intro hc
    obtain ⟨t, ht, hneg⟩ := List.any_eq_true.mp hc
    obtain ⟨i, hi⟩ := List.mem_iff_getElem?.mp ht
    obtain ⟨x, hx⟩ := other hlen hi
    obtain ⟨r, hr⟩ := one i t x hi hx
    unfold mpTX at hr
    rw [broadcast_one, exOk] at hr
    dsimp only at hr
    rw [if_pos (by simpa using hneg)] at hr
    cases hr

theorem mpTD_assembles {ts : List Nan} {ds : List ℝ} (lt : ts.length = n ∨ ts.length = 1)
    (ld : ds.length = n ∨ ds.length = 1) :
    ∃ r, mpTD B ts ds = .ok r ∧ (ts.length = n ∨ ds.length = n → r.length = n) := by
  obtain ⟨ts', ds', hb, hlen, hm, hfull⟩ := broadcast_ok lt ld
  unfold mpTD
  rw [hb, exOk]
  exact ⟨_, rfl, fun hf => by rw [List.length_map, zip_len hlen, hfull hf]⟩

theorem mpTPX_assembles {ts ps : List Nan} {xs : List ℝ} (lt : ts.length = n ∨ ts.length = 1)
    (lp : ps.length = n ∨ ps.length = 1) (lx : xs.length = n ∨ xs.length = 1)
    (h : ∀ (i : Nat) t p x, i < n → Elem ts i t → Elem ps i p → Elem xs i x → ∃ r, mpTPX B S [t] [p] [x] = .ok r) :
    ∃ r, mpTPX B S ts ps xs = .ok r ∧ (ts.length = n ∨ ps.length = n ∨ xs.length = n → r.1.length = n) := by
  obtain ⟨ts', ps', hb, hlen, hm, hfull⟩ := broadcast_ok lt lp
  have hz : (ts'.zip ps').length = n ∨ (ts'.zip ps').length = 1 := by rw [zip_len hlen]; exact hm
  obtain ⟨ws, xs', hb2, hlen2, hm2, hfull2⟩ := broadcast_ok hz lx
  unfold mpTPX
  rw [hb, exOk]
  dsimp only
  rw [hb2, exOk]
  dsimp only
  obtain ⟨d, hd⟩ := hA.d ((ws.zip xs').map (fun e : (Nan × Nan) × ℝ => if e.2 < 0 then some e.1 else none)) (by
    intro e he
    obtain ⟨⟨w, x⟩, he', hs⟩ := List.mem_map.mp he
    split at hs
    swap
    · cases hs
    rename_i hneg
    cases hs
    obtain ⟨i, hi⟩ := List.mem_iff_getElem?.mp he'
    obtain ⟨h1, h2⟩ := zip_at hi
    have hi' : i < n := by
      have := (List.getElem?_eq_some_iff.mp h1).1
      rcases hm2 with hm | hm <;> omega
    have hw := (broadcast_at hb2 i).1 _ h1
    have hx := (broadcast_at hb2 i).2 _ h2
    have lift : ∀ {α : Type} {zs ws : List α} {z : α}, (∀ n x, ws[n]? = some x → Elem zs n x) →
        (zs.length = ws.length ∨ ∃ z, zs = [z]) → Elem ws i z → Elem zs i z := by
      intro α zs ws z h1 h2 h3
      rcases h3 with h3 | h3
      · exact h1 i z h3
      · have := h1 0 z (by rw [h3]; rfl)
        rcases h2 with h2 | ⟨z', rfl⟩
        · rw [h3] at h2
          match zs, h2, this with
          | [a], _, this =>
            have : a = z := by rcases this with h | h <;> simpa using h
            rw [this]; exact Or.inr rfl
        · have : z' = z := by rcases this with h | h <;> simpa using h
          rw [this]; exact Or.inr rfl
    have key : Elem ts' i w.1 ∧ Elem ps' i w.2 := by
      rcases hw with h | h
      · exact ⟨Or.inl (zip_at h).1, Or.inl (zip_at h).2⟩
      · obtain ⟨h1, h2⟩ := zip_one hlen h
        exact ⟨Or.inr h1, Or.inr h2⟩
    have side := one_or hb
    obtain ⟨r, hr⟩ := h i w.1 w.2 x hi' (lift (fun n => (broadcast_at hb n).1) side.1 key.1)
      (lift (fun n => (broadcast_at hb n).2) side.2 key.2) hx
    unfold mpTPX at hr
    rw [broadcast_one, exOk] at hr
    dsimp only [List.zip_cons_cons, List.zip_nil_left] at hr
    rw [broadcast_one, exOk] at hr
    dsimp only at hr
    obtain ⟨d, hd, -⟩ := bind_ok hr
    have hneg' : x < 0 := hneg
    simp only [List.zip_cons_cons, List.zip_nil_left, List.map_cons, List.map_nil, if_pos hneg'] at hd
    exact ⟨d, hd⟩)
  rw [hd, exOk]
  refine ⟨_, rfl, fun hf => ?_⟩
  dsimp only
  rw [List.length_mapIdx, zip_len hlen2, hfull2]
  rcases hf with hf | hf | hf
  · exact .inl (by rw [zip_len hlen, hfull (.inl hf)])
  · exact .inl (by rw [zip_len hlen, hfull (.inr hf)])
  · exact .inr hf

end

/-! ## Any form -/

/-- Each argument in internal units has `n` elements or one. -/
structure Lens (k : MStd) (n : Nat) : Prop where
  T : ∀ a, k.T = some a → a.xs.length = n ∨ a.xs.length = 1
  p : ∀ a, k.p = some a → a.xs.length = n ∨ a.xs.length = 1
  d : ∀ a, k.d = some a → a.xs.length = n ∨ a.xs.length = 1
  x : ∀ a, k.x = some a → a.xs.length = n ∨ a.xs.length = 1
  inv : ∀ j a, k.inv = some (j, a) → a.xs.length = n ∨ a.xs.length = 1

/-- The number of arguments with `n` elements: the call uses them all. -/
structure Few (k : MStd) : Prop where
  hp : ∀ a b, k.inv = some a → k.p = some b → k.T = none ∧ k.d = none ∧ k.x = none
  hd : ∀ a b, k.inv = some a → k.d = some b → k.T = none ∧ k.p = none ∧ k.x = none
  hT : ∀ a b, k.inv = some a → k.T = some b → k.p = none ∧ k.d = none ∧ k.x = none
  Tp : ∀ a b, k.T = some a → k.p = some b → k.d = none
  Td : ∀ a b, k.T = some a → k.d = some b → k.x = none
  pd : ∀ a b, k.p = some a → k.d = some b → k.x = none

/-- Some argument has `n` elements. -/
def Full (k : MStd) (n : Nat) : Prop :=
  (∃ a, k.T = some a ∧ a.xs.length = n) ∨ (∃ a, k.p = some a ∧ a.xs.length = n) ∨
  (∃ a, k.d = some a ∧ a.xs.length = n) ∨ (∃ a, k.x = some a ∧ a.xs.length = n) ∨
  (∃ j a, k.inv = some (j, a) ∧ a.xs.length = n)

theorem SameEntry.one {α : Type} {a b : Option (List α)} {i : Nat} (h : SameEntry a b i 0) {xs : List α} {z : α}
    (ha : a = some xs) (hz : Elem xs i z) (h1 : ∀ l, b = some l → l.length = 1) : b = some [z] := by
  rcases h with ⟨h2, -⟩ | ⟨xs', ys, y, h2, h3, h4, h5⟩
  · rw [ha] at h2; cases h2
  · rw [ha] at h2; cases h2
    obtain rfl := elem_unique hz h4
    have := h1 ys h3
    match ys, this with
    | [w], _ =>
      rw [h3]
      rcases h5 with h5 | h5 <;> simpa using h5

theorem map_xs {α : Type} {o : Option NArg} {l : List Nan} (h : o.map (·.xs) = some l) : ∃ a, o = some a ∧ a.xs = l := by
  simpa [Option.map_eq_some_iff] using h

section
variable {B : Sub} {S : Sol} (hE : Elementwise B S) (hA : Assembles B S) {n : Nat} (hn : 0 < n)
include hE hA hn

theorem solve_assembles {k : MStd} (hl : Lens k n)
    (h : ∀ i < n, ∃ k', SameStdAt k k' i 0 ∧ Lens k' 1 ∧ ∃ r, mpSolve B S k' = .ok r) :
    ∃ r, mpSolve B S k = .ok r ∧ (Few k → Full k n → r.pts.length = n) := by
  have none_of : ∀ {k' : MStd} {i : Nat}, SameStdAt k k' i 0 →
      (k.T = none ↔ k'.T = none) ∧ (k.p = none ↔ k'.p = none) ∧ (k.d = none ↔ k'.d = none) ∧
      (k.x = none ↔ k'.x = none) ∧ (k.inv = none ↔ k'.inv = none) := fun hk =>
    ⟨by simpa using hk.T.none_iff, by simpa using hk.p.none_iff, by simpa using hk.d.none_iff,
      by simpa using hk.x.none_iff, by simpa using hk.inv'.none_iff⟩
  have oneT : ∀ {k' : MStd} {i : Nat} {a : NArg} {z : Nan}, SameStdAt k k' i 0 → Lens k' 1 → k.T = some a → Elem a.xs i z →
      ∃ o, k'.T = some ⟨[z], o⟩ := by
    intro k' i a z hk hl ha hz
    have := hk.T.one (xs := a.xs) (z := z) (by rw [ha]; rfl) hz (by
      intro l hl'
      obtain ⟨a', h1, rfl⟩ := Option.map_eq_some_iff.mp hl'
      simpa using hl.T a' h1)
    obtain ⟨⟨ys, o⟩, h1, h2⟩ := Option.map_eq_some_iff.mp this
    dsimp only at h2
    subst h2
    exact ⟨o, h1⟩
  have onep : ∀ {k' : MStd} {i : Nat} {a : NArg} {z : Nan}, SameStdAt k k' i 0 → Lens k' 1 → k.p = some a → Elem a.xs i z →
      ∃ o, k'.p = some ⟨[z], o⟩ := by
    intro k' i a z hk hl ha hz
    have := hk.p.one (xs := a.xs) (z := z) (by rw [ha]; rfl) hz (by
      intro l hl'
      obtain ⟨a', h1, rfl⟩ := Option.map_eq_some_iff.mp hl'
      simpa using hl.p a' h1)
    obtain ⟨⟨ys, o⟩, h1, h2⟩ := Option.map_eq_some_iff.mp this
    dsimp only at h2
    subst h2
    exact ⟨o, h1⟩
  have oned : ∀ {k' : MStd} {i : Nat} {a : Arg} {z : ℝ}, SameStdAt k k' i 0 → Lens k' 1 → k.d = some a → Elem a.xs i z →
      ∃ o, k'.d = some ⟨[z], o⟩ := by
    intro k' i a z hk hl ha hz
    have := hk.d.one (xs := a.xs) (z := z) (by rw [ha]; rfl) hz (by
      intro l hl'
      obtain ⟨a', h1, rfl⟩ := Option.map_eq_some_iff.mp hl'
      simpa using hl.d a' h1)
    obtain ⟨⟨ys, o⟩, h1, h2⟩ := Option.map_eq_some_iff.mp this
    dsimp only at h2
    subst h2
    exact ⟨o, h1⟩
  have onex : ∀ {k' : MStd} {i : Nat} {a : Arg} {z : ℝ}, SameStdAt k k' i 0 → Lens k' 1 → k.x = some a → Elem a.xs i z →
      ∃ o, k'.x = some ⟨[z], o⟩ := by
    intro k' i a z hk hl ha hz
    have := hk.x.one (xs := a.xs) (z := z) (by rw [ha]; rfl) hz (by
      intro l hl'
      obtain ⟨a', h1, rfl⟩ := Option.map_eq_some_iff.mp hl'
      simpa using hl.x a' h1)
    obtain ⟨⟨ys, o⟩, h1, h2⟩ := Option.map_eq_some_iff.mp this
    dsimp only at h2
    subst h2
    exact ⟨o, h1⟩
  have onei : ∀ {k' : MStd} {i : Nat} {j : Mp.Inv} {a : Arg} {z : ℝ}, SameStdAt k k' i 0 → Lens k' 1 → k.inv = some (j, a) →
      Elem a.xs i z → ∃ o, k'.inv = some (j, ⟨[z], o⟩) := by
    intro k' i j a z hk hl ha hz
    have := hk.inv'.one (xs := a.xs) (z := z) (by rw [ha]; rfl) hz (by
      intro l hl'
      obtain ⟨⟨j', a'⟩, h1, rfl⟩ := Option.map_eq_some_iff.mp hl'
      simpa using hl.inv j' a' h1)
    obtain ⟨⟨j', ys, o⟩, h1, h2⟩ := Option.map_eq_some_iff.mp this
    dsimp only at h2
    subst h2
    have h3 := hk.inv
    rw [ha, h1] at h3
    simp only [Option.map_some, Option.some.injEq] at h3
    subst h3
    exact ⟨o, h1⟩
  unfold mpSolve
  cases hi : k.inv with
  | some ja =>
    obtain ⟨j, a⟩ := ja
    dsimp only
    unfold mpSolveInv
    cases hp : k.p with
    | some pa =>
      dsimp only
      obtain ⟨r, hr, hlen⟩ := mpHP_assembles hE hA hn (j := j) (hl.inv j a hi) (hl.p pa hp) (by
        intro i y p hin hy hpp
        obtain ⟨k', hk, hk1, r, hr⟩ := h i hin
        obtain ⟨o, ho⟩ := onei hk hk1 hi hy
        obtain ⟨o', ho'⟩ := onep hk hk1 hp hpp
        unfold mpSolve at hr
        rw [ho] at hr
        dsimp only at hr
        unfold mpSolveInv at hr
        rw [ho'] at hr
        dsimp only at hr
        obtain ⟨r, hr, -⟩ := bind_ok hr
        exact ⟨r, hr⟩)
      rw [hr, exOk]
      refine ⟨_, rfl, fun hf hfull => hlen ?_⟩
      obtain ⟨e1, e2, e3⟩ := hf.hp _ _ hi hp
      simp only [Full, e1, e2, e3, hi, hp] at hfull
      simpa [or_comm] using hfull
    | none =>
      cases hd : k.d with
      | some da =>
        dsimp only
        obtain ⟨r, hr, hlen⟩ := mpHD_assembles hE hA hn (j := j) (hl.inv j a hi) (hl.d da hd) (by
          intro i y p hin hy hpp
          obtain ⟨k', hk, hk1, r, hr⟩ := h i hin
          obtain ⟨o, ho⟩ := onei hk hk1 hi hy
          obtain ⟨o', ho'⟩ := oned hk hk1 hd hpp
          obtain ⟨-, np, -⟩ := none_of hk
          unfold mpSolve at hr
          rw [ho] at hr
          dsimp only at hr
          unfold mpSolveInv at hr
          rw [ho', np.mp hp] at hr
          dsimp only at hr
          obtain ⟨r, hr, -⟩ := bind_ok hr
          exact ⟨r, hr⟩)
        rw [hr, exOk]
        refine ⟨_, rfl, fun hf hfull => hlen ?_⟩
        obtain ⟨e1, e2, e3⟩ := hf.hd _ _ hi hd
        simp only [Full, e1, e2, e3, hi, hd] at hfull
        simpa [or_comm] using hfull
      | none =>
        cases hx : k.x with
        | some xa =>
          exfalso
          obtain ⟨k', hk, hk1, r, hr⟩ := h 0 hn
          obtain ⟨nT, np, nd, nx, ni⟩ := none_of hk
          cases hi' : k'.inv with
          | none => rw [ni.mpr hi'] at hi; cases hi
          | some ja =>
            cases hx' : k'.x with
            | none => rw [nx.mpr hx'] at hx; cases hx
            | some xa' =>
              unfold mpSolve at hr
              rw [hi'] at hr
              dsimp only at hr
              unfold mpSolveInv at hr
              rw [np.mp hp, nd.mp hd, hx'] at hr
              cases hr
        | none =>
          cases hT : k.T with
          | none =>
            exfalso
            obtain ⟨k', hk, hk1, r, hr⟩ := h 0 hn
            obtain ⟨nT, np, nd, nx, ni⟩ := none_of hk
            cases hi' : k'.inv with
            | none => rw [ni.mpr hi'] at hi; cases hi
            | some ja =>
              unfold mpSolve at hr
              rw [hi'] at hr
              dsimp only at hr
              unfold mpSolveInv at hr
              rw [np.mp hp, nd.mp hd, nx.mp hx, nT.mp hT] at hr
              cases hr
          | some ta =>
            dsimp only
            obtain ⟨r, hr, hlen⟩ := mpHT_assembles hE hA hn (j := j) (hl.inv j a hi) (hl.T ta hT) (by
              intro i y p hin hy hpp
              obtain ⟨k', hk, hk1, r, hr⟩ := h i hin
              obtain ⟨o, ho⟩ := onei hk hk1 hi hy
              obtain ⟨o', ho'⟩ := oneT hk hk1 hT hpp
              obtain ⟨-, np, nd, nx, -⟩ := none_of hk
              unfold mpSolve at hr
              rw [ho] at hr
              dsimp only at hr
              unfold mpSolveInv at hr
              rw [ho', np.mp hp, nd.mp hd, nx.mp hx] at hr
              dsimp only at hr
              obtain ⟨r, hr, -⟩ := bind_ok hr
              exact ⟨r, hr⟩)
            rw [hr, exOk]
            refine ⟨_, rfl, fun hf hfull => hlen ?_⟩
            simp only [Full, hp, hd, hx, hi, hT] at hfull
            simpa [or_comm] using hfull
  | none =>
    dsimp only
    unfold mpSolveBasic
    cases hT : k.T with
    | some ta =>
      cases hp : k.p with
      | some pa =>
        cases hx : k.x with
        | none =>
          dsimp only
          obtain ⟨r, hr, hlen⟩ := mpTPX_assembles hE hA hn (xs := [-1]) (hl.T ta hT) (hl.p pa hp) (.inr rfl) (by
            intro i t p x hin h1 h2 h3
            obtain ⟨k', hk, hk1, r, hr⟩ := h i hin
            obtain ⟨o, ho⟩ := oneT hk hk1 hT h1
            obtain ⟨o', ho'⟩ := onep hk hk1 hp h2
            obtain ⟨-, -, -, nx, ni⟩ := none_of hk
            unfold mpSolve at hr
            rw [ni.mp hi] at hr
            dsimp only at hr
            unfold mpSolveBasic at hr
            rw [ho, ho', nx.mp hx] at hr
            dsimp only at hr
            obtain ⟨r, hr, -⟩ := bind_ok hr
            have : x = -1 := elem_unique h3 (.inr rfl)
            subst this
            exact ⟨r, hr⟩)
          rw [hr, exOk]
          refine ⟨_, rfl, fun hf hfull => hlen ?_⟩
          have := hf.Tp _ _ hT hp
          simp only [Full, hp, this, hx, hi, hT] at hfull
          simp at hfull
          tauto
        | some xa =>
          dsimp only
          obtain ⟨r, hr, hlen⟩ := mpTPX_assembles hE hA hn (hl.T ta hT) (hl.p pa hp) (hl.x xa hx) (by
            intro i t p x hin h1 h2 h3
            obtain ⟨k', hk, hk1, r, hr⟩ := h i hin
            obtain ⟨o, ho⟩ := oneT hk hk1 hT h1
            obtain ⟨o', ho'⟩ := onep hk hk1 hp h2
            obtain ⟨o'', ho''⟩ := onex hk hk1 hx h3
            obtain ⟨-, -, -, -, ni⟩ := none_of hk
            unfold mpSolve at hr
            rw [ni.mp hi] at hr
            dsimp only at hr
            unfold mpSolveBasic at hr
            rw [ho, ho', ho''] at hr
            dsimp only at hr
            obtain ⟨r, hr, -⟩ := bind_ok hr
            exact ⟨r, hr⟩)
          rw [hr, exOk]
          refine ⟨_, rfl, fun hf hfull => hlen ?_⟩
          have := hf.Tp _ _ hT hp
          simp only [Full, hp, this, hx, hi, hT] at hfull
          simp at hfull
          tauto
      | none =>
        cases hd : k.d with
        | some da =>
          dsimp only
          obtain ⟨r, hr, hlen⟩ := mpTD_assembles hE hA hn (B := B) (hl.T ta hT) (hl.d da hd)
          rw [hr, exOk]
          refine ⟨_, rfl, fun hf hfull => hlen ?_⟩
          have := hf.Td _ _ hT hd
          simp only [Full, hp, this, hd, hi, hT] at hfull
          simp at hfull
          tauto
        | none =>
          cases hx : k.x with
          | some xa =>
            dsimp only
            obtain ⟨r, hr, hlen⟩ := mpTX_assembles hE hA hn (hl.T ta hT) (hl.x xa hx) (by
              intro i t x hin h1 h3
              obtain ⟨k', hk, hk1, r, hr⟩ := h i hin
              obtain ⟨o, ho⟩ := oneT hk hk1 hT h1
              obtain ⟨o'', ho''⟩ := onex hk hk1 hx h3
              obtain ⟨-, np, nd, -, ni⟩ := none_of hk
              unfold mpSolve at hr
              rw [ni.mp hi] at hr
              dsimp only at hr
              unfold mpSolveBasic at hr
              rw [ho, np.mp hp, nd.mp hd, ho''] at hr
              dsimp only at hr
              obtain ⟨r, hr, -⟩ := bind_ok hr
              exact ⟨r, hr⟩)
            rw [hr, exOk]
            refine ⟨_, rfl, fun hf hfull => hlen ?_⟩
            simp only [Full, hp, hd, hx, hi, hT] at hfull
            simp at hfull
            tauto
          | none =>
            exfalso
            obtain ⟨k', hk, hk1, r, hr⟩ := h 0 hn
            obtain ⟨nT, np, nd, nx, ni⟩ := none_of hk
            cases hT' : k'.T with
            | none => rw [nT.mpr hT'] at hT; cases hT
            | some ta' =>
              unfold mpSolve at hr
              rw [ni.mp hi] at hr
              dsimp only at hr
              unfold mpSolveBasic at hr
              rw [hT', np.mp hp, nd.mp hd, nx.mp hx] at hr
              cases hr
    | none =>
      cases hp : k.p with
      | none =>
        exfalso
        obtain ⟨k', hk, hk1, r, hr⟩ := h 0 hn
        obtain ⟨nT, np, nd, nx, ni⟩ := none_of hk
        unfold mpSolve at hr
        rw [ni.mp hi] at hr
        dsimp only at hr
        unfold mpSolveBasic at hr
        rw [nT.mp hT, np.mp hp] at hr
        cases hr
      | some pa =>
        cases hd : k.d with
        | some da =>
          dsimp only
          obtain ⟨r, hr, hlen⟩ := mpPD_assembles hE hA hn (hl.d da hd) (hl.p pa hp) (by
            intro i d p hin h1 h3
            obtain ⟨k', hk, hk1, r, hr⟩ := h i hin
            obtain ⟨o, ho⟩ := oned hk hk1 hd h1
            obtain ⟨o'', ho''⟩ := onep hk hk1 hp h3
            obtain ⟨nT, -, -, -, ni⟩ := none_of hk
            unfold mpSolve at hr
            rw [ni.mp hi] at hr
            dsimp only at hr
            unfold mpSolveBasic at hr
            rw [ho, nT.mp hT, ho''] at hr
            dsimp only at hr
            obtain ⟨r, hr, -⟩ := bind_ok hr
            exact ⟨r, hr⟩)
          rw [hr, exOk]
          refine ⟨_, rfl, fun hf hfull => hlen ?_⟩
          have := hf.pd _ _ hp hd
          simp only [Full, hp, this, hd, hi, hT] at hfull
          simp at hfull
          tauto
        | none =>
          cases hx : k.x with
          | some xa =>
            dsimp only
            obtain ⟨r, hr, hlen⟩ := mpPX_assembles hE hA hn (hl.p pa hp) (hl.x xa hx) (by
              intro i p x hin h1 h3
              obtain ⟨k', hk, hk1, r, hr⟩ := h i hin
              obtain ⟨o, ho⟩ := onep hk hk1 hp h1
              obtain ⟨o'', ho''⟩ := onex hk hk1 hx h3
              obtain ⟨nT, -, nd, -, ni⟩ := none_of hk
              unfold mpSolve at hr
              rw [ni.mp hi] at hr
              dsimp only at hr
              unfold mpSolveBasic at hr
              rw [ho, nT.mp hT, nd.mp hd, ho''] at hr
              dsimp only at hr
              obtain ⟨r, hr, -⟩ := bind_ok hr
              exact ⟨r, hr⟩)
            rw [hr, exOk]
            refine ⟨_, rfl, fun hf hfull => hlen ?_⟩
            simp only [Full, hp, hd, hx, hi, hT] at hfull
            simp at hfull
            tauto
          | none =>
            exfalso
            obtain ⟨k', hk, hk1, r, hr⟩ := h 0 hn
            obtain ⟨nT, np, nd, nx, ni⟩ := none_of hk
            cases hp' : k'.p with
            | none => rw [np.mpr hp'] at hp; cases hp
            | some pa' =>
              unfold mpSolve at hr
              rw [ni.mp hi] at hr
              dsimp only at hr
              unfold mpSolveBasic at hr
              rw [nT.mp hT, hp', nd.mp hd, nx.mp hx] at hr
              cases hr

end

/-! ## The call -/

theorem entryKw_names (i : Nat) (kw : Kw) : (entryKw i kw).map (·.1) = kw.map (·.1) := by
  simp [entryKw, Function.comp_def]

theorem entryKw_has (i : Nat) (kw : Kw) (n : String) : (entryKw i kw).has n = kw.has n := by
  rw [Bool.eq_iff_iff, has_iff, has_iff, entryKw_names]

theorem elems_entry (i : Nat) (v : Val ℝ) : ∃ y, entry i v = .scalar y := by
  unfold entry
  split <;> exact ⟨_, rfl⟩

theorem entry_elem {i n : Nat} (hi : i < n) {v : Val ℝ} (hv : (Val.elems v).length = n ∨ (Val.elems v).length = 1) :
    ∃ y, Elem (Val.elems v) i y ∧ entry i v = .scalar y := by
  match v, hv with
  | .scalar x, _ => exact ⟨x, .inr rfl, rfl⟩
  | .arr [x], _ => exact ⟨x, .inr rfl, rfl⟩
  | .arr [], hv => simp [Val.elems] at hv; omega
  | .arr (x :: y :: l), hv =>
    have hl : i < (x :: y :: l).length := by
      simp only [Val.elems] at hv
      simp only [List.length_cons] at hv ⊢
      omega
    refine ⟨(x :: y :: l)[i], .inl ?_, ?_⟩
    · simp only [Val.elems]
      exact List.getElem?_eq_getElem hl
    · simp only [entry]
      congr 1
      simp [List.getD, List.getElem?_eq_getElem hl]

theorem bindPos_entry (i : Nat) (varg : List (Val ℝ)) (kw : Kw) :
    bindPos (varg.map (entry i)) (entryKw i kw) = (bindPos varg kw).map (entryKw i) := by
  match varg with
  | [] => rfl
  | [T] =>
    simp only [bindPos, List.map_cons, List.map_nil, entryKw_has]
    split <;> rfl
  | [T, p] =>
    simp only [bindPos, List.map_cons, List.map_nil, entryKw_has]
    split
    · rfl
    split <;> rfl
  | _ :: _ :: _ :: _ => rfl

theorem map_ok {α β : Type} {x : Except Err α} {f : α → β} {r : β} (h : x.map f = .ok r) : ∃ a, x = .ok a ∧ f a = r := by
  cases x with
  | error e => cases h
  | ok a => exact ⟨a, rfl, by cases h; rfl⟩

theorem applyDefaults_entry {E : Env} (i : Nat) (hT : ∀ T, retOf (defT E.c) = .ok T → ∃ x, T = .scalar x)
    (hp : ∀ p, retOf (defp E.a E.c) = .ok p → ∃ x, p = .scalar x) (kw : Kw) :
    applyDefaults E (entryKw i kw) = (applyDefaults E kw).map (entryKw i) := by
  match kw with
  | [] =>
    simp only [entryKw, applyDefaults, List.map_nil]
    cases h1 : retOf (defT E.c) with
    | error e => rfl
    | ok T =>
      obtain ⟨x, rfl⟩ := hT T h1
      cases h2 : retOf (defp E.a E.c) with
      | error e => rfl
      | ok p =>
        obtain ⟨y, rfl⟩ := hp p h2
        rfl
  | [q] =>
    simp only [entryKw, applyDefaults, List.map_cons, List.map_nil]
    split
    · cases h1 : retOf (defT E.c) with
      | error e => rfl
      | ok T => obtain ⟨x, rfl⟩ := hT T h1; rfl
    · cases h1 : retOf (defp E.a E.c) with
      | error e => rfl
      | ok T => obtain ⟨x, rfl⟩ := hp T h1; rfl
  | _ :: _ :: _ => rfl

theorem mpRules_entry (i : Nat) (kw : Kw) : mpRules (entryKw i kw) = mpRules kw := by
  rcases mpRules_cases (entryKw i kw) with ⟨h1, h2⟩ | ⟨h1, h2⟩ <;> rcases mpRules_cases kw with ⟨h3, h4⟩ | ⟨h3, h4⟩ <;>
    rw [entryKw_names] at h2
  · rw [h1, h3]
  · exact absurd h2 h4
  · exact absurd h4 h2
  · rw [h1, h3]

theorem argKg_len {E : Env} {U : Sys} {mw : ℝ} {kw : Kw} (hn : (kw.map (·.1)).Nodup) {P : Nat → Prop}
    (h : ∀ q ∈ kw, P (Val.elems q.2).length) {m : String} {a : Arg} (ha : argKg E U mw kw m = some a) : P a.xs.length := by
  obtain ⟨⟨m', v⟩, hv, rfl⟩ := List.mem_map.mp (has_of_argKg ha)
  rw [argKg_of_mem hn hv] at ha
  cases ha
  simpa using h _ hv

theorem parsed_lens {E : Env} {U : Sys} {B : Sub} {kw : Kw} (hn : (kw.map (·.1)).Nodup) {n : Nat} {k : MStd}
    (h : ∀ q ∈ kw, (Val.elems q.2).length = n ∨ (Val.elems q.2).length = 1) (hk : Parsed E U B kw k) : Lens k n := by
  have key := fun m a => argKg_len (E := E) (U := U) (mw := B.mw) hn (P := fun l => l = n ∨ l = 1) h (m := m) (a := a)
  constructor
  · intro a ha
    rw [hk.T, Option.map_eq_some_iff] at ha
    obtain ⟨b, hb, rfl⟩ := ha
    simpa using key _ _ hb
  · intro a ha
    rw [hk.p, Option.map_eq_some_iff] at ha
    obtain ⟨b, hb, rfl⟩ := ha
    simpa using key _ _ hb
  · intro a ha
    rw [hk.d] at ha
    unfold mpDensity at ha
    cases hv : argKg E U B.mw kw "v" with
    | none => rw [hv] at ha; exact key _ _ ha
    | some b =>
      rw [hv] at ha
      cases ha
      simpa using key _ _ hv
  · intro a ha
    rw [hk.x] at ha
    exact key _ _ ha
  · intro j a ha
    rw [hk.inv] at ha
    unfold mpInv at ha
    split at ha
    · cases ha; exact key _ _ (by assumption)
    · cases ha; exact key _ _ (by assumption)
    · cases ha; exact key _ _ (by assumption)
    · cases ha

theorem threeBad {names : List String} (hr : RulesOk names) {a b c : String} (ha : a ∈ names) (hb : b ∈ names)
    (hc : c ∈ names) (hnd : [a, b, c].Nodup) (hbad : a ∉ ["T", "p", "x"]) : False := by
  rcases hr.few with h | h
  · have hs : [a, b, c] ⊆ names := by
      intro z hz
      simp only [List.mem_cons, List.not_mem_nil, or_false] at hz
      rcases hz with rfl | rfl | rfl <;> assumption
    have := (hnd.subperm hs).length_le
    simp only [List.length_cons, List.length_nil] at this
    omega
  · exact hbad (h a ha)

section
variable {E : Env} {U : Sys} {B : Sub} {kw : Kw} {k : MStd} (hk : Parsed E U B kw k)
include hk

theorem parsed_hasT {a : NArg} (h : k.T = some a) : "T" ∈ kw.map (·.1) := by
  rw [hk.T, Option.map_eq_some_iff] at h
  obtain ⟨b, hb, -⟩ := h
  exact has_of_argKg hb

theorem parsed_hasp {a : NArg} (h : k.p = some a) : "p" ∈ kw.map (·.1) := by
  rw [hk.p, Option.map_eq_some_iff] at h
  obtain ⟨b, hb, -⟩ := h
  exact has_of_argKg hb

theorem parsed_hasx {a : Arg} (h : k.x = some a) : "x" ∈ kw.map (·.1) := by
  rw [hk.x] at h
  exact has_of_argKg h

theorem parsed_hasd {a : Arg} (h : k.d = some a) : ∃ m ∈ ["d", "v"], m ∈ kw.map (·.1) := by
  rw [hk.d] at h
  unfold mpDensity at h
  cases hv : argKg E U B.mw kw "v" with
  | none => rw [hv] at h; exact ⟨"d", by simp, has_of_argKg h⟩
  | some b => exact ⟨"v", by simp, has_of_argKg hv⟩

theorem parsed_hasi {a : Mp.Inv × Arg} (h : k.inv = some a) : ∃ m ∈ ["e", "h", "s"], m ∈ kw.map (·.1) := by
  rw [hk.inv] at h
  unfold mpInv at h
  split at h
  · rename_i b hb; exact ⟨"e", by simp, has_of_argKg hb⟩
  · rename_i b hb hb'; exact ⟨"h", by simp, has_of_argKg (by assumption)⟩
  · exact ⟨"s", by simp, has_of_argKg (by assumption)⟩
  · cases h

theorem parsed_few (hr : RulesOk (kw.map (·.1))) : Few k := by
  have none_of : ∀ {α : Type} {o : Option α}, (∀ a, o = some a → False) → o = none := by
    intro α o h
    cases o with
    | none => rfl
    | some a => exact (h a rfl).elim
  constructor
  · intro a b hi hp
    obtain ⟨m, hm, hm'⟩ := parsed_hasi hk hi
    have hp' := parsed_hasp hk hp
    refine ⟨none_of fun c hc => ?_, none_of fun c hc => ?_, none_of fun c hc => ?_⟩
    · refine threeBad hr hm' hp' (parsed_hasT hk hc) ?_ ?_ <;> simp at hm ⊢ <;> rcases hm with rfl | rfl | rfl <;> simp
    · obtain ⟨z, hz, hz'⟩ := parsed_hasd hk hc
      refine threeBad hr hm' hp' hz' ?_ ?_ <;> simp at hm hz ⊢ <;> rcases hm with rfl | rfl | rfl <;> rcases hz with rfl | rfl <;> simp
    · refine threeBad hr hm' hp' (parsed_hasx hk hc) ?_ ?_ <;> simp at hm ⊢ <;> rcases hm with rfl | rfl | rfl <;> simp
  · intro a b hi hd
    obtain ⟨m, hm, hm'⟩ := parsed_hasi hk hi
    obtain ⟨z, hz, hz'⟩ := parsed_hasd hk hd
    refine ⟨none_of fun c hc => ?_, none_of fun c hc => ?_, none_of fun c hc => ?_⟩
    · refine threeBad hr hm' (parsed_hasT hk hc) hz' ?_ ?_ <;> simp at hm hz ⊢ <;> rcases hm with rfl | rfl | rfl <;> rcases hz with rfl | rfl <;> simp
    · refine threeBad hr hm' (parsed_hasp hk hc) hz' ?_ ?_ <;> simp at hm hz ⊢ <;> rcases hm with rfl | rfl | rfl <;> rcases hz with rfl | rfl <;> simp
    · refine threeBad hr hm' (parsed_hasx hk hc) hz' ?_ ?_ <;> simp at hm hz ⊢ <;> rcases hm with rfl | rfl | rfl <;> rcases hz with rfl | rfl <;> simp
  · intro a b hi hT
    obtain ⟨m, hm, hm'⟩ := parsed_hasi hk hi
    have hp' := parsed_hasT hk hT
    refine ⟨none_of fun c hc => ?_, none_of fun c hc => ?_, none_of fun c hc => ?_⟩
    · refine threeBad hr hm' hp' (parsed_hasp hk hc) ?_ ?_ <;> simp at hm ⊢ <;> rcases hm with rfl | rfl | rfl <;> simp
    · obtain ⟨z, hz, hz'⟩ := parsed_hasd hk hc
      refine threeBad hr hm' hp' hz' ?_ ?_ <;> simp at hm hz ⊢ <;> rcases hm with rfl | rfl | rfl <;> rcases hz with rfl | rfl <;> simp
    · refine threeBad hr hm' hp' (parsed_hasx hk hc) ?_ ?_ <;> simp at hm ⊢ <;> rcases hm with rfl | rfl | rfl <;> simp
  · intro a b hT hp
    refine none_of fun c hc => ?_
    obtain ⟨z, hz, hz'⟩ := parsed_hasd hk hc
    refine threeBad hr hz' (parsed_hasT hk hT) (parsed_hasp hk hp) ?_ ?_ <;> simp at hz ⊢ <;> rcases hz with rfl | rfl <;> simp
  · intro a b hT hd
    refine none_of fun c hc => ?_
    obtain ⟨z, hz, hz'⟩ := parsed_hasd hk hd
    refine threeBad hr hz' (parsed_hasT hk hT) (parsed_hasx hk hc) ?_ ?_ <;> simp at hz ⊢ <;> rcases hz with rfl | rfl <;> simp
  · intro a b hp hd
    refine none_of fun c hc => ?_
    obtain ⟨z, hz, hz'⟩ := parsed_hasd hk hd
    refine threeBad hr hz' (parsed_hasp hk hp) (parsed_hasx hk hc) ?_ ?_ <;> simp at hz ⊢ <;> rcases hz with rfl | rfl <;> simp

theorem parsed_full (hr : RulesOk (kw.map (·.1))) (hn : (kw.map (·.1)).Nodup) {n : Nat}
    (h : ∃ q ∈ kw, (Val.elems q.2).length = n) : Full k n := by
  obtain ⟨⟨m, v⟩, hq, hv⟩ := h
  have ha := argKg_of_mem (E := E) (U := U) (mw := B.mw) hn hq
  have hm : m ∈ kw.map (·.1) := List.mem_map.mpr ⟨_, hq, rfl⟩
  have hlegal := hr.known m hm
  dsimp only at hv
  have no : ∀ m' : String, (m' ∈ kw.map (·.1) → False) → argKg E U B.mw kw m' = none := by
    intro m' h
    cases hc : argKg E U B.mw kw m' with
    | none => rfl
    | some a => exact absurd (has_of_argKg hc) h
  unfold Full
  simp only [mpLegal, List.mem_cons, List.not_mem_nil, or_false] at hlegal
  rcases hlegal with rfl | rfl | rfl | rfl | rfl | rfl | rfl | rfl
  · left
    rw [hk.T, ha]
    exact ⟨_, rfl, by simpa using hv⟩
  · right; left
    rw [hk.p, ha]
    exact ⟨_, rfl, by simpa using hv⟩
  · right; right; left
    rw [hk.d, ha, no "v" (fun h => hr.not_dv ⟨hm, h⟩)]
    exact ⟨_, rfl, by simpa using hv⟩
  · right; right; left
    rw [hk.d, ha]
    exact ⟨_, rfl, by simpa using hv⟩
  · right; right; right; left
    rw [hk.x, ha]
    exact ⟨_, rfl, by simpa using hv⟩
  · right; right; right; right
    rw [hk.inv, ha]
    exact ⟨_, _, rfl, by simpa using hv⟩
  · right; right; right; right
    rw [hk.inv, ha, no "e" (fun h => by simpa using hr.one_ehs _ h _ hm (by simp) (by simp))]
    exact ⟨_, _, rfl, by simpa using hv⟩
  · right; right; right; right
    rw [hk.inv, ha, no "e" (fun h => by simpa using hr.one_ehs _ h _ hm (by simp) (by simp)),
      no "h" (fun h => by simpa using hr.one_ehs _ h _ hm (by simp) (by simp))]
    exact ⟨_, _, rfl, by simpa using hv⟩

end

theorem parsed_range {E : Env} {U : Sys} {B : Sub} {kw : Kw} {k : MStd} (h : parsed E U B kw = .ok k) :
    (∀ a, argKg E U B.mw kw "T" = some a → ∃ x ∈ a.xs, B.Tlo ≤ x ∧ x ≤ B.Thi) ∧
    (∀ a, argKg E U B.mw kw "p" = some a → ∃ x ∈ a.xs, B.plo ≤ x ∧ x ≤ B.phi) ∧
    (∀ a, argKg E U B.mw kw "x" = some a → ∀ x ∈ a.xs, -1 ≤ x ∧ x ≤ 1) := by
  unfold parsed at h
  obtain ⟨T, hT, h⟩ := bind_ok h
  obtain ⟨p, hp, h⟩ := bind_ok h
  obtain ⟨_, hx, h⟩ := bind_ok h
  have key : ∀ {lo hi : ℝ} {a : Arg} {r}, mpRange lo hi (some a) = .ok r → ∃ x ∈ a.xs, lo ≤ x ∧ x ≤ hi := by
    intro lo hi a r hr
    by_contra hc
    push Not at hc
    rw [mpRange_bad (fun x hx => by
      by_contra hh
      push Not at hh
      exact absurd (hc x hx hh.1) (not_lt.mpr hh.2))] at hr
    cases hr
  refine ⟨fun a ha => ?_, fun a ha => ?_, fun a ha => ?_⟩
  · rw [ha] at hT; exact key hT
  · rw [ha] at hp; exact key hp
  · rcases mpQuality_cases (argKg E U B.mw kw "x") with ⟨h1, -⟩ | ⟨-, h1⟩
    · rw [h1] at hx; cases hx
    · exact h1 a ha

theorem parsed_ok {E : Env} {U : Sys} {B : Sub} {kw : Kw}
    (hT : ∀ a, argKg E U B.mw kw "T" = some a → ∃ x ∈ a.xs, B.Tlo ≤ x ∧ x ≤ B.Thi)
    (hp : ∀ a, argKg E U B.mw kw "p" = some a → ∃ x ∈ a.xs, B.plo ≤ x ∧ x ≤ B.phi)
    (hx : ∀ a, argKg E U B.mw kw "x" = some a → ∀ x ∈ a.xs, -1 ≤ x ∧ x ≤ 1) : ∃ k, parsed E U B kw = .ok k := by
  unfold parsed
  have key : ∀ {lo hi : ℝ} {o : Option Arg}, (∀ a, o = some a → ∃ x ∈ a.xs, lo ≤ x ∧ x ≤ hi) → ∃ r, mpRange lo hi o = .ok r := by
    intro lo hi o h
    cases o with
    | none => exact ⟨_, rfl⟩
    | some a => exact ⟨_, mpRange_some (h a rfl)⟩
  obtain ⟨T, h1⟩ := key hT
  obtain ⟨p, h2⟩ := key hp
  rw [h1, exOk, h2, exOk]
  rcases mpQuality_cases (argKg E U B.mw kw "x") with ⟨-, a, ha, x, hx', hb⟩ | ⟨h1, -⟩
  · have := hx a ha x hx'
    rcases hb with hb | hb <;> linarith
  · rw [h1, exOk]
    exact ⟨_, rfl⟩

section
variable {E : Env} {U : Sys} (hU : Uses E U) {B : Sub} (hmw : B.mw ≠ 0) {S : Sol} {varg : List (Val ℝ)} {kw : Kw}
  (hkw : (kw.map (·.1)).Nodup) {n : Nat} (hsize : Size varg kw n)
include hU hmw hkw hsize

theorem argparse_assembles (hE : Elementwise B S) (hA : Assembles B S)
    (h : ∀ i < n, ∃ r, mpArgparse E B S (varg.map (entry i)) (entryKw i kw) = .ok r) :
    ∃ r, mpArgparse E B S varg kw = .ok r ∧ r.pts.length = n := by
  obtain ⟨_, -, hT⟩ := defT_eq hU
  obtain ⟨_, -, -, hp⟩ := defp_eq hU
  have hT' : ∀ T, retOf (defT E.c) = .ok T → ∃ x, T = .scalar x := fun T h => by rw [hT] at h; cases h; exact ⟨_, rfl⟩
  have hp' : ∀ p, retOf (defp E.a E.c) = .ok p → ∃ x, p = .scalar x := fun T h => by rw [hp] at h; cases h; exact ⟨_, rfl⟩
  have steps : ∀ i < n, ∃ kw1 kw2 k r, bindPos varg kw = .ok kw1 ∧ applyDefaults E kw1 = .ok kw2 ∧ mpRules kw2 = .ok () ∧
      parsed E U B (entryKw i kw2) = .ok k ∧ mpSolve B S k = .ok r := by
    intro i hi
    obtain ⟨r, hr⟩ := h i hi
    rw [mpArgparse_eq hU hmw, bindPos_entry] at hr
    obtain ⟨_, h1, hr⟩ := bind_ok hr
    obtain ⟨kw1, h1', rfl⟩ := map_ok h1
    unfold afterPos at hr
    rw [applyDefaults_entry i hT' hp'] at hr
    obtain ⟨_, h2, hr⟩ := bind_ok hr
    obtain ⟨kw2, h2', rfl⟩ := map_ok h2
    rw [mpRules_entry] at hr
    obtain ⟨_, h3, hr⟩ := bind_ok hr
    obtain ⟨k, h4, hr⟩ := bind_ok hr
    exact ⟨kw1, kw2, k, r, h1', h2', h3, h4, hr⟩
  obtain ⟨kw1, kw2, k0, r0, b1, b2, b3, b4, b5⟩ := steps 0 hsize.pos
  have steps' : ∀ i < n, ∃ k r, parsed E U B (entryKw i kw2) = .ok k ∧ mpSolve B S k = .ok r := by
    intro i hi
    obtain ⟨kw1', kw2', k, r, c1, c2, c3, c4, c5⟩ := steps i hi
    rw [b1] at c1; cases c1
    rw [b2] at c2; cases c2
    exact ⟨k, r, c4, c5⟩
  obtain ⟨n1, m1⟩ := bindPos_keeps hkw b1
  obtain ⟨n2, m2, m3, m4⟩ := applyDefaults_keeps n1 b2
  have lens2 : ∀ q ∈ kw2, (Val.elems q.2).length = n ∨ (Val.elems q.2).length = 1 := by
    have l1 : ∀ q ∈ kw1, (Val.elems q.2).length = n ∨ (Val.elems q.2).length = 1 :=
      fun q hq => hsize.all q ((m1 q).mpr hq)
    intro q hq
    match kw1, b2, l1 with
    | [], b2, l1 =>
      simp only [applyDefaults] at b2
      obtain ⟨T, c1, b2⟩ := bind_ok b2
      obtain ⟨p, c2, b2⟩ := bind_ok b2
      cases b2
      obtain ⟨x, rfl⟩ := hT' T c1
      obtain ⟨y, rfl⟩ := hp' p c2
      simp only [List.mem_cons, List.not_mem_nil, or_false] at hq
      rcases hq with rfl | rfl <;> exact .inr rfl
    | [q'], b2, l1 =>
      simp only [applyDefaults] at b2
      split at b2
      · obtain ⟨T, c1, b2⟩ := bind_ok b2
        cases b2
        obtain ⟨x, rfl⟩ := hT' T c1
        simp only [List.mem_cons, List.not_mem_nil, or_false] at hq
        rcases hq with rfl | rfl
        · exact .inr rfl
        · exact l1 _ (by simp)
      · obtain ⟨T, c1, b2⟩ := bind_ok b2
        cases b2
        obtain ⟨x, rfl⟩ := hp' T c1
        simp only [List.mem_cons, List.not_mem_nil, or_false] at hq
        rcases hq with rfl | rfl
        · exact .inr rfl
        · exact l1 _ (by simp)
    | a :: b :: l, b2, l1 =>
      cases b2
      exact l1 q hq
  have nonempty : ∃ q, q ∈ kw2 := by
    match kw1, b2 with
    | [], b2 =>
      simp only [applyDefaults] at b2
      obtain ⟨T, c1, b2⟩ := bind_ok b2
      obtain ⟨p, c2, b2⟩ := bind_ok b2
      cases b2
      exact ⟨("p", p), by simp⟩
    | q :: l, b2 => exact ⟨q, m2 q (by simp)⟩
  have full2 : ∃ q ∈ kw2, (Val.elems q.2).length = n := by
    rcases hsize.some with h1 | ⟨q, hq, hl⟩
    · obtain ⟨q, hq⟩ := nonempty
      exact ⟨q, hq, by rcases lens2 q hq with h | h <;> omega⟩
    · exact ⟨q, m2 q ((m1 q).mp hq), hl⟩
  have rules : RulesOk (kw2.map (·.1)) := by
    rcases mpRules_cases kw2 with ⟨-, h⟩ | ⟨h, -⟩
    · exact h
    · rw [h] at b3; cases b3
  have same : ∀ i < n, SameKw kw2 (entryKw i kw2) i 0 := by
    intro i hi
    refine ⟨fun m => by rw [entryKw_names], fun m v v' h1 h2 => ?_⟩
    obtain ⟨⟨m', w⟩, h3, h4⟩ := List.mem_map.mp h2
    simp only [Prod.mk.injEq] at h4
    obtain ⟨rfl, rfl⟩ := h4
    have : w = v := by
      have e1 := lookup_of_mem n2 h1
      have e2 := lookup_of_mem n2 h3
      rw [e1] at e2
      exact (Option.some.inj e2).symm
    subst this
    obtain ⟨y, e1, e2⟩ := entry_elem hi (lens2 _ h1)
    exact ⟨y, e1, by rw [e2]; exact .inr rfl⟩
  have n2' : ∀ i, ((entryKw i kw2).map (·.1)).Nodup := fun i => by rw [entryKw_names]; exact n2
  have ent : ∀ i < n, ∀ (m : String) a, argKg E U B.mw kw2 m = some a → ∃ a' z, argKg E U B.mw (entryKw i kw2) m = some a' ∧
      Elem a.xs i z ∧ a'.xs = [z] := by
    intro i hi m a ha
    rcases argKg_same (E := E) (U := U) (mw := B.mw) (same i hi) n2 (n2' i) m with ⟨h1, -⟩ | ⟨xs, ys, z, h1, h2, h3, h4⟩
    · rw [ha] at h1; cases h1
    · rw [ha] at h1
      cases h1
      obtain ⟨a', ha', rfl⟩ := Option.map_eq_some_iff.mp h2
      refine ⟨a', z, ha', h3, ?_⟩
      have hl : a'.xs.length = 1 := argKg_len (n2' i) (P := fun l => l = 1) (by
        intro q hq
        obtain ⟨q', -, rfl⟩ := List.mem_map.mp hq
        obtain ⟨y, hy⟩ := elems_entry i q'.2
        dsimp only
        rw [hy]; rfl) ha'
      generalize a'.xs = l at *
      match l, hl with
      | [w], _ => rcases h4 with h4 | h4 <;> simpa using h4
  have mem_elem : ∀ {α : Type} {l : List α} {i : Nat} {z : α}, Elem l i z → z ∈ l := by
    intro α l i z hz
    rcases hz with h | h
    · exact List.mem_of_getElem? h
    · rw [h]; simp
  obtain ⟨r1, r2, -⟩ := parsed_range b4
  obtain ⟨k, hk⟩ := parsed_ok (E := E) (U := U) (B := B) (kw := kw2)
    (by
      intro a ha
      obtain ⟨a', z, e1, e2, e3⟩ := ent 0 hsize.pos _ a ha
      obtain ⟨x, hx, hr⟩ := r1 a' e1
      rw [e3, List.mem_singleton] at hx
      subst hx
      exact ⟨x, mem_elem e2, hr⟩)
    (by
      intro a ha
      obtain ⟨a', z, e1, e2, e3⟩ := ent 0 hsize.pos _ a ha
      obtain ⟨x, hx, hr⟩ := r2 a' e1
      rw [e3, List.mem_singleton] at hx
      subst hx
      exact ⟨x, mem_elem e2, hr⟩)
    (by
      intro a ha x hx
      obtain ⟨i, hi⟩ := List.mem_iff_getElem?.mp hx
      have hl := argKg_len n2 (P := fun l => l = n ∨ l = 1) lens2 ha
      have hin : i < n := by
        have := (List.getElem?_eq_some_iff.mp hi).1
        have := hsize.pos
        rcases hl with hl | hl <;> omega
      obtain ⟨a', z, e1, e2, e3⟩ := ent i hin _ a ha
      obtain ⟨k', r', c1, -⟩ := steps' i hin
      obtain ⟨-, -, r3⟩ := parsed_range c1
      have := r3 a' e1 z (by rw [e3]; simp)
      rwa [elem_unique e2 (.inl hi)] at this)
  have pk : ∀ {kw : Kw} {k : MStd}, parsed E U B kw = .ok k → Parsed E U B kw k := by
    intro kw k h
    rcases parsed_cases E U B kw with h1 | ⟨k', h1, h2⟩
    · rw [h1] at h; cases h
    · rw [h1] at h; cases h; exact h2
  obtain ⟨r, hr, hlen⟩ := solve_assembles hE hA hsize.pos (k := k) (parsed_lens n2 lens2 (pk hk)) (by
    intro i hi
    obtain ⟨k', r', c1, c2⟩ := steps' i hi
    refine ⟨k', parsed_entry (same i hi) n2 (n2' i) (pk hk) (pk c1), parsed_lens (n2' i) ?_ (pk c1), r', c2⟩
    intro q hq
    obtain ⟨q', -, rfl⟩ := List.mem_map.mp hq
    obtain ⟨y, hy⟩ := elems_entry i q'.2
    dsimp only
    rw [hy]; exact .inl rfl)
  refine ⟨r, ?_, hlen (parsed_few (pk hk) rules) (parsed_full (pk hk) rules n2 full2)⟩
  rw [mpArgparse_eq hU hmw, b1, exOk]
  unfold afterPos
  rw [b2, exOk, b3, exOk, hk, exOk, hr]

theorem same_entry {r : MOut} (h : mpArgparse E B S varg kw = .ok r) {i : Nat} (hi : i < n) :
    SameElement varg kw i (varg.map (entry i)) (entryKw i kw) 0 := by
  obtain ⟨kw1, -, -, m1, n1, -⟩ := argparse_steps hU hmw hkw h
  have e : supplied (varg.map (entry i)) (entryKw i kw) = entryKw i (supplied varg kw) := by
    unfold supplied entryKw
    rw [List.map_append, List.zip_map_right]
    rfl
  rw [show SameElement varg kw i (varg.map (entry i)) (entryKw i kw) 0 ↔ _ from
    ⟨fun h => (⟨h.names, h.values⟩ : _ ∧ _), fun h => ⟨h.1, h.2⟩⟩, e]
  refine ⟨fun m => by rw [entryKw_names], fun m v v' h1 h2 => ?_⟩
  obtain ⟨⟨m', w⟩, h3, h4⟩ := List.mem_map.mp h2
  simp only [Prod.mk.injEq] at h4
  obtain ⟨rfl, rfl⟩ := h4
  have : w = v := by
    have e1 := lookup_of_mem n1 ((m1 _).mp h1)
    have e2 := lookup_of_mem n1 ((m1 _).mp h3)
    rw [e1] at e2
    exact (Option.some.inj e2).symm
  subst this
  obtain ⟨y, e1, e2⟩ := entry_elem hi (hsize.all _ h1)
  exact ⟨y, e1, by rw [e2]; exact .inr rfl⟩

theorem array_pts {β : Type} (f : Pt → β) (y : Nat → β)
    (h : ∀ i < n, ∃ r, mpArgparse E B (codeSol B) (varg.map (entry i)) (entryKw i kw) = .ok r ∧ r.pts.map f = [y i]) :
    ∃ r, mpArgparse E B (codeSol B) varg kw = .ok r ∧ r.pts.map f = (List.range n).map y := by
  obtain ⟨r, hr, hlen⟩ := argparse_assembles hU hmw hkw hsize (elementwise_code B) (assembles_code B)
    (fun i hi => by obtain ⟨r, hr, -⟩ := h i hi; exact ⟨r, hr⟩)
  refine ⟨r, hr, ?_⟩
  apply List.ext_getElem (by simp [hlen])
  intro i h1 h2
  have hi : i < n := by simpa using h2
  obtain ⟨r', hr', hy⟩ := h i hi
  obtain ⟨q', hp, hq⟩ : ∃ q', r'.pts = [q'] ∧ f q' = y i := List.map_eq_singleton_iff.mp hy
  have := pts_same hU hmw hkw (by rw [entryKw_names]; exact hkw) (elementwise_code B)
    (same_entry hU hmw hkw hsize hr hi) hr hr' (q := r.pts[i]'(by omega)) (q' := q')
    (List.getElem?_eq_getElem _) (by rw [hp]; rfl)
  simp only [List.getElem_map, List.getElem_range, this, hq]

end

section
variable (E : Env) (U : Sys) (hU : Uses E U) (B : Sub) (hmw : B.mw ≠ 0) (varg : List (Val ℝ)) (kw : Kw)
  (hkw : (kw.map (·.1)).Nodup) (n : Nat) (hsize : Size varg kw n)
include hU hmw hkw hsize

/-- C80.  If the calls with the single numbers of each of the `n` states return, the array call returns
too, and what it returns is the array of their results. -/
theorem C80_array (m : MQuantity) (hm : m ≠ .cv) (y : Nat → Nan)
    (h : ∀ i < n, mpMethod m E B (codeSol B) (varg.map (entry i)) (entryKw i kw) = .ok [y i]) :
    mpMethod m E B (codeSol B) varg kw = .ok ((List.range n).map y) := by
  obtain ⟨r, hr, he⟩ := array_pts hU hmw hkw hsize (ptValue E U B m) y (by
    intro i hi
    obtain ⟨r, hr⟩ := method_parsed hU hmw (h i hi)
    refine ⟨r, hr, ?_⟩
    have := h i hi
    rw [method_pts hU hmw hr hm] at this
    exact Except.ok.inj this)
  rw [method_pts hU hmw hr hm, he]

/-- C80 for `cv`: the array of the results, or `ValueError` when some states but not all are saturated. -/
theorem C80_array_cv_partial (y : Nat → Nan)
    (h : ∀ i < n, mpMethod .cv E B (codeSol B) (varg.map (entry i)) (entryKw i kw) = .ok [y i]) :
    mpMethod .cv E B (codeSol B) varg kw = .ok ((List.range n).map y) ∨
    (mpMethod .cv E B (codeSol B) varg kw = .error .value ∧ ∃ i < n, ∃ j < n, ∃ r r',
      mpArgparse E B (codeSol B) (varg.map (entry i)) (entryKw i kw) = .ok r ∧ (∃ q ∈ r.pts, q.I = true) ∧
      mpArgparse E B (codeSol B) (varg.map (entry j)) (entryKw j kw) = .ok r' ∧ ∃ q ∈ r'.pts, q.I = false) := by
  have one : ∀ i < n, ∃ r q, mpArgparse E B (codeSol B) (varg.map (entry i)) (entryKw i kw) = .ok r ∧ r.pts = [q] ∧
      (Pt.cv B q).map (inUnitsKg E.a U B.mw .entropy) = y i := by
    intro i hi
    have := h i hi
    simp only [mpMethod] at this
    rw [mpCv_eq hU hmw] at this
    obtain ⟨r, hr, this⟩ := bind_ok this
    split at this
    · cases this
    have e := Except.ok.inj this
    simp only [outsKg, List.map_map] at e
    obtain ⟨q, hq, hv⟩ := List.map_eq_singleton_iff.mp e
    exact ⟨r, q, hr, hq, hv⟩
  have : Nonempty MOut := ⟨(one 0 hsize.pos).choose⟩
  have : Nonempty Pt := ⟨(one 0 hsize.pos).choose_spec.choose⟩
  choose! R Q hR hQ hV using one
  obtain ⟨r, hr, he⟩ := array_pts hU hmw hkw hsize (fun q => q) Q (by
    intro i hi
    exact ⟨R i, hR i hi, by rw [hQ i hi]; rfl⟩)
  rw [List.map_id'] at he
  simp only [mpMethod]
  rw [mpCv_eq hU hmw, hr, exOk]
  split
  · rename_i hc
    right
    refine ⟨rfl, ?_⟩
    simp only [Bool.and_eq_true, List.any_eq_true, Bool.not_eq_true', List.all_eq_false, he, List.mem_map, List.mem_range] at hc
    obtain ⟨⟨_, ⟨i, hi, rfl⟩, h1⟩, _, ⟨j, hj, rfl⟩, h2⟩ := hc
    exact ⟨i, hi, j, hj, R i, R j, hR i hi, ⟨Q i, by rw [hQ i hi]; simp, h1⟩, hR j hj, Q j, by rw [hQ j hj]; simp,
      by simpa using h2⟩
  · left
    congr 1
    rw [he]
    simp only [outsKg, List.map_map]
    refine List.map_congr_left (fun i hi => ?_)
    exact hV i (List.mem_range.mp hi)

/-- C80 for `cp` and `gam`. -/
theorem C80_array_cp (y : Nat → Cand) :
    ((∀ i < n, mpCp E B (codeSol B) (varg.map (entry i)) (entryKw i kw) = .ok [y i]) →
      mpCp E B (codeSol B) varg kw = .ok ((List.range n).map y)) ∧
    ((∀ i < n, mpGam E B (codeSol B) (varg.map (entry i)) (entryKw i kw) = .ok [y i]) →
      mpGam E B (codeSol B) varg kw = .ok ((List.range n).map y)) := by
  have zz : ∀ (l : List Pt) (g : Pt → Nan → Cand) (c : Pt → Nan), List.zipWith g l (l.map c) = l.map (fun q => g q (c q)) := by
    intro l g c
    induction l with
    | nil => rfl
    | cons a l ih => simp [ih]
  constructor
  · intro h
    have e : ∀ {varg : List (Val ℝ)} {kw : Kw}, mpCp E B (codeSol B) varg kw
        = mpArgparse E B (codeSol B) varg kw >>= fun r => .ok (r.pts.map (fun q =>
          if q.I then .pinf else Cand.ofNan ((Pt.at B.F.cp q.T q.d1).map (inUnitsKg E.a U B.mw .entropy)))) := by
      intro varg kw
      rw [mpCp_eq hU hmw]
      congr 1
      funext r
      simp only [outsKg, List.map_map]
      rw [zz]
      rfl
    obtain ⟨r, hr, he⟩ := array_pts hU hmw hkw hsize _ y (by
      intro i hi
      have := h i hi
      rw [e] at this
      obtain ⟨r, hr, h⟩ := bind_ok this
      exact ⟨r, hr, Except.ok.inj h⟩)
    rw [e, hr, exOk, he]
  · intro h
    obtain ⟨r, hr, he⟩ := array_pts hU hmw hkw hsize _ y (by
      intro i hi
      have := h i hi
      unfold mpGam at this
      obtain ⟨r, hr, h⟩ := bind_ok this
      exact ⟨r, hr, Except.ok.inj h⟩)
    unfold mpGam
    rw [hr, exOk, he]

/-- C80 for the speed of sound. -/
theorem C80_array_a (l t : String) (hlt : SpeedUnits E l t) (y : Nat → Nan)
    (h : ∀ i < n, mpA E B (codeSol B) (varg.map (entry i)) (entryKw i kw) = .ok [y i]) :
    mpA E B (codeSol B) varg kw = .ok ((List.range n).map y) := by
  unfold mpA at h ⊢
  obtain ⟨r, hr, he⟩ := array_pts hU hmw hkw hsize _ y (by
    intro i hi
    obtain ⟨r, hr, h⟩ := bind_ok (h i hi)
    rw [convOut_speed hU hlt, List.map_map] at h
    exact ⟨r, hr, Except.ok.inj h⟩)
  rw [hr, exOk, convOut_speed hU hlt, List.map_map, he]

end

end PyroMat.Mp.Props
