import Verif.Mp.PropsBundle
import Verif.Mp.PropsAccurate

/-!
# C80: the elements of an array call
-/

set_option linter.unusedSimpArgs false

namespace PyroMat.Mp.Spec

open PyroMat PyroMat.Units PyroMat.Gas PyroMat.Gas.Spec PyroMat.Mp

/-- Element `i` of the first call and element `j` of the second are given the same numbers: the calls name
the same properties, by position or keyword, and each of them has the same number at `i` and at `j`. -/
structure SameElement (varg : List (Val ℝ)) (kw : Kw) (i : Nat) (varg' : List (Val ℝ)) (kw' : Kw) (j : Nat) : Prop where
  names : ∀ n, n ∈ (supplied varg kw).map (·.1) ↔ n ∈ (supplied varg' kw').map (·.1)
  values : ∀ n v v', (n, v) ∈ supplied varg kw → (n, v') ∈ supplied varg' kw' →
    ∃ y, Elem (Val.elems v) i y ∧ Elem (Val.elems v') j y

end PyroMat.Mp.Spec

namespace PyroMat.Mp.Props

open PyroMat PyroMat.Units PyroMat.Units.Spec PyroMat.Units.Props PyroMat.Gas PyroMat.Gas.Spec
open PyroMat.Gas.Props PyroMat.Mp PyroMat.Mp.Spec PyroMat.Config.Defaults

/-! ## The inversions -/

/-- The answer for an element does not depend on the other elements, nor on its place.  The saturation
temperature found is used only where there can be one. -/
structure Elementwise (B : Sub) (S : Sol) : Prop where
  Ts : ∀ {l l' f f'} {i j : Nat} {e}, S.Ts l = .ok f → S.Ts l' = .ok f' → l[i]? = some e → l'[j]? = some e → f i = f' j
  d : ∀ {l l' f f'} {i j : Nat} {e}, S.d l = .ok f → S.d l' = .ok f' → l[i]? = some e → l'[j]? = some e → f i = f' j
  Tdp : ∀ {l l' f f'} {i j : Nat} {d p t t'}, S.Tdp l = .ok f → S.Tdp l' = .ok f' → l[i]? = some (some (d, p, t)) →
    l'[j]? = some (some (d, p, t')) → (belowPc B p = true → t = t') → f i = f' j
  Thp : ∀ {k l l' f f'} {i j : Nat} {y p t t'}, S.Thp k l = .ok f → S.Thp k l' = .ok f' → l[i]? = some (some (y, p, t)) →
    l'[j]? = some (some (y, p, t')) → (betweenP B p = true → t = t') → f i = f' j
  Thd : ∀ {k l l' f f'} {i j : Nat} {e}, S.Thd k l = .ok f → S.Thd k l' = .ok f' → l[i]? = some e → l'[j]? = some e →
    f i = f' j
  dhT : ∀ {k l l' f f'} {i j : Nat} {e}, S.dhT k l = .ok f → S.dhT k l' = .ok f' → l[i]? = some e → l'[j]? = some e →
    f i = f' j

theorem ex_map_fst {α β : Type} {x : Except Err (α × β)} {f : α} (h : x.map (·.1) = .ok f) : ∃ w, x = .ok (f, w) := by
  cases x with
  | error e => cases h
  | ok r => cases h; exact ⟨_, rfl⟩

theorem forall2_at {α β : Type} {R : α → β → Prop} {l : List α} {r : List β} (h : List.Forall₂ R l r) {i : Nat} {a : α}
    (hi : l[i]? = some a) : ∃ b, r[i]? = some b ∧ R a b := by
  induction h generalizing i with
  | nil => cases hi
  | cons h1 h2 ih =>
    cases i with
    | zero => cases hi; exact ⟨_, rfl, h1⟩
    | succ i => exact ih hi

theorem iterLoop_at {ep lo hi : ℝ} {N n : Nat} {es : List El} {r : List El × Bool} (h : iterLoop ep lo hi N n es = .ok r)
    {i : Nat} {e : El} (he : es[i]? = some e) :
    ∃ o, single ep lo hi N n e = .ok o ∧ r.1[i]? = some o.1 := by
  rw [iterLoop_eq] at h
  cases hm : es.mapM (single ep lo hi N n) with
  | error e => rw [hm] at h; cases h
  | ok rs =>
    rw [hm] at h; cases h
    obtain ⟨o, h1, h2⟩ := forall2_at (mapM_ok hm) he
    exact ⟨o, h2, by simp [h1]⟩

theorem codeTs_elem {B : Sub} {l : List (Option Nan)} {f : Nat → Nan} {w : Bool} (h : codeTs B l = .ok (f, w)) {i : Nat}
    {e : Option Nan} (hi : l[i]? = some e) :
    ∃ o, single 1e-6 (B.Tt * 0.99) B.Tc 20 20 (tsEl B e) = .ok o ∧ f i = o.1.x := by
  unfold codeTs at h
  obtain ⟨r, hr, h⟩ := bind_ok h
  cases h
  obtain ⟨o, h1, h2⟩ := iterLoop_at hr (i := i) (e := tsEl B e) (by simp [hi])
  exact ⟨o, h1, by simp only [h2, Option.bind_some]⟩

theorem runHybrid_at {N : Nat} {l l' : List HIn} {f f' : Nat → Nan} {w w' : Bool} (h : runHybrid N l = .ok (f, w))
    (h' : runHybrid N l' = .ok (f', w')) {i j : Nat} {e : HIn} (hi : l[i]? = some e) (hj : l'[j]? = some e) : f i = f' j := by
  unfold runHybrid at h h'
  obtain ⟨r, hr, h⟩ := bind_ok h
  obtain ⟨r', hr', h'⟩ := bind_ok h'
  cases h; cases h'
  dsimp only
  rw [(C52_elementwise _ _ l l' r.1 r'.1 r.2 r'.2 hr hr' i j e hi hj).2.1]

/-! ### The solver on a routine that may raise -/

/-- A batch routine whose value and slope at entry `i` depend only on that entry. -/
def Only (F : Batch) (i : Nat) (g : ℝ → Nan × Nan) : Prop :=
  ∀ T v, F T = .ok v → ∀ x, T[i]? = some (some (some x)) → v i = g x

/-- One pass for one element. -/
noncomputable def stepOnly (g : ℝ → Nan × Nan) (y ep : ℝ) (s : HSt) : HSt :=
  match askB s with
  | none => s
  | some none => { s with active := false, x := none }
  | some (some x) => updateB y ep s x (g x)

theorem stepOnly_inactive {g : ℝ → Nan × Nan} {y ep : ℝ} {s : HSt} (h : s.active = false) : stepOnly g y ep s = s := by
  simp [stepOnly, askB, h]

theorem iterate_inactive {g : ℝ → Nan × Nan} {y ep : ℝ} {s : HSt} (h : s.active = false) (n : Nat) :
    (stepOnly g y ep)^[n] s = s := by
  induction n with
  | zero => rfl
  | succ n ih => rw [Function.iterate_succ_apply, stepOnly_inactive h, ih]

theorem hloopB_at {F : Batch} {g : ℝ → Nan × Nan} {ep : ℝ} {i : Nat} (hF : Only F i g) :
    ∀ (n : Nat) (l r : List (ℝ × HSt)) {w : Bool}, hloopB F ep n l = .ok (r, w) →
      ∀ {y : ℝ} {s : HSt}, l[i]? = some (y, s) → r[i]? = some (y, (stepOnly g y ep)^[n] s) := by
  intro n
  induction n with
  | zero =>
    intro l r w h y s hl
    unfold hloopB at h
    cases h
    exact hl
  | succ n ih =>
    intro l r w h y s hl
    unfold hloopB at h
    split at h
    · obtain ⟨v, hv, h⟩ := bind_ok h
      refine ih _ r h (y := y) (s := stepOnly g y ep s) ?_
      rw [List.getElem?_mapIdx, hl, Option.map_some]
      congr 2
      unfold hstepB stepOnly
      cases ha : askB s with
      | none => rfl
      | some o =>
        cases o with
        | none => rfl
        | some x =>
          have := hF _ v hv x (by rw [List.getElem?_map, hl, Option.map_some, ha])
          simp only [this]
    · rename_i hc
      cases h
      have : s.active = false := by
        by_contra hs
        exact hc (List.any_eq_true.mpr ⟨_, List.mem_of_getElem? hl, by simpa using hs⟩)
      rw [hl, iterate_inactive this]

/-- What the solver returns for an element. -/
noncomputable def answerB (g : ℝ → Nan × Nan) (ep : ℝ) (N : Nat) (y : ℝ) (lo hi : Nan) : Nan :=
  match lo, hi with
  | some lo, some hi =>
    ((stepOnly g y ep)^[N + 1] (hinitB ⟨y, some lo, some hi, true⟩ (g lo) (g hi))).x
  | _, _ => none

theorem hybridB_at {F : Batch} {g : ℝ → Nan × Nan} {i : Nat} (hF : Only F i g) {ep : ℝ} {N : Nat} {l : List BIn}
    {f : Nat → Nan} {w : Bool} (h : hybridB F ep N l = .ok (f, w)) {y : ℝ} {lo hi : Nan}
    (he : l[i]? = some ⟨y, lo, hi, true⟩) : f i = answerB g ep N y lo hi := by
  unfold hybridB at h
  obtain ⟨a, ha, h⟩ := bind_ok h
  obtain ⟨b, hb, h⟩ := bind_ok h
  split at h
  · cases h
  obtain ⟨r, hr, h⟩ := bind_ok h
  cases h
  have hl := hloopB_at hF _ _ r.1 (w := r.2) hr (y := y) (s := hinitB ⟨y, lo, hi, true⟩ (a i) (b i))
    (by rw [List.getElem?_mapIdx, he]; rfl)
  dsimp only
  rw [hl, Option.bind_some]
  dsimp only
  unfold answerB
  match lo, hi, he with
  | none, _, _ => rw [iterate_inactive rfl]; rfl
  | some _, none, _ => rw [iterate_inactive rfl]; rfl
  | some lo, some hi, he =>
    rw [hF _ a ha lo (by rw [List.getElem?_map, he]; rfl), hF _ b hb hi (by rw [List.getElem?_map, he]; rfl)]

theorem codeD_same {B : Sub} {l l' : List (Option (Nan × Nan))} {f f' : Nat → Nan} (h : (codeD B l).map (·.1) = .ok f)
    (h' : (codeD B l').map (·.1) = .ok f') {i j : Nat} {e} (hi : l[i]? = some e) (hj : l'[j]? = some e) : f i = f' j := by
  obtain ⟨w, hw⟩ := ex_map_fst h
  obtain ⟨w', hw'⟩ := ex_map_fst h'
  exact runHybrid_at hw hw' (e := dIn B e) (by simp [hi]) (by simp [hj])

theorem tpiter_only {B : Sub} {f : ℝ → ℝ → Q3} {ps : List (Option Nan)} {i : Nat} {p : Nan} (hp : ps[i]? = some (some p)) :
    Only (tpiter (fun q => (codeD B q).map (·.1)) B f ps) i
      (fun T => tpSlope B f (some T) (densOf B (some T) p)) := by
  intro T v h x hx
  unfold tpiter at h
  obtain ⟨d, hd, h⟩ := bind_ok h
  cases h
  dsimp only
  obtain ⟨w, hd⟩ := ex_map_fst hd
  rw [codeD_at hd (i := i) (T := some x) (p := p) (by rw [List.getElem?_zipWith, hx, hp]; rfl), hx]
  rfl

theorem codeThp_same {B : Sub} {k : Mp.Inv} {l l' : List (Option (ℝ × Nan × Nan))} {f f' : Nat → Nan} {i j : Nat} {y : ℝ}
    {p t t' : Nan} (h : (codeThp (fun q => (codeD B q).map (·.1)) B k l).map (·.1) = .ok f)
    (h' : (codeThp (fun q => (codeD B q).map (·.1)) B k l').map (·.1) = .ok f')
    (hi : l[i]? = some (some (y, p, t))) (hj : l'[j]? = some (some (y, p, t'))) (ht : betweenP B p = true → t = t') :
    f i = f' j := by
  obtain ⟨w, hw⟩ := ex_map_fst h
  obtain ⟨w', hw'⟩ := ex_map_fst h'
  unfold codeThp at hw hw'
  have : thpLimits B k y p t = thpLimits B k y p t' := by
    unfold thpLimits
    by_cases hb : betweenP B p = true
    · rw [ht hb]
    · simp [hb]
  have e1 := hybridB_at (tpiter_only (p := p) (by rw [List.getElem?_map, hi]; rfl)) hw (y := y)
    (lo := (thpLimits B k y p t).1) (hi := (thpLimits B k y p t).2) (by rw [List.getElem?_map, hi]; rfl)
  have e2 := hybridB_at (tpiter_only (p := p) (by rw [List.getElem?_map, hj]; rfl)) hw' (y := y)
    (lo := (thpLimits B k y p t').1) (hi := (thpLimits B k y p t').2) (by rw [List.getElem?_map, hj]; rfl)
  rw [e1, e2, this]

theorem elementwise_code (B : Sub) : Elementwise B (codeSol B) where
  Ts := by
    intro l l' f f' i j e h h' hi hj
    obtain ⟨w, hw⟩ := ex_map_fst h
    obtain ⟨w', hw'⟩ := ex_map_fst h'
    obtain ⟨o, h1, h2⟩ := codeTs_elem hw hi
    obtain ⟨o', h1', h2'⟩ := codeTs_elem hw' hj
    rw [h1] at h1'
    cases h1'
    rw [h2, h2']
  d := fun h h' hi hj => codeD_same h h' hi hj
  Tdp := by
    intro l l' f f' i j d p t t' h h' hi hj ht
    obtain ⟨w, hw⟩ := ex_map_fst h
    obtain ⟨w', hw'⟩ := ex_map_fst h'
    have : tdpIn B (some (d, p, t)) = tdpIn B (some (d, p, t')) := by
      cases p with
      | none => rfl
      | some p =>
        by_cases hc : p ≥ B.pc
        · simp [tdpIn, tdpLimits, hc]
        · rw [ht (by simp [belowPc]; linarith)]
    refine runHybrid_at hw hw' (e := tdpIn B (some (d, p, t))) (by simp [hi]) ?_
    rw [this]; simp [hj]
  Thp := fun h h' hi hj ht => codeThp_same h h' hi hj ht
  Thd := by
    intro k l l' f f' i j e h h' hi hj
    obtain ⟨w, hw⟩ := ex_map_fst h
    obtain ⟨w', hw'⟩ := ex_map_fst h'
    exact runHybrid_at hw hw' (e := ⟨tdProb B (B.invQ k) e.2 e.1, B.Tlo, B.Thi, true, none⟩) (by simp [hi]) (by simp [hj])
  dhT := by
    intro k l l' f f' i j e h h' hi hj
    obtain ⟨w, hw⟩ := ex_map_fst h
    obtain ⟨w', hw'⟩ := ex_map_fst h'
    unfold codeDhT at hw hw'
    obtain ⟨m, hm, hw⟩ := bind_ok hw
    obtain ⟨m', hm', hw'⟩ := bind_ok hw'
    obtain ⟨b, hb, he⟩ := forall2_at (mapM_ok hm) hi
    obtain ⟨b', hb', he'⟩ := forall2_at (mapM_ok hm') hj
    rw [he] at he'
    cases he'
    exact runHybrid_at hw hw' hb hb'

/-! ## The elements of two calls -/

/-- Both arguments absent, or both present with the same entry. -/
def SameEntry {α : Type} (a b : Option (List α)) (i j : Nat) : Prop :=
  (a = none ∧ b = none) ∨ ∃ xs ys y, a = some xs ∧ b = some ys ∧ Elem xs i y ∧ Elem ys j y

theorem SameEntry.none_iff {α : Type} {a b : Option (List α)} {i j : Nat} (h : SameEntry a b i j) : a = none ↔ b = none := by
  rcases h with ⟨h1, h2⟩ | ⟨xs, ys, y, h1, h2, -⟩ <;> simp [h1, h2]

theorem SameEntry.val {α : Type} {a b : Option (List α)} {i j : Nat} (h : SameEntry a b i j) {xs ys : List α} {x y : α}
    (ha : a = some xs) (hb : b = some ys) (hx : Elem xs i x) (hy : Elem ys j y) : x = y := by
  rcases h with ⟨h1, -⟩ | ⟨xs', ys', z, h1, h2, h3, h4⟩
  · rw [ha] at h1; cases h1
  · rw [ha] at h1; rw [hb] at h2
    cases h1; cases h2
    rw [elem_unique hx h3, elem_unique hy h4]

/-- The arguments in internal units agree at `i` and `j`. -/
structure SameStdAt (k k' : MStd) (i j : Nat) : Prop where
  T : SameEntry (k.T.map (·.xs)) (k'.T.map (·.xs)) i j
  p : SameEntry (k.p.map (·.xs)) (k'.p.map (·.xs)) i j
  d : SameEntry (k.d.map (·.xs)) (k'.d.map (·.xs)) i j
  x : SameEntry (k.x.map (·.xs)) (k'.x.map (·.xs)) i j
  inv : k.inv.map (·.1) = k'.inv.map (·.1)
  inv' : SameEntry (k.inv.map (·.2.xs)) (k'.inv.map (·.2.xs)) i j

theorem askTs_elem {S : Sol} {sel : Nan → Bool} {l : List Nan} {Ts : Nat → Nan} (h : askTs S sel l = .ok Ts) {i : Nat}
    {p : Nan} (hi : l[i]? = some p) (hp : sel p = true) :
    ∃ l', S.Ts l' = .ok Ts ∧ l'[i]? = some (some p) := by
  unfold askTs at h
  rw [if_pos (List.any_eq_true.mpr ⟨p, List.mem_of_getElem? hi, hp⟩)] at h
  exact ⟨_, h, by simp [hi, hp]⟩

theorem askTs_same {B : Sub} {S : Sol} (hS : Elementwise B S) {sel : Nan → Bool} {l l' : List Nan} {Ts Ts' : Nat → Nan}
    (h : askTs S sel l = .ok Ts) (h' : askTs S sel l' = .ok Ts') {i j : Nat} {p : Nan} (hi : l[i]? = some p)
    (hj : l'[j]? = some p) (hp : sel p = true) : Ts i = Ts' j := by
  obtain ⟨m, h1, h2⟩ := askTs_elem h hi hp
  obtain ⟨m', h1', h2'⟩ := askTs_elem h' hj hp
  exact hS.Ts h1 h1' h2 h2'

theorem origin_same {B : Sub} {S : Sol} (hS : Elementwise B S) {k k' : MStd} {i j : Nat} (hk : SameStdAt k k' i j) {q q' : Pt}
    (h : Origin B S k i q) (h' : Origin B S k' j q') : q = q' := by
  have nT : k.T = none ↔ k'.T = none := by simpa using hk.T.none_iff
  have np : k.p = none ↔ k'.p = none := by simpa using hk.p.none_iff
  have nd : k.d = none ↔ k'.d = none := by simpa using hk.d.none_iff
  have nx : k.x = none ↔ k'.x = none := by simpa using hk.x.none_iff
  have ni : k.inv = none ↔ k'.inv = none := by simpa using hk.inv'.none_iff
  have vT : ∀ {t t' : NArg} {y y' : Nan}, k.T = some t → k'.T = some t' → Elem t.xs i y → Elem t'.xs j y' → y = y' :=
    fun h1 h2 h3 h4 => hk.T.val (by rw [h1]; rfl) (by rw [h2]; rfl) h3 h4
  have vp : ∀ {t t' : NArg} {y y' : Nan}, k.p = some t → k'.p = some t' → Elem t.xs i y → Elem t'.xs j y' → y = y' :=
    fun h1 h2 h3 h4 => hk.p.val (by rw [h1]; rfl) (by rw [h2]; rfl) h3 h4
  have vd : ∀ {t t' : Arg} {y y' : ℝ}, k.d = some t → k'.d = some t' → Elem t.xs i y → Elem t'.xs j y' → y = y' :=
    fun h1 h2 h3 h4 => hk.d.val (by rw [h1]; rfl) (by rw [h2]; rfl) h3 h4
  have vx : ∀ {t t' : Arg} {y y' : ℝ}, k.x = some t → k'.x = some t' → Elem t.xs i y → Elem t'.xs j y' → y = y' :=
    fun h1 h2 h3 h4 => hk.x.val (by rw [h1]; rfl) (by rw [h2]; rfl) h3 h4
  have vi : ∀ {n n' : Mp.Inv} {t t' : Arg} {y y' : ℝ}, k.inv = some (n, t) → k'.inv = some (n', t') → Elem t.xs i y →
      Elem t'.xs j y' → n = n' ∧ y = y' := by
    intro n n' t t' y y' h1 h2 h3 h4
    refine ⟨?_, hk.inv'.val (by rw [h1]; rfl) (by rw [h2]; rfl) h3 h4⟩
    have := hk.inv
    rw [h1, h2] at this
    simpa using this
  cases h with
  | @hp J A pa y p l0 Ts T d l l' a1 a2 a3 a4 a5 a6 a7 a8 a9 a10 =>
    cases h' with
    | @hp J' A' pa' y' p' l0' Ts' T' d' m m' b1 b2 b3 b4 b5 b6 b7 b8 b9 b10 =>
      obtain ⟨rfl, rfl⟩ := vi a1 b1 a3 b3
      obtain rfl := vp a2 b2 a4 b4
      have ht : betweenP B p = true → Ts i = Ts' j := askTs_same hS a6 b6 a5 b5
      have hs : satHP B J (Ts i) (y, p) = satHP B J (Ts' j) (y, p) := by
        unfold satHP
        by_cases hb : betweenP B p = true
        · rw [ht hb]
        · simp [hb]
      cases hc : satHP B J (Ts i) (y, p) with
      | some x =>
        rw [← hs, hc]
        have hb : betweenP B p = true := by
          by_contra hb; simp [satHP, hb] at hc
        simp only [pick, ht hb]
      | none =>
        rw [← hs, hc]
        have hc' := hc
        rw [hs] at hc'
        have e1 : T i = T' j := hS.Thp a7 b7 (a8 hc) (b8 hc') ht
        have e2 : d i = d' j := hS.d a9 b9 (a10 hc) (by rw [e1]; exact b10 hc')
        simp only [pick, e1, e2]
    | _ => exfalso; grind
  | hd a1 a2 a3 a4 a5 a6 a7 =>
    cases h' with
    | hd b1 b2 b3 b4 b5 b6 b7 =>
      obtain ⟨rfl, rfl⟩ := vi a1 b1 a4 b4
      obtain rfl := vd a3 b3 a5 b5
      rw [hS.Thd a6 b6 a7 b7]
    | _ => exfalso; grind
  | hT a1 a2 a3 a4 a5 a6 a7 a8 a9 =>
    cases h' with
    | hT b1 b2 b3 b4 b5 b6 b7 b8 b9 =>
      obtain ⟨rfl, rfl⟩ := vi a1 b1 a6 b6
      obtain rfl := vT a5 b5 a7 b7
      cases hc : satHT B _ (_, _) with
      | some x => rfl
      | none => simp only [pick]; rw [hS.dhT a8 b8 (a9 hc) (b9 hc)]
    | _ => exfalso; grind
  | @Tpx ta pa x T p d l a1 a2 a3 a4 a5 a6 a7 a8 =>
    cases h' with
    | @Tpx ta' pa' x' T' p' d' l' b1 b2 b3 b4 b5 b6 b7 b8 =>
      obtain rfl := vT a2 b2 a5 b5
      obtain rfl := vp a3 b3 a6 b6
      have hx : x = x' := by
        rcases a4 with ⟨c1, rfl⟩ | ⟨xa, c1, c2⟩ <;> rcases b4 with ⟨c1', rfl⟩ | ⟨xa', c1', c2'⟩
        · rfl
        · rw [nx.mp c1] at c1'; cases c1'
        · rw [nx.mpr c1'] at c1; cases c1
        · exact vx c1 c1' c2 c2'
      subst hx
      by_cases hneg : x < 0
      · rw [hS.d a7 b7 (a8 hneg) (b8 hneg)]
      · unfold ptTPX
        simp [hneg]
    | _ => exfalso; grind
  | Td a1 a2 a3 a4 a5 a6 =>
    cases h' with
    | Td b1 b2 b3 b4 b5 b6 =>
      obtain rfl := vT a2 b2 a5 b5
      obtain rfl := vd a4 b4 a6 b6
      rfl
    | _ => exfalso; grind
  | Tx a1 a2 a3 a4 a5 a6 a7 =>
    cases h' with
    | Tx b1 b2 b3 b4 b5 b6 b7 =>
      obtain rfl := vT a2 b2 a6 b6
      obtain rfl := vx a5 b5 a7 b7
      rfl
    | _ => exfalso; grind
  | @pd pa da p D l0 Ts T l a1 a2 a3 a4 a5 a6 a7 a8 a9 a10 =>
    cases h' with
    | @pd pa' da' p' D' l0' Ts' T' l' b1 b2 b3 b4 b5 b6 b7 b8 b9 b10 =>
      obtain rfl := vp a3 b3 a5 b5
      obtain rfl := vd a4 b4 a6 b6
      have ht : belowPc B p = true → Ts i = Ts' j := askTs_same hS a8 b8 a7 b7
      have hs : satPD B (Ts i) (D, p) = satPD B (Ts' j) (D, p) := by
        unfold satPD
        by_cases hb : belowPc B p = true
        · rw [ht hb]
        · simp [hb]
      cases hc : satPD B (Ts i) (D, p) with
      | some x =>
        rw [← hs, hc]
        have hb : belowPc B p = true := by
          by_contra hb; simp [satPD, hb] at hc
        simp only [pick, ht hb]
      | none =>
        rw [← hs, hc]
        have hc' := hc
        rw [hs] at hc'
        simp only [pick, hS.Tdp a9 b9 (a10 hc) (b10 hc') ht]
    | _ => exfalso; grind
  | px a1 a2 a3 a4 a5 a6 a7 a8 a9 =>
    cases h' with
    | px b1 b2 b3 b4 b5 b6 b7 b8 b9 =>
      obtain rfl := vp a3 b3 a6 b6
      obtain rfl := vx a5 b5 a7 b7
      rw [hS.Ts a8 b8 a9 b9]
    | _ => exfalso; grind

/-! ## From the call to internal units -/

/-- The properties named are the same and have the same entry. -/
structure SameKw (kw kw' : Kw) (i j : Nat) : Prop where
  names : ∀ n, n ∈ kw.map (·.1) ↔ n ∈ kw'.map (·.1)
  values : ∀ n v v', (n, v) ∈ kw → (n, v') ∈ kw' → ∃ y, Elem (Val.elems v) i y ∧ Elem (Val.elems v') j y

theorem SameKw.length {kw kw' : Kw} {i j : Nat} (h : SameKw kw kw' i j) (h1 : (kw.map (·.1)).Nodup)
    (h2 : (kw'.map (·.1)).Nodup) : kw.length = kw'.length := by
  have := ((List.perm_ext_iff_of_nodup h1 h2).mpr h.names).length_eq
  simpa using this

theorem def_scalar {f : Except Err (Res ℝ)} {v : Val ℝ} (h : retOf f = .ok v) (hf : ∀ r, f = .ok r → ∃ x, r.ret = .scalar x) :
    ∃ x, v = .scalar x := by
  cases f with
  | error e => cases h
  | ok r => cases h; exact hf r rfl

theorem same_scalar (x : ℝ) (i j : Nat) : ∃ y, Elem (Val.elems (.scalar x)) i y ∧ Elem (Val.elems (.scalar x)) j y :=
  ⟨x, .inr rfl, .inr rfl⟩

theorem applyDefaults_same {E : Env} {kw kw' l l' : Kw} {i j : Nat} (h : SameKw kw kw' i j) (n1 : (kw.map (·.1)).Nodup)
    (n2 : (kw'.map (·.1)).Nodup) (h1 : applyDefaults E kw = .ok l) (h2 : applyDefaults E kw' = .ok l')
    (hT : ∀ T, retOf (defT E.c) = .ok T → ∃ x, T = .scalar x)
    (hp : ∀ p, retOf (defp E.a E.c) = .ok p → ∃ x, p = .scalar x) : SameKw l l' i j := by
  have hlen := h.length n1 n2
  match kw, kw', hlen with
  | [], [], _ =>
    rw [h1] at h2
    cases h2
    simp only [applyDefaults] at h1
    obtain ⟨T, hT', h1⟩ := bind_ok h1
    obtain ⟨p, hp', h1⟩ := bind_ok h1
    cases h1
    obtain ⟨x, rfl⟩ := hT T hT'
    obtain ⟨y, rfl⟩ := hp p hp'
    refine ⟨fun n => Iff.rfl, fun n v v' h3 h4 => ?_⟩
    simp only [List.mem_cons, Prod.mk.injEq, List.not_mem_nil, or_false] at h3 h4
    rcases h3 with ⟨rfl, rfl⟩ | ⟨rfl, rfl⟩ <;> rcases h4 with ⟨h4, rfl⟩ | ⟨h4, rfl⟩
    · exact same_scalar _ _ _
    · simp at h4
    · simp at h4
    · exact same_scalar _ _ _
  | [(n, v)], [(n', v')], _ =>
    have hn : n = n' := by simpa using (h.names n).mp (by simp)
    subst hn
    have key : ∀ (m : String) (z : ℝ), m ≠ n → SameKw [(m, .scalar z), (n, v)] [(m, .scalar z), (n, v')] i j := by
      intro m z hm
      refine ⟨fun n => Iff.rfl, fun n' w w' h3 h4 => ?_⟩
      simp only [List.mem_cons, Prod.mk.injEq, List.not_mem_nil, or_false] at h3 h4
      rcases h3 with ⟨rfl, rfl⟩ | ⟨rfl, rfl⟩ <;> rcases h4 with ⟨h4, rfl⟩ | ⟨h4, rfl⟩
      · exact same_scalar _ _ _
      · exact absurd h4 hm
      · exact absurd h4.symm hm
      · exact h.values _ _ _ (List.mem_singleton.mpr rfl) (List.mem_singleton.mpr rfl)
    simp only [applyDefaults] at h1 h2
    split at h1
    · rename_i hn
      rw [if_pos hn] at h2
      obtain ⟨T, hT', h1⟩ := bind_ok h1
      obtain ⟨T', hT'', h2⟩ := bind_ok h2
      rw [hT'] at hT''
      cases hT''; cases h1; cases h2
      obtain ⟨x, rfl⟩ := hT T hT'
      exact key _ _ hn.symm
    · rename_i hn
      rw [if_neg hn] at h2
      obtain ⟨T, hT', h1⟩ := bind_ok h1
      obtain ⟨T', hT'', h2⟩ := bind_ok h2
      rw [hT'] at hT''
      cases hT''; cases h1; cases h2
      obtain ⟨x, rfl⟩ := hp T hT'
      simp only [ne_eq, not_not] at hn
      exact key _ _ (by rw [hn]; decide)
  | _ :: _ :: _, _ :: _ :: _, _ =>
    cases h1; cases h2; exact h

theorem SameEntry.map {α β : Type} {a b : Option (List α)} {i j : Nat} (h : SameEntry a b i j) (g : α → β) :
    SameEntry (a.map (List.map g)) (b.map (List.map g)) i j := by
  rcases h with ⟨rfl, rfl⟩ | ⟨xs, ys, y, rfl, rfl, h1, h2⟩
  · exact .inl ⟨rfl, rfl⟩
  · exact .inr ⟨_, _, _, rfl, rfl, elem_map g h1, elem_map g h2⟩

theorem argKg_same {E : Env} {U : Sys} {mw : ℝ} {kw kw' : Kw} {i j : Nat} (h : SameKw kw kw' i j)
    (n1 : (kw.map (·.1)).Nodup) (n2 : (kw'.map (·.1)).Nodup) (n : String) :
    SameEntry ((argKg E U mw kw n).map (·.xs)) ((argKg E U mw kw' n).map (·.xs)) i j := by
  by_cases hn : n ∈ kw.map (·.1)
  · obtain ⟨⟨m, v⟩, hv, rfl⟩ := List.mem_map.mp hn
    obtain ⟨⟨m', v'⟩, hv', hm⟩ := List.mem_map.mp ((h.names m).mp hn)
    dsimp only at hm
    subst hm
    obtain ⟨y, e1, e2⟩ := h.values _ _ _ hv hv'
    rw [argKg_of_mem n1 hv, argKg_of_mem n2 hv']
    exact .inr ⟨_, _, _, rfl, rfl, elem_map _ e1, elem_map _ e2⟩
  · have hn' : n ∉ kw'.map (·.1) := fun hc => hn ((h.names n).mpr hc)
    have e : ∀ l : Kw, n ∉ l.map (·.1) → argKg E U mw l n = none := by
      intro l hl
      cases ha : argKg E U mw l n with
      | none => rfl
      | some a => exact absurd (has_of_argKg ha) hl
    rw [e _ hn, e _ hn']
    exact .inl ⟨rfl, rfl⟩

theorem parsed_entry {E : Env} {U : Sys} {B : Sub} {kw kw' : Kw} {k k' : MStd} {i j : Nat} (h : SameKw kw kw' i j)
    (n1 : (kw.map (·.1)).Nodup) (n2 : (kw'.map (·.1)).Nodup) (hk : Parsed E U B kw k) (hk' : Parsed E U B kw' k') :
    SameStdAt k k' i j := by
  have hA := argKg_same (E := E) (U := U) (mw := B.mw) h n1 n2
  constructor
  · have := (hA "T").map (clip B.Tlo B.Thi)
    rw [Option.map_map, Option.map_map] at this
    rw [hk.T, hk'.T, Option.map_map, Option.map_map]
    exact this
  · have := (hA "p").map (clip B.plo B.phi)
    rw [Option.map_map, Option.map_map] at this
    rw [hk.p, hk'.p, Option.map_map, Option.map_map]
    exact this
  · rw [hk.d, hk'.d]
    have h1 := hA "v"
    have h2 := hA "d"
    generalize argKg E U B.mw kw "v" = a at *
    generalize argKg E U B.mw kw' "v" = a' at *
    have e := h1.none_iff
    cases a <;> cases a' <;> simp at e
    · exact h2
    · exact h1.map (fun x => 1 / x)
  · rw [hk.x, hk'.x]; exact hA "x"
  · rw [hk.inv, hk'.inv]
    have h1 := (hA "e").none_iff
    have h2 := (hA "h").none_iff
    have h3 := (hA "s").none_iff
    generalize argKg E U B.mw kw "e" = a at *
    generalize argKg E U B.mw kw' "e" = a' at *
    generalize argKg E U B.mw kw "h" = b at *
    generalize argKg E U B.mw kw' "h" = b' at *
    generalize argKg E U B.mw kw "s" = c at *
    generalize argKg E U B.mw kw' "s" = c' at *
    cases a <;> cases a' <;> simp at h1 <;> cases b <;> cases b' <;> simp at h2 <;> cases c <;> cases c' <;>
      simp at h3 <;> rfl
  · rw [hk.inv, hk'.inv]
    have h1 := hA "e"
    have h2 := hA "h"
    have h3 := hA "s"
    generalize argKg E U B.mw kw "e" = a at *
    generalize argKg E U B.mw kw' "e" = a' at *
    generalize argKg E U B.mw kw "h" = b at *
    generalize argKg E U B.mw kw' "h" = b' at *
    generalize argKg E U B.mw kw "s" = c at *
    generalize argKg E U B.mw kw' "s" = c' at *
    have e1 := h1.none_iff
    have e2 := h2.none_iff
    have e3 := h3.none_iff
    cases a with
    | some a =>
      cases a' with
      | none => simp at e1
      | some a' => exact h1
    | none =>
      cases a' with
      | some a' => simp at e1
      | none =>
        cases b with
        | some b =>
          cases b' with
          | none => simp at e2
          | some b' => exact h2
        | none =>
          cases b' with
          | some b' => simp at e2
          | none =>
            cases c with
            | some c =>
              cases c' with
              | none => simp at e3
              | some c' => exact h3
            | none =>
              cases c' with
              | some c' => simp at e3
              | none => exact .inl ⟨rfl, rfl⟩

section
variable {E : Env} {U : Sys} (hU : Uses E U) {B : Sub} (hmw : B.mw ≠ 0) {S : Sol} {varg varg' : List (Val ℝ)} {kw kw' : Kw}
  (hkw : (kw.map (·.1)).Nodup) (hkw' : (kw'.map (·.1)).Nodup)
include hU hmw

theorem argparse_steps (hkw : (kw.map (·.1)).Nodup) {r : MOut} (h : mpArgparse E B S varg kw = .ok r) :
    ∃ (kw1 kw2 : Kw) (k : MStd), (∀ q, q ∈ supplied varg kw ↔ q ∈ kw1) ∧ (kw1.map (·.1)).Nodup ∧
      applyDefaults E kw1 = .ok kw2 ∧ (kw2.map (·.1)).Nodup ∧ Parsed E U B kw2 k ∧ mpSolve B S k = .ok r := by
  rw [mpArgparse_eq hU hmw] at h
  obtain ⟨kw1, h1, h⟩ := bind_ok h
  unfold afterPos at h
  obtain ⟨kw2, h2, h⟩ := bind_ok h
  obtain ⟨u, h3, h⟩ := bind_ok h
  obtain ⟨k, h4, h⟩ := bind_ok h
  obtain ⟨n1, m1⟩ := bindPos_keeps hkw h1
  obtain ⟨n2, -⟩ := applyDefaults_keeps n1 h2
  rcases parsed_cases E U B kw2 with hp | ⟨k', hp, hk'⟩
  · rw [hp] at h4; cases h4
  · rw [hp] at h4; cases h4
    exact ⟨kw1, kw2, k, m1, n1, h2, n2, hk', h⟩

theorem pts_same (hkw : (kw.map (·.1)).Nodup) (hkw' : (kw'.map (·.1)).Nodup) (hS : Elementwise B S) {i j : Nat}
    (hs : SameElement varg kw i varg' kw' j) {r r' : MOut} (h : mpArgparse E B S varg kw = .ok r)
    (h' : mpArgparse E B S varg' kw' = .ok r') {q q' : Pt} (hq : r.pts[i]? = some q) (hq' : r'.pts[j]? = some q') :
    q = q' := by
  obtain ⟨kw1, kw2, k, m1, n1, d1, n2, hk, hr⟩ := argparse_steps hU hmw hkw h
  obtain ⟨kw1', kw2', k', m1', n1', d1', n2', hk', hr'⟩ := argparse_steps hU hmw hkw' h'
  have s1 : SameKw kw1 kw1' i j := by
    have e : ∀ {a b : Kw}, (∀ q, q ∈ a ↔ q ∈ b) → ∀ n : String, n ∈ a.map (·.1) ↔ n ∈ b.map (·.1) := by
      intro a b hab n
      simp only [List.mem_map, hab]
    refine ⟨fun n => ?_, fun n v v' h1 h2 => hs.values n v v' ((m1 _).mpr h1) ((m1' _).mpr h2)⟩
    rw [← e m1, ← e m1']
    exact hs.names n
  obtain ⟨_, -, hT⟩ := defT_eq hU
  obtain ⟨_, -, -, hp⟩ := defp_eq hU
  have s2 := applyDefaults_same s1 n1 n1' d1 d1' (fun T h => by rw [hT] at h; cases h; exact ⟨_, rfl⟩)
    (fun p h => by rw [hp] at h; cases h; exact ⟨_, rfl⟩)
  exact origin_same hS (parsed_entry s2 n2 n2' hk hk') (solve_origin hr hq) (solve_origin hr' hq')

end

section
variable (E : Env) (U : Sys) (hU : Uses E U) (B : Sub) (hmw : B.mw ≠ 0) (varg varg' : List (Val ℝ)) (kw kw' : Kw)
  (hkw : (kw.map (·.1)).Nodup) (hkw' : (kw'.map (·.1)).Nodup) (i j : Nat) (hs : SameElement varg kw i varg' kw' j)
include hU hmw hkw hkw' hs

/-- C80.  Two calls of the same method that both return, with the code's own inversions: where element `i`
of the first and element `j` of the second are given the same numbers, they return the same number, or
both NaN.  An element's answer thus depends neither on the other elements nor on its place, and an
array call gives the answers of the calls with single numbers. -/
theorem C80_elementwise (m : MQuantity) (ys ys' : List Nan) (h : mpMethod m E B (codeSol B) varg kw = .ok ys)
    (h' : mpMethod m E B (codeSol B) varg' kw' = .ok ys') (y y' : Nan) (hy : ys[i]? = some y) (hy' : ys'[j]? = some y') :
    y = y' := by
  obtain ⟨r, hr⟩ := method_parsed hU hmw h
  obtain ⟨r', hr'⟩ := method_parsed hU hmw h'
  have key := fun q q' => pts_same hU hmw hkw hkw' (elementwise_code B) hs hr hr' (q := q) (q' := q')
  by_cases hm : m = .cv
  · subst hm
    simp only [mpMethod] at h h'
    rw [mpCv_eq hU hmw, hr, exOk] at h
    rw [mpCv_eq hU hmw, hr', exOk] at h'
    split at h
    · cases h
    split at h'
    · cases h'
    cases h; cases h'
    simp only [outsKg, List.map_map, List.getElem?_map, Option.map_eq_some_iff] at hy hy'
    obtain ⟨q, hq, rfl⟩ := hy
    obtain ⟨q', hq', rfl⟩ := hy'
    rw [key q q' hq hq']
  · rw [method_pts hU hmw hr hm] at h
    rw [method_pts hU hmw hr' hm] at h'
    cases h; cases h'
    simp only [List.getElem?_map, Option.map_eq_some_iff] at hy hy'
    obtain ⟨q, hq, rfl⟩ := hy
    obtain ⟨q', hq', rfl⟩ := hy'
    rw [key q q' hq hq']

/-- C80 for `cp` and `gam`, which may be infinite. -/
theorem C80_elementwise_cp (c c' : Cand) :
    (∀ ys ys', mpCp E B (codeSol B) varg kw = .ok ys → mpCp E B (codeSol B) varg' kw' = .ok ys' →
      ys[i]? = some c → ys'[j]? = some c' → c = c') ∧
    (∀ ys ys', mpGam E B (codeSol B) varg kw = .ok ys → mpGam E B (codeSol B) varg' kw' = .ok ys' →
      ys[i]? = some c → ys'[j]? = some c' → c = c') := by
  constructor
  · intro ys ys' h h' hy hy'
    rw [mpCp_eq hU hmw] at h h'
    obtain ⟨r, hr, h⟩ := bind_ok h
    obtain ⟨r', hr', h'⟩ := bind_ok h'
    cases h; cases h'
    simp only [outsKg, List.map_map, List.getElem?_zipWith, List.getElem?_map] at hy hy'
    cases hq : r.pts[i]? with
    | none => rw [hq] at hy; cases hy
    | some q =>
      cases hq' : r'.pts[j]? with
      | none => rw [hq'] at hy'; cases hy'
      | some q' =>
        rw [hq] at hy; rw [hq'] at hy'
        obtain rfl := pts_same hU hmw hkw hkw' (elementwise_code B) hs hr hr' hq hq'
        rw [hy] at hy'
        exact Option.some.inj hy'
  · intro ys ys' h h' hy hy'
    unfold mpGam at h h'
    obtain ⟨r, hr, h⟩ := bind_ok h
    obtain ⟨r', hr', h'⟩ := bind_ok h'
    cases h; cases h'
    simp only [List.getElem?_map, Option.map_eq_some_iff] at hy hy'
    obtain ⟨q, hq, rfl⟩ := hy
    obtain ⟨q', hq', rfl⟩ := hy'
    rw [pts_same hU hmw hkw hkw' (elementwise_code B) hs hr hr' hq hq']

/-- C80 for the speed of sound. -/
theorem C80_elementwise_a (l t : String) (hlt : SpeedUnits E l t) (ys ys' : List Nan)
    (h : mpA E B (codeSol B) varg kw = .ok ys) (h' : mpA E B (codeSol B) varg' kw' = .ok ys') (y y' : Nan)
    (hy : ys[i]? = some y) (hy' : ys'[j]? = some y') : y = y' := by
  unfold mpA at h h'
  obtain ⟨r, hr, h⟩ := bind_ok h
  obtain ⟨r', hr', h'⟩ := bind_ok h'
  rw [convOut_speed hU hlt] at h h'
  cases h; cases h'
  simp only [List.map_map, List.getElem?_map, Option.map_eq_some_iff] at hy hy'
  obtain ⟨q, hq, rfl⟩ := hy
  obtain ⟨q', hq', rfl⟩ := hy'
  rw [pts_same hU hmw hkw hkw' (elementwise_code B) hs hr hr' hq hq']

end

end PyroMat.Mp.Props
