import Verif.Gas.Outputs

/-!
# What `_argparse` computes, element by element (lemmas)
-/

set_option linter.unusedSimpArgs false

namespace PyroMat.Gas.Props

open PyroMat PyroMat.Units PyroMat.Units.Spec PyroMat.Units.Props PyroMat.Gas PyroMat.Gas.Spec
open PyroMat.Config.Defaults

theorem nth_map {α β : Type} (f : α → β) (xs : List α) (i : Nat) :
    nth (xs.map f) i = (nth xs i).map f := by
  unfold nth
  match xs with
  | [] => simp
  | [x] => simp
  | x :: y :: l => simp only [List.map_cons]; rw [← List.map_cons, ← List.map_cons, List.getElem?_map]

theorem nth_of_length {α : Type} {xs : List α} {n i : Nat} (h : xs.length = n) (hi : i < n) :
    nth xs i = xs[i]? := by
  match xs with
  | [] => rfl
  | [x] => simp at h; subst h; have : i = 0 := by omega
           subst this; rfl
  | x :: y :: l => rfl

theorem broadcast_ok {α β : Type} {xs : List α} {ys : List β} {r : List α × List β}
    (h : broadcast xs ys = .ok r) :
    r.1.length = r.2.length ∧ (∀ i < r.1.length, r.1[i]? = nth xs i) ∧
    (∀ i < r.1.length, r.2[i]? = nth ys i) ∧
    (r.1.length = xs.length ∨ (xs.length = 1 ∧ r.1.length = ys.length)) := by
  unfold broadcast at h
  split at h
  · rename_i hl
    cases h
    refine ⟨hl, fun i hi => (nth_of_length rfl hi).symm, fun i hi => ?_, Or.inl rfl⟩
    exact (nth_of_length rfl (by simpa [hl] using hi)).symm
  · split at h
    · rename_i x _ _
      cases h
      refine ⟨by simp, fun i hi => ?_, fun i hi => ?_, Or.inr ⟨rfl, by simp⟩⟩
      · simp at hi; simp [nth, hi]
      · simp at hi; exact (nth_of_length rfl hi).symm
    · rename_i y _ _
      cases h
      refine ⟨by simp, fun i hi => (nth_of_length rfl hi).symm, fun i hi => ?_, Or.inl rfl⟩
      simp at hi; simp [nth, hi]
    · cases h

theorem getElem?_zipWith' {α β γ : Type} {f : α → β → γ} {xs : List α} {ys : List β} {i : Nat} {x : α}
    {y : β} (hx : xs[i]? = some x) (hy : ys[i]? = some y) :
    (List.zipWith f xs ys)[i]? = some (f x y) := by
  simp [List.getElem?_zipWith, hx, hy]

theorem exists_of_lt {α : Type} {xs : List α} {i : Nat} (h : i < xs.length) : ∃ x, xs[i]? = some x :=
  ⟨_, List.getElem?_eq_getElem h⟩

theorem iter1_each {fy : List ((ℝ → Option (ℝ × ℝ)) × ℝ)} {x0 xmin xmax ep : ℝ} {Nmax : Nat}
    {r : List Nan × Bool} (h : iter1 fy x0 xmin xmax ep Nmax = .ok r) :
    r.1.length = fy.length ∧ ∀ (i : Nat) q, fy[i]? = some q →
      ∃ x w, r.1[i]? = some x ∧ iter1 [q] x0 xmin xmax ep Nmax = .ok ([x], w) ∧
        (r.2 = false → w = false) := by
  obtain ⟨ws, hw, hl, hF⟩ := (C35_elementwise fy x0 xmin xmax ep Nmax).2 r.1 r.2 h
  have hlen : r.1.length = fy.length := by
    have := hF.length_eq; simp [hl] at this; exact this.symm
  refine ⟨hlen, fun i q hq => ?_⟩
  have hi : i < fy.length := by
    by_contra hc; rw [List.getElem?_eq_none (by omega)] at hq; cases hq
  have hi2 : i < (r.1.zip ws).length := by simp [hl, hlen, hi]
  have := (List.forall₂_iff_get.mp hF).2 i hi hi2
  simp only [List.get_eq_getElem, List.getElem_zip] at this
  rw [List.getElem?_eq_getElem hi] at hq
  simp only [Option.some.injEq] at hq
  rw [hq] at this
  refine ⟨r.1[i]'(by omega), ws[i]'(by omega), List.getElem?_eq_getElem _, this, fun hf => ?_⟩
  rw [hf] at hw
  have := (List.any_eq_false.mp hw.symm) (ws[i]'(by omega)) (List.getElem_mem _)
  simpa using this

/-- Exactly two of entropy, density, pressure and temperature are known. -/
def Two (k : Std) (T : Option TArg) : Prop :=
  k.s.isSome.toNat + (densityOf k).isSome.toNat + k.p.isSome.toNat + T.isSome.toNat = 2

/-- Result of the case split. -/
structure Solved (E : Env) (G : Gas) (k : Std) (Ta : Option TArg) (st : State) (n : Nat) : Prop where
  lenT : st.T.length = n
  lenp : ∀ ps, st.p = some ps → ps.length = n
  lend : ∀ ds, st.d = some ds → ds.length = n
  some_pd : st.p.isSome = true ∨ st.d.isSome = true
  both : st.p.isSome = true → st.d.isSome = true → k.p.isSome = true ∧ (densityOf k).isSome = true
  p : ∀ P, k.p = some P → ∃ ps, st.p = some ps ∧ ∀ i < n, ∃ x, nth P.xs i = some x ∧ ps[i]? = some (some x)
  d : ∀ D, densityOf k = some D → ∃ ds, st.d = some ds ∧ ∀ i < n, ∃ x, nth D.xs i = some x ∧ ds[i]? = some (some x)
  T : ∀ t, Ta = some t → ∀ i < n, ∃ x, nth t.xs i = some x ∧ st.T[i]? = some x
  Tw : ∀ t, Ta = some t → st.warned = t.warned
  pd : ∀ P D, k.p = some P → densityOf k = some D → ∀ i < n, ∃ p d, nth P.xs i = some p ∧
    nth D.xs i = some d ∧ st.T[i]? = some (some (p / (1000 * Ru * d)))
  sT : ∀ s t, k.s = some s → Ta = some t → ∃ ps, st.p = some ps ∧ ∀ i < n, ∃ x y, nth s.xs i = some x ∧
    nth t.xs i = some y ∧
    ps[i]? = some ((y.bind G.s).map (fun s0 => G.pref * Real.exp ((s0.1 - x) / Ru)))
  sd : ∀ s D, k.s = some s → densityOf k = some D → ∀ i < n, ∃ x d v w, nth s.xs i = some x ∧
    nth D.xs i = some d ∧ st.T[i]? = some v ∧
    iter1 [(G.sditer d, x)] (0.5 * (G.Tlo + G.Thi)) G.Tlo G.Thi = .ok ([v], w) ∧
    (st.warned = false → w = false)
  sp : ∀ s P, k.s = some s → k.p = some P → (s.xs.length ≠ 1 ∨ P.xs.length ≤ 1) → ∀ i < n,
    ∃ x p v w, nth s.xs i = some x ∧ nth P.xs i = some p ∧ st.T[i]? = some v ∧
    iter1 [(G.s, x + Ru * Real.log (p / G.pref))] (0.5 * (G.Tlo + G.Thi)) G.Tlo G.Thi = .ok ([v], w) ∧
    (st.warned = false → w = false)

theorem bind_ok {α β : Type} {m : Except Err α} {f : α → Except Err β} {b : β}
    (h : (m >>= f) = .ok b) : ∃ x, m = .ok x ∧ f x = .ok b := by
  cases m with
  | error e' => rw [exErr] at h; cases h
  | ok x => exact ⟨x, rfl, h⟩

theorem solve_ok {E : Env} {G : Gas} {k : Std} {T : Option TArg} {st : State} (two : Two k T)
    (h : solve E G k T = .ok st) : ∃ n, Solved E G k T st n := by
  unfold solve at h
  unfold Two at two
  dsimp only at h
  cases hs : k.s with
  | some s =>
    rw [hs] at h two
    cases hd : densityOf k with
    | some d =>
      rw [hd] at h two
      have hp : k.p = none := by
        cases hp : k.p with
        | none => rfl
        | some p => rw [hp] at two; cases T <;> simp at two
      have hT : T = none := by
        cases T with
        | none => rfl
        | some t => rw [hp] at two; simp at two
      simp only at h
      obtain ⟨⟨sb, db⟩, hb, h⟩ := bind_ok h
      obtain ⟨r, hr, h⟩ := bind_ok h
      cases h
      obtain ⟨b1, b2, b3, b4⟩ := broadcast_ok hb
      obtain ⟨c1, c2⟩ := iter1_each hr
      simp only [List.length_zipWith] at c1 b1 b2 b3
      refine ⟨sb.length, ⟨by simp [c1, b1], by simp, by simp [b1], by simp, by simp, by simp [hp], ?_,
        by simp [hT], by simp [hT], by simp [hp], by simp [hT], ?_, by simp [hp]⟩⟩
      · intro D hD
        rw [hd] at hD; cases hD
        refine ⟨_, rfl, fun i hi => ?_⟩
        obtain ⟨x, hx⟩ := exists_of_lt (xs := db) (i := i) (by omega)
        exact ⟨x, by rw [← b3 i hi, hx], by simp [hx]⟩
      · intro s' D hs' hD i hi
        rw [hs] at hs'; rw [hd] at hD; cases hD; cases hs'
        obtain ⟨x, hx⟩ := exists_of_lt (xs := sb) hi
        obtain ⟨y, hy⟩ := exists_of_lt (xs := db) (i := i) (by omega)
        obtain ⟨v, w, hv, hit, hw⟩ := c2 i _ (getElem?_zipWith' hx hy)
        exact ⟨x, y, v, w, by rw [← b2 i hi, hx], by rw [← b3 i hi, hy], hv, hit, hw⟩
    | none =>
      rw [hd] at h two
      cases hp : k.p with
      | some p =>
        rw [hp] at h two
        have hT : T = none := by
          cases T with
          | none => rfl
          | some t => simp at two
        simp only at h
        obtain ⟨⟨sb, pb⟩, hb, h⟩ := bind_ok h
        obtain ⟨sa, hsa, h⟩ := bind_ok h
        obtain ⟨r, hr, h⟩ := bind_ok h
        cases h
        obtain ⟨b1, b2, b3, b4⟩ := broadcast_ok hb
        obtain ⟨c1, c2⟩ := iter1_each hr
        simp only at b1 b2 b3 b4
        have hlen : sa.length = sb.length := by
          unfold adjustS at hsa
          rw [hb, exOk] at hsa
          dsimp only at hsa
          split at hsa
          · split at hsa
            · cases hsa; simp [b1]
            · cases hsa; simp [b1]
          · cases hsa; simp [b1]
        refine ⟨sb.length, ⟨by simpa [hlen] using c1, by simp [b1], by simp, by simp, by simp, ?_, by simp [hd],
          by simp [hT], by simp [hT], by simp [hd], by simp [hT], by simp [hd], ?_⟩⟩
        · intro P hP
          rw [hp] at hP; cases hP
          refine ⟨_, rfl, fun i hi => ?_⟩
          obtain ⟨x, hx⟩ := exists_of_lt (xs := pb) (i := i) (by omega)
          exact ⟨x, by rw [← b3 i hi, hx], by simp [hx]⟩
        · intro s' P hs' hP hcell i hi
          rw [hs] at hs'; rw [hp] at hP; cases hP; cases hs'
          have hsa' : sa = List.zipWith (fun s p => s + Ru * Real.log (p / G.pref)) sb pb := by
            unfold adjustS at hsa
            rw [hb, exOk] at hsa
            dsimp only at hsa
            split at hsa
            · rename_i x hxs
              rw [hxs] at hcell hb
              have : pb.length ≤ 1 := by
                rcases hcell with hc | hc
                · simp at hc
                · rcases b4 with b4 | b4
                  · rw [hxs] at b4; simp at b4; omega
                  · omega
              rw [if_neg (by omega)] at hsa
              cases hsa; rfl
            · cases hsa; rfl
          obtain ⟨x, hx⟩ := exists_of_lt (xs := sb) hi
          obtain ⟨y, hy⟩ := exists_of_lt (xs := pb) (i := i) (by omega)
          have hq : (sa.map (fun y => (G.s, y)))[i]? = some (G.s, x + Ru * Real.log (y / G.pref)) := by
            rw [List.getElem?_map, hsa', getElem?_zipWith' hx hy]; rfl
          obtain ⟨v, w, hv, hit, hw⟩ := c2 i _ hq
          exact ⟨x, y, v, w, by rw [← b2 i hi, hx], by rw [← b3 i hi, hy], hv, hit, hw⟩
      | none =>
        rw [hp] at h
        cases T with
        | none => cases h
        | some t =>
          simp only at h
          obtain ⟨⟨sb, Tb⟩, hb, h⟩ := bind_ok h
          cases h
          obtain ⟨b1, b2, b3, b4⟩ := broadcast_ok hb
          simp only at b1 b2 b3 b4
          refine ⟨sb.length, ⟨by simp [b1], by simp [b1], by simp, by simp, by simp, by simp [hp], by simp [hd],
            ?_, by simp, by simp [hp], ?_, by simp [hd], by simp [hp]⟩⟩
          · intro t' ht' i hi
            cases ht'
            obtain ⟨x, hx⟩ := exists_of_lt (xs := Tb) (i := i) (by omega)
            exact ⟨x, by rw [← b3 i hi, hx], hx⟩
          · intro s' t' hs' ht'
            rw [hs] at hs'
            cases ht'; cases hs'
            refine ⟨_, rfl, fun i hi => ?_⟩
            obtain ⟨x, hx⟩ := exists_of_lt (xs := sb) hi
            obtain ⟨y, hy⟩ := exists_of_lt (xs := Tb) (i := i) (by omega)
            exact ⟨x, y, by rw [← b2 i hi, hx], by rw [← b3 i hi, hy], getElem?_zipWith' hx hy⟩
  | none =>
    rw [hs] at h two
    cases T with
    | some t =>
      cases hp : k.p with
      | some p =>
        rw [hp] at h two
        have hd : densityOf k = none := by
          cases hd : densityOf k with
          | none => rfl
          | some d => rw [hd] at two; simp at two
        simp only at h
        obtain ⟨⟨Tb, pb⟩, hb, h⟩ := bind_ok h
        cases h
        obtain ⟨b1, b2, b3, b4⟩ := broadcast_ok hb
        simp only at b1 b2 b3 b4
        refine ⟨Tb.length, ⟨by simp, by simp [b1], by simp, by simp, by simp, ?_, by simp [hd],
          ?_, by simp, by simp [hd], by simp [hs], by simp [hs], by simp [hs]⟩⟩
        · intro P hP
          rw [hp] at hP; cases hP
          refine ⟨_, rfl, fun i hi => ?_⟩
          obtain ⟨x, hx⟩ := exists_of_lt (xs := pb) (i := i) (by omega)
          exact ⟨x, by rw [← b3 i hi, hx], by simp [hx]⟩
        · intro t' ht' i hi
          cases ht'
          obtain ⟨x, hx⟩ := exists_of_lt (xs := Tb) (i := i) (by omega)
          exact ⟨x, by rw [← b2 i hi, hx], hx⟩
      | none =>
        rw [hp] at h
        cases hd : densityOf k with
        | none => rw [hd] at h; cases h
        | some d =>
          rw [hd] at h
          simp only at h
          obtain ⟨⟨Tb, db⟩, hb, h⟩ := bind_ok h
          cases h
          obtain ⟨b1, b2, b3, b4⟩ := broadcast_ok hb
          simp only at b1 b2 b3 b4
          refine ⟨Tb.length, ⟨by simp, by simp, by simp [b1], by simp, by simp, by simp [hp], ?_,
            ?_, by simp, by simp [hp], by simp [hs], by simp [hs], by simp [hs]⟩⟩
          · intro D hD
            rw [hd] at hD; cases hD
            refine ⟨_, rfl, fun i hi => ?_⟩
            obtain ⟨x, hx⟩ := exists_of_lt (xs := db) (i := i) (by omega)
            exact ⟨x, by rw [← b3 i hi, hx], by simp [hx]⟩
          · intro t' ht' i hi
            cases ht'
            obtain ⟨x, hx⟩ := exists_of_lt (xs := Tb) (i := i) (by omega)
            exact ⟨x, by rw [← b2 i hi, hx], hx⟩
    | none =>
      cases hp : k.p with
      | none => rw [hp] at h; cases h
      | some p =>
        rw [hp] at h
        cases hd : densityOf k with
        | none => rw [hd] at h; cases h
        | some d =>
          rw [hd] at h
          simp only at h
          obtain ⟨⟨pb, db⟩, hb, h⟩ := bind_ok h
          cases h
          obtain ⟨b1, b2, b3, b4⟩ := broadcast_ok hb
          simp only at b1 b2 b3 b4
          refine ⟨pb.length, ⟨by simp [b1], by simp, by simp [b1], by simp, by simp [hp, hd], ?_, ?_,
            by simp, by simp, ?_, by simp [hs], by simp [hs], by simp [hs]⟩⟩
          · intro P hP
            rw [hp] at hP; cases hP
            refine ⟨_, rfl, fun i hi => ?_⟩
            obtain ⟨x, hx⟩ := exists_of_lt (xs := pb) (i := i) (by omega)
            exact ⟨x, by rw [← b2 i hi, hx], by simp [hx]⟩
          · intro D hD
            rw [hd] at hD; cases hD
            refine ⟨_, rfl, fun i hi => ?_⟩
            obtain ⟨x, hx⟩ := exists_of_lt (xs := db) (i := i) (by omega)
            exact ⟨x, by rw [← b3 i hi, hx], by simp [hx]⟩
          · intro P D hP hD i hi
            rw [hp] at hP; rw [hd] at hD; cases hD; cases hP
            obtain ⟨x, hx⟩ := exists_of_lt (xs := pb) hi
            obtain ⟨y, hy⟩ := exists_of_lt (xs := db) (i := i) (by omega)
            exact ⟨x, y, by rw [← b2 i hi, hx], by rw [← b3 i hi, hy], getElem?_zipWith' hx hy⟩

/-! ## Positional and keyword arguments -/

theorem supplied_names (varg : List (Val ℝ)) (kw : Kw) (h : varg.length ≤ 2) :
    (supplied varg kw).map (·.1) = given varg kw := by
  unfold supplied given
  rw [List.map_append]
  congr 1
  match varg, h with
  | [], _ => rfl
  | [_], _ => rfl
  | [_, _], _ => rfl

/-- C29, positional arguments: `f(T, p)` means `f(T=T, p=p)`. -/
theorem C29_positional (E : Env) (G : Gas) (varg : List (Val ℝ)) (kw : Kw)
    (hl : varg.length ≤ 2) (hn : (given varg kw).Nodup) :
    argparse E G varg kw = argparse E G [] (supplied varg kw) := by
  match varg, hl with
  | [], _ => rfl
  | [T], _ =>
    have hT : kw.has "T" = false := by
      rw [has_false_iff]
      exact (List.nodup_cons.mp hn).1
    unfold argparse
    simp only [bindPos, hT, supplied]
    rfl
  | [T, p], _ =>
    have h1 : "T" ∉ "p" :: kw.map (·.1) := (List.nodup_cons.mp hn).1
    have h2 : "p" ∉ kw.map (·.1) := (List.nodup_cons.mp (List.nodup_cons.mp hn).2).1
    have hT : kw.has "T" = false := by
      rw [has_false_iff]; exact fun h => h1 (List.mem_cons_of_mem _ h)
    have hp : kw.has "p" = false := by rw [has_false_iff]; exact h2
    have e1 : argparse E G [T, p] kw = argparse E G [] (("p", p) :: ("T", T) :: kw) := by
      unfold argparse
      simp only [bindPos, hT, hp]
      rfl
    rw [e1]
    refine C29_keyword_order E G [] _ _ (List.Perm.swap _ _ _) ?_
    simp only [List.map_cons, List.nodup_cons, List.mem_cons, not_or]
    refine ⟨⟨by decide, h2⟩, ?_, ?_⟩
    · exact fun h => h1 (List.mem_cons_of_mem _ h)
    · exact (List.nodup_cons.mp (List.nodup_cons.mp hn).2).2

theorem supplies_symm {varg : List (Val ℝ)} {kw : Kw} {a b : String} {va vb : Val ℝ}
    (h : Supplies varg kw a va b vb) : Supplies varg kw b vb a va :=
  ⟨h.len, h.args.trans (List.Perm.swap _ _ _), (admissible_perm (List.Perm.swap _ _ _)).mpr h.ok⟩

theorem argparse_pair {E : Env} {S : Sys} (hU : Uses E S) {G : Gas} (hmw : G.mw ≠ 0)
    {varg : List (Val ℝ)} {kw : Kw} {a b : String} {va vb : Val ℝ}
    (h : Supplies varg kw a va b vb) :
    argparse E G varg kw = (pre E G S [(a, va), (b, vb)] >>= rangeTest G) := by
  have hperm : (given varg kw).Perm [a, b] := by
    rw [← supplied_names _ _ h.len]; exact h.args.map _
  have hn : (given varg kw).Nodup := hperm.nodup_iff.mpr h.ok.distinct
  rw [C29_positional E G varg kw h.len hn,
    C29_keyword_order E G [] _ _ h.args (by rw [supplied_names _ _ h.len]; exact hn),
    argparse_eq hU hmw]
  have hc : checkRules [(a, va), (b, vb)] = .ok () :=
    (checkRules_admissible [(a, va), (b, vb)] h.ok.distinct).mpr h.ok
  simp only [bindPos, exOk, applyDefaults, hc]

theorem two_of_admissible {E : Env} {G : Gas} {S : Sys} {a b : String} {va vb : Val ℝ}
    {T : Option TArg} (hadm : Admissible [a, b])
    (hT : tempOf G (stdOf E S G.mw [(a, va), (b, vb)]) = .ok T) :
    Two (stdOf E S G.mw [(a, va), (b, vb)]) T := by
  obtain ⟨hS, hD, hpp, hTs⟩ := presence hT
  have ha := hadm.known a (by simp)
  have hb := hadm.known b (by simp)
  have hab : a ≠ b := by simpa using hadm.distinct
  have hdv := hadm.not_dv
  have hTeh := hadm.one_of_Teh a (by simp) b (by simp)
  unfold Two
  rw [hS, hD, hpp, hTs]
  simp only [List.mem_cons, List.not_mem_nil, or_false] at ha hb
  rcases ha with rfl | rfl | rfl | rfl | rfl | rfl | rfl <;>
    rcases hb with rfl | rfl | rfl | rfl | rfl | rfl | rfl <;>
    first
      | exact absurd rfl hab
      | rfl
      | (exfalso; revert hTeh; decide)
      | (exfalso; revert hdv; decide)

/-- A state in range: the result of `_argparse` and the solution it came from. -/
theorem argparse_solved {E : Env} {S : Sys} (hU : Uses E S) {G : Gas} (hmw : G.mw ≠ 0)
    {varg : List (Val ℝ)} {kw : Kw} {a b : String} {va vb : Val ℝ}
    (h : Supplies varg kw a va b vb) {st : State} (hst : argparse E G varg kw = .ok st) :
    ∃ T st0 n, tempOf G (stdOf E S G.mw [(a, va), (b, vb)]) = .ok T ∧
      Solved E G (stdOf E S G.mw [(a, va), (b, vb)]) T st0 n ∧
      st.T = st0.T.map (fun T => if oob G T then none else T) ∧ st.p = st0.p ∧ st.d = st0.d ∧
      st.warned = st0.warned ∧ ¬ st0.T.all (oob G) = true := by
  rw [argparse_pair hU hmw h] at hst
  obtain ⟨st0, h1, h2⟩ := bind_ok hst
  unfold pre at h1
  obtain ⟨T, hT, h1⟩ := bind_ok h1
  obtain ⟨n, hn⟩ := solve_ok (two_of_admissible h.ok hT) h1
  refine ⟨T, st0, n, hT, hn, ?_⟩
  unfold rangeTest at h2
  split at h2
  · cases h2
  · rename_i hall
    split at h2
    · cases h2; exact ⟨rfl, rfl, rfl, rfl, hall⟩
    · rename_i hany
      cases h2
      refine ⟨?_, rfl, rfl, rfl, hall⟩
      symm
      rw [List.map_congr_left (g := id)]
      · simp
      intro x hx
      rw [if_neg]
      · rfl
      intro hc
      exact hany (List.any_eq_true.mpr ⟨x, hx, hc⟩)

end PyroMat.Gas.Props
