import Verif.Mp.PropsSolvers

/-!
# Where each element of a multiphase call comes from (lemmas)
-/

set_option linter.unusedSimpArgs false

namespace PyroMat.Mp.Props

open PyroMat PyroMat.Units PyroMat.Units.Spec PyroMat.Units.Props PyroMat.Gas PyroMat.Gas.Spec
open PyroMat.Gas.Props PyroMat.Mp PyroMat.Mp.Spec PyroMat.Config.Defaults

theorem elem_unique {α : Type} {xs : List α} {i : Nat} {x y : α} (h1 : Elem xs i x) (h2 : Elem xs i y) :
    x = y := by
  rcases h1 with h1 | h1 <;> rcases h2 with h2 | h2
  · rw [h1] at h2; exact Option.some.inj h2
  · subst h2
    cases i with
    | zero => simpa using h1.symm
    | succ i => simp at h1
  · subst h1
    cases i with
    | zero => simpa using h2
    | succ i => simp at h2
  · rw [h1] at h2; simpa using h2

theorem elem_map {α β : Type} {xs : List α} {i : Nat} {x : α} (f : α → β) (h : Elem xs i x) :
    Elem (xs.map f) i (f x) := by
  rcases h with h | h
  · left; simp [h]
  · right; simp [h]

theorem elem_of_map {α β : Type} {xs : List α} {i : Nat} {y : β} {f : α → β} (h : Elem (xs.map f) i y) :
    ∃ x, Elem xs i x ∧ f x = y := by
  rcases h with h | h
  · rw [List.getElem?_map, Option.map_eq_some_iff] at h
    obtain ⟨x, hx, rfl⟩ := h
    exact ⟨x, Or.inl hx, rfl⟩
  · match xs, h with
    | [x], h => exact ⟨x, Or.inr rfl, by simpa using h⟩

theorem broadcast_at {α β : Type} {xs : List α} {ys : List β} {r : List α × List β}
    (h : broadcast xs ys = .ok r) (i : Nat) :
    (∀ x, r.1[i]? = some x → Elem xs i x) ∧ (∀ y, r.2[i]? = some y → Elem ys i y) := by
  unfold broadcast at h
  split at h
  · cases h; exact ⟨fun _ h => Or.inl h, fun _ h => Or.inl h⟩
  · split at h
    · cases h
      refine ⟨fun x hx => ?_, fun _ h => Or.inl h⟩
      rw [List.getElem?_replicate] at hx
      split at hx
      · cases hx; exact Or.inr rfl
      · cases hx
    · cases h
      refine ⟨fun _ h => Or.inl h, fun y hy => ?_⟩
      rw [List.getElem?_replicate] at hy
      split at hy
      · cases hy; exact Or.inr rfl
      · cases hy
    · cases h

theorem zip_at {α β : Type} {xs : List α} {ys : List β} {i : Nat} {e : α × β}
    (h : (xs.zip ys)[i]? = some e) : xs[i]? = some e.1 ∧ ys[i]? = some e.2 := by
  obtain ⟨a, b⟩ := e
  rwa [List.getElem?_zip_eq_some] at h

theorem zip_one {α β : Type} {xs : List α} {ys : List β} {e : α × β} (hl : xs.length = ys.length)
    (h : xs.zip ys = [e]) : xs = [e.1] ∧ ys = [e.2] := by
  match xs, ys, hl, h with
  | [], [], _, h => cases h
  | [a], [b], _, h =>
    simp only [List.zip_cons_cons, List.zip_nil_left, List.cons.injEq, and_true] at h
    rw [← h]; exact ⟨rfl, rfl⟩
  | _ :: _ :: _, _ :: _ :: _, _, h => simp at h

theorem one_or {α β : Type} {xs : List α} {ys : List β} {r : List α × List β}
    (h : broadcast xs ys = .ok r) :
    (xs.length = r.1.length ∨ ∃ z, xs = [z]) ∧ (ys.length = r.2.length ∨ ∃ z, ys = [z]) := by
  unfold broadcast at h
  split at h
  · cases h; exact ⟨Or.inl rfl, Or.inl rfl⟩
  · split at h
    · cases h; exact ⟨Or.inr ⟨_, rfl⟩, Or.inl rfl⟩
    · cases h; exact ⟨Or.inl rfl, Or.inr ⟨_, rfl⟩⟩
    · cases h

/-- The element for a quality found, or the other one. -/
def pick (o : Option Nan) (f : Nan → Pt) (g : Pt) : Pt :=
  match o with
  | some x => f x
  | none => g

/-- Every element `_argparse` returns, with the values it was made from. -/
inductive Origin (B : Sub) (S : Sol) (k : MStd) (i : Nat) : Pt → Prop
  | hp {j : Mp.Inv} {a : Arg} {pa : NArg} {y : ℝ} {p : Nan} {l0 : List Nan} {Ts T d : Nat → Nan}
      {l : List (Option (ℝ × Nan × Nan))} {l' : List (Option (Nan × Nan))} :
      k.inv = some (j, a) → k.p = some pa → Elem a.xs i y → Elem pa.xs i p →
      l0[i]? = some p → askTs S (betweenP B) l0 = .ok Ts →
      S.Thp j l = .ok T → (satHP B j (Ts i) (y, p) = none → l[i]? = some (some (y, p, Ts i))) →
      S.d l' = .ok d → (satHP B j (Ts i) (y, p) = none → l'[i]? = some (some (T i, p))) →
      Origin B S k i (pick (satHP B j (Ts i) (y, p)) (fun x => satPt B (Ts i) x) (onePt (T i) (d i)))
  | hd {j : Mp.Inv} {a da : Arg} {y D : ℝ} {T : Nat → Nan} {l : List (ℝ × ℝ)} :
      k.inv = some (j, a) → k.p = none → k.d = some da → Elem a.xs i y → Elem da.xs i D →
      S.Thd j l = .ok T → l[i]? = some (y, D) →
      Origin B S k i (pick (satTD B (satDens B) (T i) D) (fun x => satPt B (T i) x) (onePt (T i) (some D)))
  | hT {j : Mp.Inv} {a : Arg} {ta : NArg} {y : ℝ} {T : Nan} {d : Nat → Nan} {l : List (Option (ℝ × Nan))} :
      k.inv = some (j, a) → k.p = none → k.d = none → k.x = none → k.T = some ta →
      Elem a.xs i y → Elem ta.xs i T →
      S.dhT j l = .ok d → (satHT B j (y, T) = none → l[i]? = some (some (y, T))) →
      Origin B S k i (pick (satHT B j (y, T)) (fun x => satPt B T x) (onePt T (d i)))
  | Tpx {ta pa : NArg} {x : ℝ} {T p : Nan} {d : Nat → Nan} {l : List (Option (Nan × Nan))} :
      k.inv = none → k.T = some ta → k.p = some pa →
      (k.x = none ∧ x = -1 ∨ ∃ xa, k.x = some xa ∧ Elem xa.xs i x) →
      Elem ta.xs i T → Elem pa.xs i p →
      S.d l = .ok d → (x < 0 → l[i]? = some (some (T, p))) →
      Origin B S k i (ptTPX B (d i) T x)
  | Td {ta : NArg} {da : Arg} {T : Nan} {D : ℝ} :
      k.inv = none → k.T = some ta → k.p = none → k.d = some da → Elem ta.xs i T → Elem da.xs i D →
      Origin B S k i (pick (satTD B (satDensStrict B) T D) (fun x => satPt B T x) (onePt T (some D)))
  | Tx {ta : NArg} {xa : Arg} {T : Nan} {x : ℝ} :
      k.inv = none → k.T = some ta → k.p = none → k.d = none → k.x = some xa → Elem ta.xs i T →
      Elem xa.xs i x → Origin B S k i (satPt B T (some x))
  | pd {pa : NArg} {da : Arg} {p : Nan} {D : ℝ} {l0 : List Nan} {Ts T : Nat → Nan}
      {l : List (Option (ℝ × Nan × Nan))} :
      k.inv = none → k.T = none → k.p = some pa → k.d = some da → Elem pa.xs i p → Elem da.xs i D →
      l0[i]? = some p → askTs S (belowPc B) l0 = .ok Ts →
      S.Tdp l = .ok T → (satPD B (Ts i) (D, p) = none → l[i]? = some (some (D, p, Ts i))) →
      Origin B S k i (pick (satPD B (Ts i) (D, p)) (fun x => satPt B (Ts i) x) (onePt (T i) (some D)))
  | px {pa : NArg} {xa : Arg} {p : Nan} {x : ℝ} {Ts : Nat → Nan} {l : List (Option Nan)} :
      k.inv = none → k.T = none → k.p = some pa → k.d = none → k.x = some xa → Elem pa.xs i p →
      Elem xa.xs i x → S.Ts l = .ok Ts → l[i]? = some (some p) →
      Origin B S k i (satPt B (Ts i) (some x))

section
variable {B : Sub} {S : Sol} {k : MStd} {i : Nat} {q : Pt}

theorem isSome_eq_none {α : Type} {o : Option α} : ¬ (o.isSome = true) ↔ o = none := by
  cases o <;> simp

theorem solve_origin {r : MOut} (h : mpSolve B S k = .ok r) (hq : r.pts[i]? = some q) :
    Origin B S k i q := by
  unfold mpSolve at h
  split at h
  · rename_i j a hinv
    unfold mpSolveInv at h
    split at h
    · rename_i pa hp
      obtain ⟨pts, hl, h⟩ := bind_ok h
      cases h
      unfold mpHP at hl
      obtain ⟨⟨y', p'⟩, hb, hl⟩ := bind_ok hl
      dsimp only at hl
      obtain ⟨Ts, hTs, hl⟩ := bind_ok hl
      obtain ⟨T, hT, hl⟩ := bind_ok hl
      obtain ⟨d, hd, hl⟩ := bind_ok hl
      cases hl
      dsimp only at hq
      rw [List.getElem?_mapIdx, Option.map_eq_some_iff] at hq
      obtain ⟨e, he, rfl⟩ := hq
      obtain ⟨e1, e2⟩ := zip_at he
      refine Origin.hp hinv hp ((broadcast_at hb i).1 _ e1) ((broadcast_at hb i).2 _ e2) e2 hTs hT ?_ hd ?_
      · intro hs
        rw [List.getElem?_mapIdx, he]
        have : satHP B j (Ts i) e = none := hs
        simp [this]
      · intro hs
        rw [List.getElem?_mapIdx, he]
        have : satHP B j (Ts i) e = none := hs
        simp [this]
    · rename_i da hp hd
      obtain ⟨pts, hl, h⟩ := bind_ok h
      cases h
      unfold mpHD at hl
      obtain ⟨⟨y', d'⟩, hb, hl⟩ := bind_ok hl
      dsimp only at hl
      obtain ⟨T, hT, hl⟩ := bind_ok hl
      cases hl
      dsimp only at hq
      rw [List.getElem?_mapIdx, Option.map_eq_some_iff] at hq
      obtain ⟨e, he, rfl⟩ := hq
      obtain ⟨e1, e2⟩ := zip_at he
      exact Origin.hd hinv hp hd ((broadcast_at hb i).1 _ e1) ((broadcast_at hb i).2 _ e2) hT he
    · cases h
    · rename_i ta hp hd hx hT
      obtain ⟨pts, hl, h⟩ := bind_ok h
      cases h
      unfold mpHT at hl
      obtain ⟨⟨y', T'⟩, hb, hl⟩ := bind_ok hl
      dsimp only at hl
      obtain ⟨d, hd', hl⟩ := bind_ok hl
      cases hl
      dsimp only at hq
      rw [List.getElem?_mapIdx, Option.map_eq_some_iff] at hq
      obtain ⟨e, he, rfl⟩ := hq
      obtain ⟨e1, e2⟩ := zip_at he
      refine Origin.hT hinv hp hd hx hT ((broadcast_at hb i).1 _ e1) ((broadcast_at hb i).2 _ e2) hd' ?_
      intro hs
      rw [List.getElem?_map, he]
      have : satHT B j e = none := hs
      simp [this]
    · cases h
  · rename_i hinv
    have tpx : ∀ {ta pa : NArg} {xs : List ℝ} {r : List Pt × Option (List Nan × List Nan)},
        k.T = some ta → k.p = some pa → (k.x = none ∧ xs = [-1] ∨ ∃ xa, k.x = some xa ∧ xs = xa.xs) →
        mpTPX B S ta.xs pa.xs xs = .ok r → r.1[i]? = some q → Origin B S k i q := by
      intro ta pa xs r hT hp hx hl hq
      unfold mpTPX at hl
      obtain ⟨⟨T', p'⟩, hb, hl⟩ := bind_ok hl
      dsimp only at hl
      obtain ⟨⟨w, x'⟩, hb2, hl⟩ := bind_ok hl
      dsimp only at hl
      obtain ⟨d, hd, hl⟩ := bind_ok hl
      cases hl
      dsimp only at hq
      rw [List.getElem?_mapIdx, Option.map_eq_some_iff] at hq
      obtain ⟨e, he, rfl⟩ := hq
      obtain ⟨e1, e2⟩ := zip_at he
      have el1 := (broadcast_at hb2 i).1 _ e1
      have el2 := (broadcast_at hb2 i).2 _ e2
      have key : Elem T' i e.1.1 ∧ Elem p' i e.1.2 := by
        rcases el1 with h | h
        · exact ⟨Or.inl (zip_at h).1, Or.inl (zip_at h).2⟩
        · have hlen : T'.length = p'.length := by
            unfold broadcast at hb
            split at hb
            · cases hb; assumption
            · split at hb
              · cases hb; simp
              · cases hb; simp
              · cases hb
          obtain ⟨h1, h2⟩ := zip_one hlen h
          exact ⟨Or.inr h1, Or.inr h2⟩
      have lift : ∀ {α : Type} {zs ws : List α} {z : α}, (∀ n x, ws[n]? = some x → Elem zs n x) →
          (zs.length = ws.length ∨ ∃ z, zs = [z]) → Elem ws i z → Elem zs i z := by
        intro α zs ws z h1 h2 h3
        rcases h3 with h3 | h3
        · exact h1 i z h3
        · have := h1 0 z (by rw [h3]; rfl)
          rcases h2 with h2 | ⟨z', rfl⟩
          · rw [h3] at h2
            match zs, h2, this with
            | [a], _, this =>
              have : a = z := by rcases this with h | h <;> simpa using h
              rw [this]; exact Or.inr rfl
          · have : z' = z := by rcases this with h | h <;> simpa using h
            rw [this]; exact Or.inr rfl
      have side := one_or hb
      refine Origin.Tpx hinv hT hp ?_ (lift (fun n => (broadcast_at hb n).1) side.1 key.1)
        (lift (fun n => (broadcast_at hb n).2) side.2 key.2) hd ?_
      · rcases hx with ⟨h1, rfl⟩ | ⟨xa, h1, rfl⟩
        · left
          refine ⟨h1, ?_⟩
          rcases el2 with h | h
          · have := List.mem_of_getElem? h; simpa using this
          · simpa using h.symm
        · exact Or.inr ⟨xa, h1, el2⟩
      · intro hneg
        rw [List.getElem?_map, he]
        simp [hneg]
    unfold mpSolveBasic at h
    split at h
    · rename_i ta pa hT hp hx
      obtain ⟨l, hl, h⟩ := bind_ok h; cases h
      exact tpx hT hp (Or.inl ⟨hx, rfl⟩) hl hq
    · rename_i ta pa xa hT hp hx
      obtain ⟨l, hl, h⟩ := bind_ok h; cases h
      exact tpx hT hp (Or.inr ⟨xa, hx, rfl⟩) hl hq
    · rename_i ta da hT hp hd
      obtain ⟨l, hl, h⟩ := bind_ok h; cases h
      unfold mpTD at hl
      obtain ⟨⟨T', d'⟩, hb, hl⟩ := bind_ok hl
      cases hl
      dsimp only at hq
      rw [List.getElem?_map, Option.map_eq_some_iff] at hq
      obtain ⟨e, he, rfl⟩ := hq
      obtain ⟨e1, e2⟩ := zip_at he
      exact Origin.Td hinv hT hp hd ((broadcast_at hb i).1 _ e1) ((broadcast_at hb i).2 _ e2)
    · rename_i ta xa hT hp hd hx
      obtain ⟨l, hl, h⟩ := bind_ok h; cases h
      unfold mpTX at hl
      obtain ⟨⟨T', x'⟩, hb, hl⟩ := bind_ok hl
      dsimp only at hl
      split at hl
      · cases hl
      split at hl
      · cases hl
      cases hl
      dsimp only at hq
      rw [List.getElem?_map, Option.map_eq_some_iff] at hq
      obtain ⟨e, he, rfl⟩ := hq
      obtain ⟨e1, e2⟩ := zip_at he
      exact Origin.Tx hinv hT hp hd hx ((broadcast_at hb i).1 _ e1) ((broadcast_at hb i).2 _ e2)
    · rename_i pa da hT hp hd
      obtain ⟨l, hl, h⟩ := bind_ok h; cases h
      unfold mpPD at hl
      obtain ⟨⟨d', p'⟩, hb, hl⟩ := bind_ok hl
      dsimp only at hl
      obtain ⟨Ts, hTs, hl⟩ := bind_ok hl
      obtain ⟨T, hT', hl⟩ := bind_ok hl
      cases hl
      dsimp only at hq
      rw [List.getElem?_mapIdx, Option.map_eq_some_iff] at hq
      obtain ⟨e, he, rfl⟩ := hq
      obtain ⟨e1, e2⟩ := zip_at he
      refine Origin.pd hinv hT hp hd ((broadcast_at hb i).2 _ e2) ((broadcast_at hb i).1 _ e1) e2 hTs hT' ?_
      intro hs
      rw [List.getElem?_mapIdx, he]
      have : satPD B (Ts i) e = none := hs
      simp [this]
    · rename_i pa xa hT hp hd hx
      obtain ⟨l, hl, h⟩ := bind_ok h; cases h
      unfold mpPX at hl
      split at hl
      · cases hl
      split at hl
      · cases hl
      obtain ⟨⟨p', x'⟩, hb, hl⟩ := bind_ok hl
      dsimp only at hl
      obtain ⟨Ts, hTs, hl⟩ := bind_ok hl
      cases hl
      dsimp only at hq
      rw [List.getElem?_mapIdx, Option.map_eq_some_iff] at hq
      obtain ⟨e, he, rfl⟩ := hq
      obtain ⟨e1, e2⟩ := zip_at he
      exact Origin.px hinv hT hp hd hx ((broadcast_at hb i).1 _ e1) ((broadcast_at hb i).2 _ e2) hTs
        (by rw [List.getElem?_map, e1]; rfl)
    · cases h

end

end PyroMat.Mp.Props
