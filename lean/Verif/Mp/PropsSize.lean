import Verif.Mp.PropsAssemble

/-!
# C80: the length of a result, and arrays of different lengths
-/

set_option linter.unusedSimpArgs false

namespace PyroMat.Mp.Props

open PyroMat PyroMat.Units PyroMat.Units.Spec PyroMat.Units.Props PyroMat.Gas PyroMat.Gas.Spec
open PyroMat.Gas.Props PyroMat.Mp PyroMat.Mp.Spec PyroMat.Config.Defaults

theorem broadcast_sizes {α β : Type} {xs xs' : List α} {ys ys' : List β} (h : broadcast xs ys = .ok (xs', ys')) :
    xs'.length = ys'.length ∧ (xs.length = xs'.length ∨ xs.length = 1) ∧ (ys.length = xs'.length ∨ ys.length = 1) ∧
      (xs.length = xs'.length ∨ ys.length = xs'.length) := by
  unfold broadcast at h
  split at h
  · cases h
    rename_i e
    exact ⟨e, .inl rfl, .inl e.symm, .inl rfl⟩
  · split at h
    · cases h; simp
    · cases h; simp
    · cases h

/-- Two arguments with `a` and `b` elements give `n` states. -/
def GivesN (a b n : Nat) : Prop := (a = n ∨ a = 1) ∧ (b = n ∨ b = 1) ∧ (a = n ∨ b = n)

theorem broadcast_fits {α β : Type} {xs xs' : List α} {ys ys' : List β} (h : broadcast xs ys = .ok (xs', ys')) :
    GivesN xs.length ys.length (xs'.zip ys').length := by
  obtain ⟨e1, e2, e3, e4⟩ := broadcast_sizes h
  rw [List.length_zip, ← e1, Nat.min_self]
  exact ⟨e2, e3, e4⟩

section
variable {B : Sub} {S : Sol}

theorem mpHP_fits {i : Mp.Inv} {y : List ℝ} {p : List Nan} {pts : List Pt} (h : mpHP B S i y p = .ok pts) :
    GivesN y.length p.length pts.length := by
  unfold mpHP at h
  obtain ⟨⟨y', p'⟩, hb, h⟩ := bind_ok h
  dsimp only at h
  obtain ⟨Ts, hTs, h⟩ := bind_ok h
  obtain ⟨T, hT, h⟩ := bind_ok h
  obtain ⟨d, hd, h⟩ := bind_ok h
  cases h
  rw [List.length_mapIdx]
  exact broadcast_fits hb

theorem mpHD_fits {i : Mp.Inv} {y d : List ℝ} {pts : List Pt} (h : mpHD B S i y d = .ok pts) :
    GivesN y.length d.length pts.length := by
  unfold mpHD at h
  obtain ⟨⟨y', p'⟩, hb, h⟩ := bind_ok h
  dsimp only at h
  obtain ⟨T, hT, h⟩ := bind_ok h
  cases h
  rw [List.length_mapIdx]
  exact broadcast_fits hb

theorem mpHT_fits {i : Mp.Inv} {y : List ℝ} {T : List Nan} {pts : List Pt} (h : mpHT B S i y T = .ok pts) :
    GivesN y.length T.length pts.length := by
  unfold mpHT at h
  obtain ⟨⟨y', p'⟩, hb, h⟩ := bind_ok h
  dsimp only at h
  obtain ⟨T, hT, h⟩ := bind_ok h
  cases h
  rw [List.length_mapIdx]
  exact broadcast_fits hb

theorem mpTD_fits {T : List Nan} {d : List ℝ} {pts : List Pt} (h : mpTD B T d = .ok pts) :
    GivesN T.length d.length pts.length := by
  unfold mpTD at h
  obtain ⟨⟨y', p'⟩, hb, h⟩ := bind_ok h
  cases h
  rw [List.length_map]
  exact broadcast_fits hb

theorem mpTX_fits {T : List Nan} {x : List ℝ} {pts : List Pt} (h : mpTX B T x = .ok pts) :
    GivesN T.length x.length pts.length := by
  unfold mpTX at h
  obtain ⟨⟨y', p'⟩, hb, h⟩ := bind_ok h
  dsimp only at h
  split at h
  · cases h
  split at h
  · cases h
  cases h
  rw [List.length_map]
  exact broadcast_fits hb

theorem mpPX_fits {p : List Nan} {x : List ℝ} {pts : List Pt} (h : mpPX B S p x = .ok pts) :
    GivesN p.length x.length pts.length := by
  unfold mpPX at h
  split at h
  · cases h
  split at h
  · cases h
  obtain ⟨⟨y', p'⟩, hb, h⟩ := bind_ok h
  dsimp only at h
  obtain ⟨T, hT, h⟩ := bind_ok h
  cases h
  rw [List.length_mapIdx]
  exact broadcast_fits hb

theorem mpPD_fits {d : List ℝ} {p : List Nan} {r} (h : mpPD B S d p = .ok r) :
    GivesN d.length p.length r.1.length := by
  unfold mpPD at h
  obtain ⟨⟨y', p'⟩, hb, h⟩ := bind_ok h
  dsimp only at h
  obtain ⟨Ts, hTs, h⟩ := bind_ok h
  obtain ⟨T, hT, h⟩ := bind_ok h
  cases h
  dsimp only
  rw [List.length_mapIdx]
  exact broadcast_fits hb

theorem mpTPX_fits {T p : List Nan} {x : List ℝ} {r} (h : mpTPX B S T p x = .ok r) :
    ∃ m, GivesN T.length p.length m ∧ GivesN m x.length r.1.length := by
  unfold mpTPX at h
  obtain ⟨⟨y', p'⟩, hb, h⟩ := bind_ok h
  dsimp only at h
  obtain ⟨⟨w, x'⟩, hb', h⟩ := bind_ok h
  dsimp only at h
  obtain ⟨d, hd, h⟩ := bind_ok h
  cases h
  dsimp only
  rw [List.length_mapIdx]
  exact ⟨_, broadcast_fits hb, broadcast_fits hb'⟩

/-- Every argument has as many elements as the result, or one, and one of them has as many. -/
theorem solve_sizes {k : MStd} {r : MOut} (hf : Few k) (h : mpSolve B S k = .ok r) :
    Lens k r.pts.length ∧ Full k r.pts.length := by
  have some_ne : ∀ {α : Type} {o : Option α} {a : α}, o = none → o = some a → False := by
    intro α o a h1 h2; rw [h1] at h2; cases h2
  have is : ∀ {α : Type} {o : Option α} {a b : α}, o = some a → o = some b → b = a := by
    intro α o a b h1 h2; rw [h1] at h2; cases h2; rfl
  unfold mpSolve at h
  split at h
  · rename_i j y hi
    unfold mpSolveInv at h
    split at h
    · rename_i p hp
      obtain ⟨h1, h2, h3⟩ := hf.hp _ _ hi hp
      obtain ⟨pts, hl, h⟩ := bind_ok h
      cases h
      obtain ⟨e1, e2, e3⟩ := mpHP_fits hl
      refine ⟨⟨?_, ?_, ?_, ?_, ?_⟩, ?_⟩
      · intro a ha; exact (some_ne h1 ha).elim
      · intro a ha; rw [is hp ha]; exact e2
      · intro a ha; exact (some_ne h2 ha).elim
      · intro a ha; exact (some_ne h3 ha).elim
      · intro j a ha; cases is hi ha; exact e1
      · rcases e3 with e3 | e3
        · exact .inr (.inr (.inr (.inr ⟨_, _, hi, e3⟩)))
        · exact .inr (.inl ⟨_, hp, e3⟩)
    · rename_i d hp hd
      obtain ⟨h1, h2, h3⟩ := hf.hd _ _ hi hd
      obtain ⟨pts, hl, h⟩ := bind_ok h
      cases h
      obtain ⟨e1, e2, e3⟩ := mpHD_fits hl
      refine ⟨⟨?_, ?_, ?_, ?_, ?_⟩, ?_⟩
      · intro a ha; exact (some_ne h1 ha).elim
      · intro a ha; exact (some_ne h2 ha).elim
      · intro a ha; rw [is hd ha]; exact e2
      · intro a ha; exact (some_ne h3 ha).elim
      · intro j a ha; cases is hi ha; exact e1
      · rcases e3 with e3 | e3
        · exact .inr (.inr (.inr (.inr ⟨_, _, hi, e3⟩)))
        · exact .inr (.inr (.inl ⟨_, hd, e3⟩))
    · cases h
    · rename_i T hp hd hx hT
      obtain ⟨pts, hl, h⟩ := bind_ok h
      cases h
      obtain ⟨e1, e2, e3⟩ := mpHT_fits hl
      refine ⟨⟨?_, ?_, ?_, ?_, ?_⟩, ?_⟩
      · intro a ha; rw [is hT ha]; exact e2
      · intro a ha; exact (some_ne hp ha).elim
      · intro a ha; exact (some_ne hd ha).elim
      · intro a ha; exact (some_ne hx ha).elim
      · intro j a ha; cases is hi ha; exact e1
      · rcases e3 with e3 | e3
        · exact .inr (.inr (.inr (.inr ⟨_, _, hi, e3⟩)))
        · exact .inl ⟨_, hT, e3⟩
    · cases h
  · rename_i hi
    unfold mpSolveBasic at h
    split at h
    · rename_i T p hT hp hx
      have hd := hf.Tp _ _ hT hp
      obtain ⟨pts, hl, h⟩ := bind_ok h
      cases h
      obtain ⟨m, ⟨e1, e2, e3⟩, f1, f2, f3⟩ := mpTPX_fits hl
      have hm : m = pts.1.length := by
        rcases f1 with f1 | f1
        · exact f1
        · rcases f3 with f3 | f3
          · exact f3
          · rw [f1, ← f3]; rfl
      subst hm
      refine ⟨⟨?_, ?_, ?_, ?_, ?_⟩, ?_⟩
      · intro a ha; rw [is hT ha]; exact e1
      · intro a ha; rw [is hp ha]; exact e2
      · intro a ha; exact (some_ne hd ha).elim
      · intro a ha; exact (some_ne hx ha).elim
      · intro j a ha; exact (some_ne hi ha).elim
      · rcases e3 with e3 | e3
        · exact .inl ⟨_, hT, e3⟩
        · exact .inr (.inl ⟨_, hp, e3⟩)
    · rename_i T p x hT hp hx
      have hd := hf.Tp _ _ hT hp
      obtain ⟨pts, hl, h⟩ := bind_ok h
      cases h
      obtain ⟨m, ⟨e1, e2, e3⟩, f1, f2, f3⟩ := mpTPX_fits hl
      refine ⟨⟨?_, ?_, ?_, ?_, ?_⟩, ?_⟩
      · intro a ha; rw [is hT ha]; dsimp only; omega
      · intro a ha; rw [is hp ha]; dsimp only; omega
      · intro a ha; exact (some_ne hd ha).elim
      · intro a ha; rw [is hx ha]; exact f2
      · intro j a ha; exact (some_ne hi ha).elim
      · rcases f3 with f3 | f3
        · subst f3
          rcases e3 with e3 | e3
          · exact .inl ⟨_, hT, e3⟩
          · exact .inr (.inl ⟨_, hp, e3⟩)
        · exact .inr (.inr (.inr (.inl ⟨_, hx, f3⟩)))
    · rename_i T d hT hp hd
      have hx := hf.Td _ _ hT hd
      obtain ⟨pts, hl, h⟩ := bind_ok h
      cases h
      obtain ⟨e1, e2, e3⟩ := mpTD_fits hl
      refine ⟨⟨?_, ?_, ?_, ?_, ?_⟩, ?_⟩
      · intro a ha; rw [is hT ha]; exact e1
      · intro a ha; exact (some_ne hp ha).elim
      · intro a ha; rw [is hd ha]; exact e2
      · intro a ha; exact (some_ne hx ha).elim
      · intro j a ha; exact (some_ne hi ha).elim
      · rcases e3 with e3 | e3
        · exact .inl ⟨_, hT, e3⟩
        · exact .inr (.inr (.inl ⟨_, hd, e3⟩))
    · rename_i T x hT hp hd hx
      obtain ⟨pts, hl, h⟩ := bind_ok h
      cases h
      obtain ⟨e1, e2, e3⟩ := mpTX_fits hl
      refine ⟨⟨?_, ?_, ?_, ?_, ?_⟩, ?_⟩
      · intro a ha; rw [is hT ha]; exact e1
      · intro a ha; exact (some_ne hp ha).elim
      · intro a ha; exact (some_ne hd ha).elim
      · intro a ha; rw [is hx ha]; exact e2
      · intro j a ha; exact (some_ne hi ha).elim
      · rcases e3 with e3 | e3
        · exact .inl ⟨_, hT, e3⟩
        · exact .inr (.inr (.inr (.inl ⟨_, hx, e3⟩)))
    · rename_i p d hT hp hd
      have hx := hf.pd _ _ hp hd
      obtain ⟨pts, hl, h⟩ := bind_ok h
      cases h
      obtain ⟨e1, e2, e3⟩ := mpPD_fits hl
      refine ⟨⟨?_, ?_, ?_, ?_, ?_⟩, ?_⟩
      · intro a ha; exact (some_ne hT ha).elim
      · intro a ha; rw [is hp ha]; exact e2
      · intro a ha; rw [is hd ha]; exact e1
      · intro a ha; exact (some_ne hx ha).elim
      · intro j a ha; exact (some_ne hi ha).elim
      · rcases e3 with e3 | e3
        · exact .inr (.inr (.inl ⟨_, hd, e3⟩))
        · exact .inr (.inl ⟨_, hp, e3⟩)
    · rename_i p x hT hp hd hx
      obtain ⟨pts, hl, h⟩ := bind_ok h
      cases h
      obtain ⟨e1, e2, e3⟩ := mpPX_fits hl
      refine ⟨⟨?_, ?_, ?_, ?_, ?_⟩, ?_⟩
      · intro a ha; exact (some_ne hT ha).elim
      · intro a ha; rw [is hp ha]; exact e1
      · intro a ha; exact (some_ne hd ha).elim
      · intro a ha; rw [is hx ha]; exact e2
      · intro j a ha; exact (some_ne hi ha).elim
      · rcases e3 with e3 | e3
        · exact .inr (.inl ⟨_, hp, e3⟩)
        · exact .inr (.inr (.inr (.inl ⟨_, hx, e3⟩)))
    · cases h

end

/-- An argument in internal units has as many elements as one of those given. -/
theorem parsed_full_inv {E : Env} {U : Sys} {B : Sub} {kw : Kw} (hn : (kw.map (·.1)).Nodup) {n : Nat} {k : MStd}
    (hk : Parsed E U B kw k) (h : Full k n) : ∃ q ∈ kw, (Val.elems q.2).length = n := by
  by_contra hc
  push Not at hc
  have key := fun m a => argKg_len (E := E) (U := U) (mw := B.mw) hn (P := fun l => l ≠ n) hc (m := m) (a := a)
  rcases h with ⟨a, ha, hl⟩ | ⟨a, ha, hl⟩ | ⟨a, ha, hl⟩ | ⟨a, ha, hl⟩ | ⟨j, a, ha, hl⟩
  · rw [hk.T, Option.map_eq_some_iff] at ha
    obtain ⟨b, hb, rfl⟩ := ha
    exact key _ _ hb (by simpa using hl)
  · rw [hk.p, Option.map_eq_some_iff] at ha
    obtain ⟨b, hb, rfl⟩ := ha
    exact key _ _ hb (by simpa using hl)
  · rw [hk.d] at ha
    unfold mpDensity at ha
    cases hv : argKg E U B.mw kw "v" with
    | none => rw [hv] at ha; exact key _ _ ha hl
    | some b =>
      rw [hv] at ha
      cases ha
      exact key _ _ hv (by simpa using hl)
  · rw [hk.x] at ha
    exact key _ _ ha hl
  · rw [hk.inv] at ha
    unfold mpInv at ha
    split at ha
    · cases ha; exact key _ _ (by assumption) hl
    · cases ha; exact key _ _ (by assumption) hl
    · cases ha; exact key _ _ (by assumption) hl
    · cases ha

section
variable {E : Env} {U : Sys} (hU : Uses E U) {B : Sub} (hmw : B.mw ≠ 0) {S : Sol} {varg : List (Val ℝ)} {kw : Kw}
  (hkw : (kw.map (·.1)).Nodup)
include hU hmw hkw

theorem argparse_sizes {r : MOut} (h : mpArgparse E B S varg kw = .ok r) :
    (∀ q ∈ supplied varg kw, (Val.elems q.2).length = r.pts.length ∨ (Val.elems q.2).length = 1) ∧
    (r.pts.length = 1 ∨ ∃ q ∈ supplied varg kw, (Val.elems q.2).length = r.pts.length) := by
  obtain ⟨_, -, hT⟩ := defT_eq hU
  obtain ⟨_, -, -, hp⟩ := defp_eq hU
  have hT' : ∀ T, retOf (defT E.c) = .ok T → ∃ x, T = .scalar x := fun T h => by rw [hT] at h; cases h; exact ⟨_, rfl⟩
  have hp' : ∀ p, retOf (defp E.a E.c) = .ok p → ∃ x, p = .scalar x := fun T h => by rw [hp] at h; cases h; exact ⟨_, rfl⟩
  rw [mpArgparse_eq hU hmw] at h
  obtain ⟨kw1, b1, h⟩ := bind_ok h
  unfold afterPos at h
  obtain ⟨kw2, b2, h⟩ := bind_ok h
  obtain ⟨u, b3, h⟩ := bind_ok h
  obtain ⟨k, b4, h⟩ := bind_ok h
  obtain ⟨n1, m1⟩ := bindPos_keeps hkw b1
  obtain ⟨n2, m2, m3, m4⟩ := applyDefaults_keeps n1 b2
  have rules : RulesOk (kw2.map (·.1)) := by
    rcases mpRules_cases kw2 with ⟨-, h⟩ | ⟨h, -⟩
    · exact h
    · rw [h] at b3; cases b3
  have hk : Parsed E U B kw2 k := by
    rcases parsed_cases E U B kw2 with h1 | ⟨k', h1, h2⟩
    · rw [h1] at b4; cases b4
    · rw [h1] at b4; cases b4; exact h2
  obtain ⟨hl, hf⟩ := solve_sizes (parsed_few hk rules) h
  have one : ∀ q ∈ kw2, q ∈ kw1 ∨ (Val.elems q.2).length = 1 := by
    intro q hq
    match kw1, b2 with
    | [], b2 =>
      simp only [applyDefaults] at b2
      obtain ⟨T, c1, b2⟩ := bind_ok b2
      obtain ⟨p, c2, b2⟩ := bind_ok b2
      cases b2
      obtain ⟨x, rfl⟩ := hT' T c1
      obtain ⟨y, rfl⟩ := hp' p c2
      simp only [List.mem_cons, List.not_mem_nil, or_false] at hq
      rcases hq with rfl | rfl <;> exact .inr rfl
    | [q'], b2 =>
      simp only [applyDefaults] at b2
      split at b2
      · obtain ⟨T, c1, b2⟩ := bind_ok b2
        cases b2
        obtain ⟨x, rfl⟩ := hT' T c1
        simp only [List.mem_cons, List.not_mem_nil, or_false] at hq
        rcases hq with rfl | rfl
        · exact .inr rfl
        · exact .inl (by simp)
      · obtain ⟨T, c1, b2⟩ := bind_ok b2
        cases b2
        obtain ⟨x, rfl⟩ := hp' T c1
        simp only [List.mem_cons, List.not_mem_nil, or_false] at hq
        rcases hq with rfl | rfl
        · exact .inr rfl
        · exact .inl (by simp)
    | a :: b :: l, b2 =>
      cases b2
      exact .inl hq
  constructor
  · intro q hq
    rcases parsed_full hk rules n2 ⟨q, m2 q ((m1 q).mp hq), rfl⟩ with ⟨a, ha, e⟩ | ⟨a, ha, e⟩ | ⟨a, ha, e⟩ | ⟨a, ha, e⟩ |
      ⟨j, a, ha, e⟩ <;> rw [← e]
    exacts [hl.T _ ha, hl.p _ ha, hl.d _ ha, hl.x _ ha, hl.inv _ _ ha]
  · obtain ⟨q, hq, e⟩ := parsed_full_inv n2 hk hf
    rcases one q hq with h | h
    · exact .inr ⟨q, (m1 q).mpr h, e⟩
    · exact .inl (by rw [← e, h])

end

section
variable (E : Env) (U : Sys) (hU : Uses E U) (B : Sub) (hmw : B.mw ≠ 0) (S : Sol) (varg : List (Val ℝ)) (kw : Kw)
  (hkw : (kw.map (·.1)).Nodup)
include hU hmw hkw

/-- C80, sizes.  Each argument of a call that returns has as many elements as the result, or one; and the
result has one element unless an argument has as many. -/
theorem C80_size (m : MQuantity) (ys : List Nan) (h : mpMethod m E B S varg kw = .ok ys) :
    (∀ q ∈ supplied varg kw, (Val.elems q.2).length = ys.length ∨ (Val.elems q.2).length = 1) ∧
    (ys.length = 1 ∨ ∃ q ∈ supplied varg kw, (Val.elems q.2).length = ys.length) := by
  obtain ⟨r, hr⟩ := method_parsed hU hmw h
  have : ys.length = r.pts.length := by
    by_cases hc : m = .cv
    · subst hc
      simp only [mpMethod] at h
      rw [mpCv_eq hU hmw, hr, exOk] at h
      split at h
      · cases h
      cases h
      simp [outsKg]
    · rw [method_pts hU hmw hr hc] at h
      cases h
      simp
  rw [this]
  exact argparse_sizes hU hmw hkw hr

/-- C80, sizes.  Arrays of different lengths, neither of them 1, are refused. -/
theorem C80_mismatch (m : MQuantity) (n1 n2 : String) (v w : Val ℝ) (hv : (n1, v) ∈ supplied varg kw)
    (hw : (n2, w) ∈ supplied varg kw) (hne : (Val.elems v).length ≠ (Val.elems w).length)
    (h1 : (Val.elems v).length ≠ 1) (h2 : (Val.elems w).length ≠ 1) : ∃ e, mpMethod m E B S varg kw = .error e := by
  cases h : mpMethod m E B S varg kw with
  | error e => exact ⟨e, rfl⟩
  | ok ys =>
    have := (C80_size E U hU B hmw S varg kw hkw m ys h).1
    have a := this _ hv
    have b := this _ hw
    dsimp only at a b
    omega

end

end PyroMat.Mp.Props
