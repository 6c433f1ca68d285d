import Verif.Igt.ThermoArgs
import Verif.Igt.Shapes

/-!
# Dynamic mixtures: what `_argparse` returns (lemmas)
-/

set_option linter.unusedSectionVars false
set_option linter.unusedSimpArgs false

namespace PyroMat.Igt.Props

open PyroMat PyroMat.Gas PyroMat.Igt PyroMat.Igt.Spec PyroMat.Config.Defaults
open PyroMat.Units PyroMat.Units.Spec PyroMat.Units.Props PyroMat.Gas.Spec PyroMat.Gas.Props

variable {σ : Type} [DecidableEq σ]

theorem exbind_inv {α β : Type} {r : Except Err α} {f : α → Except Err β} {b : β}
    (h : (r >>= f) = .ok b) : ∃ x, r = .ok x ∧ f x = .ok b := by
  cases r with
  | error e => rw [exbind_err] at h; cases h
  | ok x => exact ⟨x, rfl, h⟩

theorem exmap_inv {α β : Type} {r : Except Err α} {f : α → β} {b : β}
    (h : r.map f = .ok b) : ∃ x, r = .ok x ∧ f x = b := by
  cases r with
  | error e => cases h
  | ok x => exact ⟨x, rfl, by simpa [Except.map] using h⟩

/-! ## Reading arguments -/

theorem atleast1_get (a : Arr) (i : List Nat) : a.atleast1.nan.get i = some (entry a i) := by
  unfold Arr.atleast1 entry
  split
  · rename_i h
    simp [NArr.get, Arr.nan, h, src]
  · rfl

theorem bto_inv {a x : NArr} {t : List Nat} (h : a.bto t = .ok x) :
    x.shape = t ∧ FitsR a.shape t ∧ ∀ i, i.length = t.length → x.val i = a.get i := by
  unfold NArr.bto at h
  split at h
  · rename_i hf
    cases h
    refine ⟨rfl, hf, fun i hi => ?_⟩
    unfold NArr.get
    rw [hi]
  · cases h

theorem jointM_inv {m : Mix σ} {a b x y : NArr} (h : jointM m a b = .ok (x, y)) :
    x.shape = y.shape ∧ FitsR a.shape x.shape ∧ FitsR b.shape x.shape ∧
      ∀ i, i.length = x.shape.length → x.val i = a.get i ∧ y.val i = b.get i := by
  unfold jointM at h
  obtain ⟨s1, -, h⟩ := exbind_inv h
  obtain ⟨s2, -, h⟩ := exbind_inv h
  obtain ⟨x', h1, h⟩ := exbind_inv h
  obtain ⟨y', h2, h⟩ := exbind_inv h
  cases h
  obtain ⟨e1, f1, v1⟩ := bto_inv h1
  obtain ⟨e2, f2, v2⟩ := bto_inv h2
  exact ⟨e1.trans e2.symm, by rw [e1]; exact f1, by rw [e1]; exact f2, fun i hi => ⟨v1 i (by rw [← e1]; exact hi), v2 i (by rw [← e1]; exact hi)⟩⟩

theorem conv_get {a : NArr} {g : ℝ → ℝ} (i : List Nat) :
    NArr.get ⟨a.shape, fun i => (a.val i).map g⟩ i = (a.get i).map g := rfl

/-! ## Converted arguments -/

section
variable {E : Env} {L : Lib σ} {m : Mix σ} {lo hi : ℝ} {kw : KwM}

/-- The converted arguments, one by one. -/
structure Converted (E : Env) (L : Lib σ) (m : Mix σ) (lo hi : ℝ) (kw : KwM) (k : StdM) : Prop where
  p : argM kw "p" (NArr.conv (fun v => (pressure E.a).call E.c.str v none (some "Pa") none false)) = .ok k.p
  s : argM kw "s" (entrM E) = .ok k.s
  d : ∃ d v, argM kw "d" (densM E L m) = .ok d ∧ argM kw "v" (volM E L m) = .ok v ∧ k.d = v.or d
  T : ∃ T h e, argM kw "T" (NArr.conv (fun v => temperatureScale E.c.str v none (some "K") false)) = .ok T ∧
    argE E L m Gas.h lo hi kw "h" = .ok h ∧ argE E L m Gas.e lo hi kw "e" = .ok e ∧
    k.T = (e.or h).or (T.map (fun T => (T, false)))

theorem convertM_inv {k : StdM} (h : convertM E L m lo hi kw = .ok k) :
    Converted E L m lo hi kw k := by
  unfold convertM at h
  obtain ⟨T, hT, h⟩ := exbind_inv h
  obtain ⟨p, hp, h⟩ := exbind_inv h
  obtain ⟨d, hd, h⟩ := exbind_inv h
  obtain ⟨v, hv, h⟩ := exbind_inv h
  obtain ⟨hh, hhh, h⟩ := exbind_inv h
  obtain ⟨e, he, h⟩ := exbind_inv h
  obtain ⟨s, hs, h⟩ := exbind_inv h
  cases h
  exact ⟨hp, hs, ⟨d, v, hd, hv, rfl⟩, ⟨T, hh, e, hT, hhh, he, rfl⟩⟩

theorem argM_none {name : String} {f : NArr → Except Err NArr} {x : Option NArr}
    (hl : kw.lookup name = none) (h : argM kw name f = .ok x) : x = none := by
  unfold argM at h
  rw [hl] at h
  cases h; rfl

theorem argM_some {name : String} {f : NArr → Except Err NArr} {x : Option NArr} {a : Arr}
    (hl : kw.lookup name = some a) (h : argM kw name f = .ok x) :
    ∃ y, f a.atleast1.nan = .ok y ∧ x = some y := by
  unfold argM at h
  rw [hl] at h
  obtain ⟨y, h1, h2⟩ := exmap_inv h
  exact ⟨y, h1, h2.symm⟩

theorem argE_none {f : Gas → ℝ → Option (ℝ × ℝ)} {name : String} {x : Option (NArr × Bool)}
    (hl : kw.lookup name = none) (h : argE E L m f lo hi kw name = .ok x) : x = none := by
  unfold argE at h
  rw [hl] at h
  cases h; rfl

theorem argE_some {f : Gas → ℝ → Option (ℝ × ℝ)} {name : String} {x : Option (NArr × Bool)} {a : Arr}
    (hl : kw.lookup name = some a) (h : argE E L m f lo hi kw name = .ok x) :
    ∃ y, energyM E L m f lo hi a.atleast1.nan = .ok y ∧ x = some y := by
  unfold argE at h
  rw [hl] at h
  obtain ⟨y, h1, h2⟩ := exmap_inv h
  exact ⟨y, h1, h2.symm⟩

end

/-! ## The range test -/

theorem rangeM_inv {lo hi : ℝ} {st st' : MixState} (h : rangeM lo hi st = .ok st') :
    st'.p = st.p ∧ st'.d = st.d ∧ st'.ro = st.ro ∧ st'.warned = st.warned ∧
    st'.T.shape = st.T.shape ∧
    (∀ i x, st'.T.val i = some x → st.T.val i = some x) ∧
    (st.ro = true → st'.T = st.T) := by
  unfold rangeM at h
  split at h
  · cases h
  · split at h
    · split at h
      · cases h
      · rename_i hro
        cases h
        refine ⟨rfl, rfl, rfl, rfl, rfl, ?_, fun h => absurd h hro⟩
        intro i x hx
        dsimp only at hx
        split at hx
        · cases hx
        · exact hx
    · cases h
      exact ⟨rfl, rfl, rfl, rfl, rfl, fun _ _ h => h, fun _ => rfl⟩

/-! ## The case split -/

/-- What a solved state says, in terms of the converted arguments. -/
theorem solveM_p {L : Lib σ} {m : Mix σ} {lo hi : ℝ} {gd : Bool} {k : StdM} {st : MixState}
    (h : solveM L m lo hi gd k = .ok st) {p : NArr} (hp : k.p = some p) :
    ∃ P, st.p = some P ∧ ∀ i, i.length = P.shape.length → P.val i = p.get i := by
  unfold solveM at h
  rw [hp] at h
  cases hs : k.s with
  | some s =>
    rw [hs] at h
    dsimp only at h
    split at h
    · cases h
    · obtain ⟨s1, -, h⟩ := exbind_inv h
      obtain ⟨s2, -, h⟩ := exbind_inv h
      obtain ⟨P, hP, h⟩ := exbind_inv h
      obtain ⟨q, -, h⟩ := exbind_inv h
      obtain ⟨y, -, h⟩ := exbind_inv h
      obtain ⟨r, -, h⟩ := exbind_inv h
      cases h
      obtain ⟨e1, -, v1⟩ := bto_inv hP
      exact ⟨P, rfl, fun i hi => v1 i (by rw [← e1]; exact hi)⟩
  | none =>
    rw [hs] at h
    dsimp only at h
    cases hT : k.T with
    | some T =>
      rw [hT] at h
      dsimp only at h
      obtain ⟨⟨t, P⟩, hj, h⟩ := exbind_inv h
      cases h
      obtain ⟨e1, f1, f2, v1⟩ := jointM_inv hj
      exact ⟨P, rfl, fun i hi => (v1 i (by rw [e1]; exact hi)).2⟩
    | none =>
      rw [hT] at h
      dsimp only at h
      cases hd : k.d with
      | none => rw [hd] at h; cases h
      | some d =>
        rw [hd] at h
        dsimp only at h
        obtain ⟨⟨P, D⟩, hj, h⟩ := exbind_inv h
        cases h
        obtain ⟨e1, f1, f2, v1⟩ := jointM_inv hj
        exact ⟨P, rfl, fun i hi => (v1 i hi).1⟩

/-- A temperature (given or found from energy) with pressure, density or entropy is kept. -/
theorem solveM_T {L : Lib σ} {m : Mix σ} {lo hi : ℝ} {gd : Bool} {k : StdM} {st : MixState}
    (h : solveM L m lo hi gd k = .ok st) {T : NArr × Bool} (hT : k.T = some T)
    (hsp : k.s = none ∨ k.p = none) :
    st.ro = true ∧ st.warned = T.2 ∧ FitsR T.1.shape st.T.shape ∧ ∀ i, i.length = st.T.shape.length → st.T.val i = T.1.get i := by
  unfold solveM at h
  rw [hT] at h
  cases hs : k.s with
  | some s =>
    have hp : k.p = none := by
      rcases hsp with h' | h'
      · rw [hs] at h'; cases h'
      · exact h'
    rw [hs, hp] at h
    dsimp only at h
    split at h
    · cases h
    · obtain ⟨⟨_, t⟩, hj, h⟩ := exbind_inv h
      obtain ⟨P, -, h⟩ := exbind_inv h
      cases h
      obtain ⟨e1, f1, f2, v1⟩ := jointM_inv hj
      exact ⟨rfl, rfl, by rw [← e1]; exact f2, fun i hi => (v1 i (by rw [e1]; exact hi)).2⟩
  | none =>
    rw [hs] at h
    dsimp only at h
    cases hp : k.p with
    | some p =>
      rw [hp] at h
      dsimp only at h
      obtain ⟨⟨t, P⟩, hj, h⟩ := exbind_inv h
      cases h
      obtain ⟨e1, f1, f2, v1⟩ := jointM_inv hj
      exact ⟨rfl, rfl, f1, fun i hi => (v1 i hi).1⟩
    | none =>
      rw [hp] at h
      dsimp only at h
      cases hd : k.d with
      | none => rw [hd] at h; cases h
      | some d =>
        rw [hd] at h
        dsimp only at h
        obtain ⟨⟨t, D⟩, hj, h⟩ := exbind_inv h
        cases h
        obtain ⟨e1, f1, f2, v1⟩ := jointM_inv hj
        exact ⟨rfl, rfl, f1, fun i hi => (v1 i hi).1⟩

/-- A density with a temperature or a pressure is kept. -/
theorem solveM_d {L : Lib σ} {m : Mix σ} {lo hi : ℝ} {gd : Bool} {k : StdM} {st : MixState}
    (h : solveM L m lo hi gd k = .ok st) {d : NArr} (hd : k.d = some d)
    (hs : k.s = none) (hTp : k.T = none ∨ k.p = none) :
    ∃ D, st.d = some D ∧ D.shape = st.T.shape ∧ FitsR d.shape D.shape ∧ ∀ i, i.length = D.shape.length → D.val i = d.get i := by
  unfold solveM at h
  rw [hd, hs] at h
  dsimp only at h
  cases hT : k.T with
  | some T =>
    have hp : k.p = none := by
      rcases hTp with h' | h'
      · rw [hT] at h'; cases h'
      · exact h'
    rw [hT, hp] at h
    dsimp only at h
    obtain ⟨⟨t, D⟩, hj, h⟩ := exbind_inv h
    cases h
    obtain ⟨e1, f1, f2, v1⟩ := jointM_inv hj
    exact ⟨D, rfl, e1.symm, by rw [← e1]; exact f2, fun i hi => (v1 i (by rw [e1]; exact hi)).2⟩
  | none =>
    rw [hT] at h
    dsimp only at h
    cases hp : k.p with
    | none => rw [hp] at h; cases h
    | some p =>
      rw [hp] at h
      dsimp only at h
      obtain ⟨⟨P, D⟩, hj, h⟩ := exbind_inv h
      cases h
      obtain ⟨e1, f1, f2, v1⟩ := jointM_inv hj
      exact ⟨D, rfl, e1.symm, by rw [← e1]; exact f2, fun i hi => (v1 i (by rw [e1]; exact hi)).2⟩

/-- Pressure, density and temperature of a solved state. -/
structure Law (st : MixState) : Prop where
  some_pd : st.p.isSome = true ∨ st.d.isSome = true
  both : ∀ p d, st.p = some p → st.d = some d → p.shape = st.T.shape ∧ d.shape = st.T.shape ∧
    ∀ i t, st.T.val i = some t → ∃ x y, p.val i = some x ∧ d.val i = some y ∧ t = x / (1000 * Ru * y)

theorem solveM_law {L : Lib σ} {m : Mix σ} {lo hi : ℝ} {gd : Bool} {k : StdM} {st : MixState}
    (h : solveM L m lo hi gd k = .ok st) : Law st := by
  unfold solveM at h
  cases hs : k.s with
  | some s =>
    rw [hs] at h
    dsimp only at h
    split at h
    · cases h
    · cases hp : k.p with
      | some p =>
        rw [hp] at h
        dsimp only at h
        obtain ⟨s1, -, h⟩ := exbind_inv h
        obtain ⟨s2, -, h⟩ := exbind_inv h
        obtain ⟨P, hP, h⟩ := exbind_inv h
        obtain ⟨q, -, h⟩ := exbind_inv h
        obtain ⟨y, -, h⟩ := exbind_inv h
        obtain ⟨r, -, h⟩ := exbind_inv h
        cases h
        exact ⟨Or.inl rfl, fun p d _ hd => by cases hd⟩
      | none =>
        rw [hp] at h
        cases hT : k.T with
        | none => rw [hT] at h; cases h
        | some T =>
          rw [hT] at h
          dsimp only at h
          obtain ⟨⟨_, t⟩, hj, h⟩ := exbind_inv h
          obtain ⟨P, -, h⟩ := exbind_inv h
          cases h
          exact ⟨Or.inl rfl, fun p d _ hd => by cases hd⟩
  | none =>
    rw [hs] at h
    dsimp only at h
    cases hT : k.T with
    | some T =>
      rw [hT] at h
      dsimp only at h
      cases hp : k.p with
      | some p =>
        rw [hp] at h
        dsimp only at h
        obtain ⟨⟨t, P⟩, hj, h⟩ := exbind_inv h
        cases h
        exact ⟨Or.inl rfl, fun p d _ hd => by cases hd⟩
      | none =>
        rw [hp] at h
        dsimp only at h
        cases hd : k.d with
        | none => rw [hd] at h; cases h
        | some d =>
          rw [hd] at h
          dsimp only at h
          obtain ⟨⟨t, D⟩, hj, h⟩ := exbind_inv h
          cases h
          exact ⟨Or.inr rfl, fun p d hp _ => by cases hp⟩
    | none =>
      rw [hT] at h
      dsimp only at h
      cases hp : k.p with
      | none => rw [hp] at h; cases h
      | some p =>
        rw [hp] at h
        dsimp only at h
        cases hd : k.d with
        | none => rw [hd] at h; cases h
        | some d =>
          rw [hd] at h
          dsimp only at h
          obtain ⟨⟨P, D⟩, hj, h⟩ := exbind_inv h
          cases h
          obtain ⟨e1, -⟩ := jointM_inv hj
          refine ⟨Or.inl rfl, fun p d hp hd => ?_⟩
          cases hp; cases hd
          refine ⟨rfl, e1.symm, fun i t ht => ?_⟩
          dsimp only at ht
          cases hx : P.val i with
          | none => rw [hx] at ht; cases ht
          | some x =>
            cases hy : D.val i with
            | none => rw [hx, hy] at ht; cases ht
            | some y =>
              rw [hx, hy] at ht
              simp only [nan2, Option.bind_some, Option.map_some, Option.some.injEq] at ht
              exact ⟨x, y, rfl, rfl, ht.symm⟩

/-- All stages of a call that supplies an allowed pair. -/
theorem stages {E : Env} {L : Lib σ} {m : Mix σ} {varg : List Arr} {kw : KwM} {a b : String}
    {va vb : Arr} (hs : SuppliesM varg kw a va b vb) {st : MixState}
    (h : argparseM E L m varg kw = .ok st) :
    ∃ lim k st0, limsM E L m = .ok lim ∧ Converted E L m lim.1 lim.2 [(a, va), (b, vb)] k ∧
      solveM L m lim.1 lim.2 (KwM.has [(a, va), (b, vb)] "d") k = .ok st0 ∧
      rangeM lim.1 lim.2 st0 = .ok st := by
  rw [argparseM_pair hs] at h
  obtain ⟨lim, h1, h⟩ := exbind_inv h
  unfold afterM at h
  obtain ⟨k, h2, h⟩ := exbind_inv h
  obtain ⟨st0, h3, h⟩ := exbind_inv h
  exact ⟨lim, k, st0, h1, convertM_inv h2, h3, h⟩

/-- All stages of any call. -/
theorem stages' {E : Env} {L : Lib σ} {m : Mix σ} {varg : List Arr} {kw : KwM} {st : MixState}
    (h : argparseM E L m varg kw = .ok st) :
    ∃ lim kw' k st0, limsM E L m = .ok lim ∧ Converted E L m lim.1 lim.2 kw' k ∧
      solveM L m lim.1 lim.2 (KwM.has kw' "d") k = .ok st0 ∧ rangeM lim.1 lim.2 st0 = .ok st := by
  rw [argparseM_eq] at h
  obtain ⟨lim, h1, h⟩ := exbind_inv h
  obtain ⟨kw1, -, h⟩ := exbind_inv h
  obtain ⟨kw2, -, h⟩ := exbind_inv h
  obtain ⟨-, -, h⟩ := exbind_inv h
  unfold afterM at h
  obtain ⟨k, h2, h⟩ := exbind_inv h
  obtain ⟨st0, h3, h⟩ := exbind_inv h
  exact ⟨lim, kw2, k, st0, h1, convertM_inv h2, h3, h⟩

end PyroMat.Igt.Props
