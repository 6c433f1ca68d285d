import Verif.Mp.PropsSatCalls
import Verif.Mp.SpecUnits

/-!
# C71: results of the multiphase class do not depend on the working unit system
-/

set_option linter.unusedSimpArgs false

namespace PyroMat.Mp.Props

open PyroMat PyroMat.Units PyroMat.Units.Spec PyroMat.Units.Props PyroMat.Gas PyroMat.Gas.Spec
open PyroMat.Gas.Props PyroMat.Mp PyroMat.Mp.Spec PyroMat.Config.Defaults

/-! ## The states depend only on the values of the arguments -/

/-- Two arguments with the same values. -/
def SameArg (A A' : Option Arg) : Prop := A.map (·.xs) = A'.map (·.xs)

/-- Two temperature or pressure arguments with the same values. -/
def SameN (A A' : Option NArg) : Prop := A.map (·.xs) = A'.map (·.xs)

/-- Two sets of arguments with the same values. -/
structure SameStd (k k' : MStd) : Prop where
  T : SameN k.T k'.T
  p : SameN k.p k'.p
  d : SameArg k.d k'.d
  x : SameArg k.x k'.x
  inv : k.inv.map (fun q => (q.1, q.2.xs)) = k'.inv.map (fun q => (q.1, q.2.xs))

/-- Two results that are the same apart from a part that is not compared. -/
inductive Agree {α β : Type} (R : α → β → Prop) : Except Err α → Except Err β → Prop
  | ok {a b} : R a b → Agree R (.ok a) (.ok b)
  | error (e : Err) : Agree R (.error e) (.error e)

theorem Agree.bind {α β γ δ : Type} {R : α → β → Prop} {Q : γ → δ → Prop} {m : Except Err α} {m' : Except Err β}
    {f : α → Except Err γ} {f' : β → Except Err δ} (h : Agree R m m') (hf : ∀ a b, R a b → Agree Q (f a) (f' b)) :
    Agree Q (m >>= f) (m' >>= f') := by
  cases h with
  | ok h => exact hf _ _ h
  | error e => exact .error e

theorem sameArg_cases {A A' : Option Arg} (h : SameArg A A') :
    A = none ∧ A' = none ∨ ∃ xs o o', A = some ⟨xs, o⟩ ∧ A' = some ⟨xs, o'⟩ := by
  unfold SameArg at h
  rcases A with _ | ⟨xs, o⟩ <;> rcases A' with _ | ⟨xs', o'⟩ <;> simp at h
  · exact Or.inl ⟨rfl, rfl⟩
  · subst h; exact Or.inr ⟨_, _, _, rfl, rfl⟩

theorem sameN_cases {A A' : Option NArg} (h : SameN A A') :
    A = none ∧ A' = none ∨ ∃ xs o o', A = some ⟨xs, o⟩ ∧ A' = some ⟨xs, o'⟩ := by
  unfold SameN at h
  rcases A with _ | ⟨xs, o⟩ <;> rcases A' with _ | ⟨xs', o'⟩ <;> simp at h
  · exact Or.inl ⟨rfl, rfl⟩
  · subst h; exact Or.inr ⟨_, _, _, rfl, rfl⟩

theorem range_same (lo hi : ℝ) {A A' : Option Arg} (h : SameArg A A') :
    Agree SameN (mpRange lo hi A) (mpRange lo hi A') := by
  rcases sameArg_cases h with ⟨rfl, rfl⟩ | ⟨xs, o, o', rfl, rfl⟩
  · exact .ok rfl
  · unfold mpRange
    dsimp only
    split
    · exact .error _
    · exact .ok rfl

theorem quality_same {A A' : Option Arg} (h : SameArg A A') :
    Agree (fun _ _ => True) (mpQuality A) (mpQuality A') := by
  rcases sameArg_cases h with ⟨rfl, rfl⟩ | ⟨xs, o, o', rfl, rfl⟩
  · exact .ok trivial
  · unfold mpQuality
    dsimp only
    split
    · exact .error _
    · exact .ok trivial

theorem density_same {d d' v v' : Option Arg} (hd : SameArg d d') (hv : SameArg v v') :
    SameArg (mpDensity d v) (mpDensity d' v') := by
  rcases sameArg_cases hv with ⟨rfl, rfl⟩ | ⟨xs, o, o', rfl, rfl⟩
  · exact hd
  · rfl

theorem inv_same {e e' h h' s s' : Option Arg} (he : SameArg e e') (hh : SameArg h h') (hs : SameArg s s') :
    (mpInv e h s).map (fun q => (q.1, q.2.xs)) = (mpInv e' h' s').map (fun q => (q.1, q.2.xs)) := by
  rcases sameArg_cases he with ⟨rfl, rfl⟩ | ⟨xs, o, o', rfl, rfl⟩
  · rcases sameArg_cases hh with ⟨rfl, rfl⟩ | ⟨xs, o, o', rfl, rfl⟩
    · rcases sameArg_cases hs with ⟨rfl, rfl⟩ | ⟨xs, o, o', rfl, rfl⟩ <;> rfl
    · rfl
  · rfl

/-- The same states. -/
def SamePts (r r' : MOut) : Prop := r.pts = r'.pts

theorem refl_agree {α : Type} (m : Except Err α) : Agree Eq m m := by
  cases m
  · exact .error _
  · exact .ok rfl

theorem solve_same (B : Sub) (S : Sol) {k k' : MStd} (h : SameStd k k') :
    Agree SamePts (mpSolve B S k) (mpSolve B S k') := by
  obtain ⟨T, p, d, x, inv⟩ := k
  obtain ⟨T', p', d', x', inv'⟩ := k'
  obtain ⟨hT, hp, hd, hx, hi⟩ := h
  dsimp only at hT hp hd hx hi
  have step : ∀ {α : Type} (m : Except Err α) (f f' : α → MOut), (∀ a, (f a).pts = (f' a).pts) →
      Agree SamePts (m >>= fun a => .ok (f a)) (m >>= fun a => .ok (f' a)) := by
    intro α m f f' hf
    exact (refl_agree m).bind (fun a b hab => by subst hab; exact .ok (hf a))
  unfold mpSolve
  rcases inv with _ | ⟨i, y⟩ <;> rcases inv' with _ | ⟨i', y'⟩ <;> simp at hi
  · dsimp only
    unfold mpSolveBasic
    rcases sameN_cases hT with ⟨rfl, rfl⟩ | ⟨xs, o, o', rfl, rfl⟩ <;>
    rcases sameN_cases hp with ⟨rfl, rfl⟩ | ⟨xs, o, o', rfl, rfl⟩ <;>
    rcases sameArg_cases hd with ⟨rfl, rfl⟩ | ⟨xs, o, o', rfl, rfl⟩ <;>
    rcases sameArg_cases hx with ⟨rfl, rfl⟩ | ⟨xs, o, o', rfl, rfl⟩ <;>
    dsimp only <;> first | exact .error _ | exact step _ _ _ (fun a => rfl)
  · obtain ⟨rfl, hy⟩ := hi
    dsimp only
    unfold mpSolveInv
    rw [hy]
    rcases sameN_cases hT with ⟨rfl, rfl⟩ | ⟨xs, o, o', rfl, rfl⟩ <;>
    rcases sameN_cases hp with ⟨rfl, rfl⟩ | ⟨xs, o, o', rfl, rfl⟩ <;>
    rcases sameArg_cases hd with ⟨rfl, rfl⟩ | ⟨xs, o, o', rfl, rfl⟩ <;>
    rcases sameArg_cases hx with ⟨rfl, rfl⟩ | ⟨xs, o, o', rfl, rfl⟩ <;>
    dsimp only <;> first | exact .error _ | exact step _ _ _ (fun a => rfl)

section
variable {E1 E2 : Env} {U1 U2 : Sys} {B : Sub} {kw1 kw2 : Kw}

theorem parsed_same (h : ∀ n, SameArg (argKg E1 U1 B.mw kw1 n) (argKg E2 U2 B.mw kw2 n)) :
    Agree SameStd (parsed E1 U1 B kw1) (parsed E2 U2 B kw2) := by
  unfold parsed
  refine (range_same _ _ (h "T")).bind fun T T' hT => ?_
  refine (range_same _ _ (h "p")).bind fun p p' hp => ?_
  refine (quality_same (h "x")).bind fun _ _ _ => ?_
  exact .ok ⟨hT, hp, density_same (h "d") (h "v"), h "x", inv_same (h "e") (h "h") (h "s")⟩

theorem rules_same (h : (kw1.map (·.1)).Perm (kw2.map (·.1))) : mpRules kw1 = mpRules kw2 := by
  rcases mpRules_cases kw1 with ⟨h1, r1⟩ | ⟨h1, r1⟩ <;> rcases mpRules_cases kw2 with ⟨h2, r2⟩ | ⟨h2, r2⟩
  · rw [h1, h2]
  · exact absurd (rulesOk_perm h r1) r2
  · exact absurd (rulesOk_perm h.symm r2) r1
  · rw [h1, h2]

/-- The states of two calls with the same names and values. -/
theorem after_same (S : Sol) (hn : (kw1.map (·.1)).Perm (kw2.map (·.1)))
    (h : ∀ n, SameArg (argKg E1 U1 B.mw kw1 n) (argKg E2 U2 B.mw kw2 n)) :
    Agree SamePts (mpRules kw1 >>= fun _ => parsed E1 U1 B kw1 >>= mpSolve B S)
      (mpRules kw2 >>= fun _ => parsed E2 U2 B kw2 >>= mpSolve B S) := by
  rw [rules_same hn]
  refine (refl_agree _).bind fun _ _ _ => ?_
  exact (parsed_same h).bind fun _ _ hk => solve_same B S hk

/-- The names and values of an argument list. -/
noncomputable def values (E : Env) (U : Sys) (mw : ℝ) (kw : Kw) : List (String × List ℝ) :=
  kw.map (fun q => (q.1, (Val.elems q.2).map (internalKg E.a U mw (kindOf q.1))))

theorem values_names (E : Env) (U : Sys) (mw : ℝ) (kw : Kw) : (values E U mw kw).map (·.1) = kw.map (·.1) := by
  simp [values, Function.comp_def]

theorem lookup_values (E : Env) (U : Sys) (mw : ℝ) (kw : Kw) (n : String) :
    (argKg E U mw kw n).map (·.xs) = (values E U mw kw).lookup n := by
  unfold argKg values
  induction kw with
  | nil => rfl
  | cons q l ih =>
    obtain ⟨m, v⟩ := q
    simp only [List.map_cons, List.lookup_cons]
    by_cases h : n = m
    · subst h; simp
    · simp only [beq_false_of_ne h]; exact ih

theorem lookup_perm {α : Type} {l l' : List (String × α)} (h : l.Perm l') (hn : (l.map (·.1)).Nodup) (n : String) :
    l.lookup n = l'.lookup n := by
  have hn' : (l'.map (·.1)).Nodup := (h.map _).nodup_iff.mp hn
  cases hl : l.lookup n with
  | some v =>
    have hm : (n, v) ∈ l := by
      have := List.lookup_eq_some_iff.mp hl
      obtain ⟨a, b, e, -⟩ := this
      rw [e]; simp
    exact (lookup_of_mem hn' (h.mem_iff.mp hm)).symm
  | none =>
    cases hl' : l'.lookup n with
    | none => rfl
    | some v =>
      have hm : (n, v) ∈ l' := by
        obtain ⟨a, b, e, -⟩ := List.lookup_eq_some_iff.mp hl'
        rw [e]; simp
      have := lookup_of_mem hn (h.mem_iff.mpr hm)
      rw [hl] at this; cases this

theorem values_same (h : (values E1 U1 B.mw kw1).Perm (values E2 U2 B.mw kw2)) (hn : (kw1.map (·.1)).Nodup) :
    (kw1.map (·.1)).Perm (kw2.map (·.1)) ∧
    ∀ n, SameArg (argKg E1 U1 B.mw kw1 n) (argKg E2 U2 B.mw kw2 n) := by
  refine ⟨?_, fun n => ?_⟩
  · rw [← values_names E1 U1 B.mw, ← values_names E2 U2 B.mw]; exact h.map _
  · unfold SameArg
    rw [lookup_values, lookup_values]
    exact lookup_perm h (by rw [values_names]; exact hn) n

end

section
variable {E1 E2 : Env} {U1 U2 : Sys} (hU1 : Uses E1 U1) (hU2 : Uses E2 U2) {B : Sub} (hmw : B.mw ≠ 0)
include hU1 hU2

/-- The completed argument lists have the same names and values. -/
theorem defaults_same {kw1 kw2 : Kw}
    (hd : 2 ≤ kw1.length ∨ SameDefaults E1 E2) (h : (values E1 U1 B.mw kw1).Perm (values E2 U2 B.mw kw2)) :
    Agree (fun k1 k2 => (values E1 U1 B.mw k1).Perm (values E2 U2 B.mw k2) ∧
        ((kw1.map (·.1)).Nodup → (k1.map (·.1)).Nodup))
      (applyDefaults E1 kw1) (applyDefaults E2 kw2) := by
  obtain ⟨s1, hs1, hT1⟩ := defT_eq hU1
  obtain ⟨s2, hs2, hT2⟩ := defT_eq hU2
  obtain ⟨u1, hu1, hc1, hp1⟩ := defp_eq hU1
  obtain ⟨u2, hu2, hc2, hp2⟩ := defp_eq hU2
  have eT : SameDefaults E1 E2 → internalKg E1.a U1 B.mw (kindOf "T") (fromKelvin U1.T.name (toKelvin s1.name E1.c.defT))
      = internalKg E2.a U2 B.mw (kindOf "T") (fromKelvin U2.T.name (toKelvin s2.name E2.c.defT)) := by
    intro hd
    show toKelvin U1.T.name _ = toKelvin U2.T.name _
    rw [to_from, to_from]
    exact hd.T s1 s2 hs1 hs2
  have ep : SameDefaults E1 E2 → internalKg E1.a U1 B.mw (kindOf "p") (E1.c.defp * size (pressure E1.a) u1 / size (pressure E1.a) U1.p)
      = internalKg E2.a U2 B.mw (kindOf "p") (E2.c.defp * size (pressure E2.a) u2 / size (pressure E2.a) U2.p) := by
    intro hd
    show _ / _ * size (pressure E1.a) U1.p = _ / _ * size (pressure E2.a) U2.p
    rw [div_mul_cancel₀ _ (ps_ne hU1), div_mul_cancel₀ _ (ps_ne hU2)]
    exact hd.p u1 u2 hu1 hu2
  have hlen : kw1.length = kw2.length := by
    have := h.length_eq
    simpa [values] using this
  match kw1, kw2, hlen, hd, h with
  | [], [], _, hd, _ =>
    have hd := hd.resolve_left (by simp)
    simp only [applyDefaults, hT1, hT2, hp1, hp2, exOk]
    refine .ok ⟨?_, fun _ => by simp⟩
    simp only [values, List.map_cons, List.map_nil, Val.elems, eT hd, ep hd]
    exact List.Perm.refl _
  | [(n1, v1)], [(n2, v2)], _, hd', h =>
    have hd : SameDefaults E1 E2 := hd'.resolve_left (by simp)
    have h := List.perm_singleton.mp h
    simp only [values, List.map_cons, List.map_nil, List.cons.injEq, Prod.mk.injEq, and_true] at h
    obtain ⟨hnn, hv⟩ := h
    subst hnn
    simp only [applyDefaults, hT1, hT2, hp1, hp2, exOk]
    by_cases hn : n1 = "T"
    · subst hn
      refine .ok ⟨?_, fun _ => by simp⟩
      have e0 : ∀ x : ℝ, Val.elems (Val.scalar x) = [x] := fun _ => rfl
      simp only [values, List.map_cons, List.map_nil, e0, ep hd, hv]
      exact List.Perm.refl _
    · rw [if_pos hn, if_pos hn]
      refine .ok ⟨?_, fun _ => by simp [Ne.symm hn]⟩
      have e0 : ∀ x : ℝ, Val.elems (Val.scalar x) = [x] := fun _ => rfl
      simp only [values, List.map_cons, List.map_nil, e0, eT hd, hv]
      exact List.Perm.refl _
  | a :: b :: l, a' :: b' :: l', _, _, h =>
    simp only [applyDefaults]
    exact .ok ⟨h, id⟩

include hmw

theorem argparse_same (S : Sol) {varg1 varg2 : List (Val ℝ)} {kw1 kw2 : Kw}
    (hd : 2 ≤ (given varg1 kw1).length ∨ SameDefaults E1 E2)
    (h1 : varg1.length ≤ 2) (h2 : varg2.length ≤ 2)
    (hk1 : (kw1.map (·.1)).Nodup) (hk2 : (kw2.map (·.1)).Nodup)
    (h : (physical E1.a U1 B.mw varg1 kw1).Perm (physical E2.a U2 B.mw varg2 kw2)) :
    Agree SamePts (mpArgparse E1 B S varg1 kw1) (mpArgparse E2 B S varg2 kw2) := by
  have hg : (given varg1 kw1).Perm (given varg2 kw2) := by
    rw [← physical_names E1.a U1 B.mw h1, ← physical_names E2.a U2 B.mw h2]; exact h.map _
  by_cases hn : (given varg1 kw1).Nodup
  · obtain ⟨k1, e1, p1⟩ := bindPos_supplied h1 hn
    obtain ⟨k2, e2, p2⟩ := bindPos_supplied h2 (hg.nodup_iff.mp hn)
    have hk : (values E1 U1 B.mw k1).Perm (values E2 U2 B.mw k2) :=
      ((p1.map _).trans h).trans (p2.map _).symm
    have hn1 : (k1.map (·.1)).Nodup := (bindPos_ok e1).2.1.nodup_iff.mpr hn
    rw [mpArgparse_eq hU1 hmw, mpArgparse_eq hU2 hmw, e1, e2, exOk, exOk, afterPos, afterPos]
    have hl : k1.length = (given varg1 kw1).length := by
      simpa using (bindPos_ok e1).2.1.length_eq
    refine (defaults_same hU1 hU2 (hl ▸ hd) hk).bind ?_
    rintro a b ⟨hab, ha⟩
    obtain ⟨q1, q2⟩ := values_same hab (ha hn1)
    exact after_same S q1 q2
  · rw [C54_rejects E1 U1 hU1 B hmw S varg1 kw1 hk1 (fun q => hn q.2.distinct),
      C54_rejects E2 U2 hU2 B hmw S varg2 kw2 hk2 (fun q => hn (hg.nodup_iff.mpr q.2.distinct))]
    exact .error _

theorem same_of {r1 r2 : MOut} (h : SamePts r1 r2) (k : Kind) (f : Pt → Nan) :
    ((outsKg E1.a U1 B.mw k (r1.pts.map f)).map (Option.map (internalKg E1.a U1 B.mw k)))
      = ((outsKg E2.a U2 B.mw k (r2.pts.map f)).map (Option.map (internalKg E2.a U2 B.mw k))) := by
  unfold SamePts at h
  simp only [outsKg, List.map_map, Function.comp_def, Option.map_map, internalKg_inUnitsKg hU1 hmw,
    internalKg_inUnitsKg hU2 hmw, h, Option.map_id']

end

/-- C71.  The results of a multiphase call do not depend on the working unit system.  Take two
configurations, with any listed units, and two calls whose arguments, in common units, have the same
names and the same values, in any order and whether positional or by keyword; if fewer than two
arguments are given the stored defaults must be the same quantities.  Then every method fails in both
calls with the same error, or returns in both the same quantities, NaN for NaN. -/
theorem C71_unit_independence (E1 E2 : Env) (U1 U2 : Sys) (hU1 : Uses E1 U1) (hU2 : Uses E2 U2)
    (B : Sub) (hmw : B.mw ≠ 0) (S : Sol) (varg1 varg2 : List (Val ℝ)) (kw1 kw2 : Kw)
    (hk1 : (kw1.map (·.1)).Nodup) (hk2 : (kw2.map (·.1)).Nodup)
    (h1 : varg1.length ≤ 2) (h2 : varg2.length ≤ 2)
    (h : (physical E1.a U1 B.mw varg1 kw1).Perm (physical E2.a U2 B.mw varg2 kw2))
    (hd : 2 ≤ (given varg1 kw1).length ∨ SameDefaults E1 E2) (m : MQuantity) :
    SameArrays (si E1 U1 B m) (si E2 U2 B m) (mpMethod m E1 B S varg1 kw1) (mpMethod m E2 B S varg2 kw2) := by
  have key := argparse_same hU1 hU2 hmw S hd h1 h2 hk1 hk2 h
  generalize e1 : mpArgparse E1 B S varg1 kw1 = a1 at key
  generalize e2 : mpArgparse E2 B S varg2 kw2 = a2 at key
  cases key with
  | error e => exact .inl ⟨e, method_error hU1 hmw S e1 m, method_error hU2 hmw S e2 m⟩
  | @ok r1 r2 hr =>
    have out : ∀ (k : Kind) (f : Pt → Nan), m.kind = k →
        mpMethod m E1 B S varg1 kw1 = .ok (outsKg E1.a U1 B.mw k (r1.pts.map f)) →
        mpMethod m E2 B S varg2 kw2 = .ok (outsKg E2.a U2 B.mw k (r2.pts.map f)) →
        SameArrays (si E1 U1 B m) (si E2 U2 B m) (mpMethod m E1 B S varg1 kw1) (mpMethod m E2 B S varg2 kw2) := by
      intro k f hk q1 q2
      subst hk
      exact .inr ⟨_, _, q1, q2, same_of hU1 hU2 hmw hr _ f⟩
    cases m
    · exact out .temperature (·.T) rfl (by simp only [mpMethod]; rw [mpT_eq hU1 hmw, e1, exOk])
        (by simp only [mpMethod]; rw [mpT_eq hU2 hmw, e2, exOk])
    · exact out .pressure (fun q => Pt.at (fun T d => (B.F.p T d).v) q.T q.d2) rfl (by simp only [mpMethod]; rw [mpP_eq hU1 hmw, e1, exOk])
        (by simp only [mpMethod]; rw [mpP_eq hU2 hmw, e2, exOk])
    · exact out .density Pt.density rfl (by simp only [mpMethod]; rw [mpD_eq hU1 hmw, e1, exOk])
        (by simp only [mpMethod]; rw [mpD_eq hU2 hmw, e2, exOk])
    · have vol : ∀ {E : Env} {U : Sys}, Uses E U → ∀ l : List Nan,
          (outsKg E.a U B.mw .density l).map (Option.map (fun x => 1 / x))
            = outsKg E.a U B.mw .volume (l.map (Option.map (fun x => 1 / x))) := by
        intro E U hU l
        simp only [outsKg, List.map_map, Function.comp_def, Option.map_map, inUnitsKg_recip hU hmw]
      refine out .volume (fun q => q.density.map (fun x => 1 / x)) rfl ?_ ?_
      · simp only [mpMethod]
        rw [mpV_eq hU1 hmw, e1, exOk, vol hU1, List.map_map]; rfl
      · simp only [mpMethod]
        rw [mpV_eq hU2 hmw, e2, exOk, vol hU2, List.map_map]; rfl
    · have num : ∀ {E : Env} {U : Sys} (l : List Nan), outsKg E.a U B.mw .number l = l := by
        intro E U l
        have : inUnitsKg E.a U B.mw .number = fun x => x := by
          funext x; simp [inUnitsKg, perKmol, inUnits]
        have h2 : ∀ o : Nan, o.map (fun x => x) = o := fun o => by cases o <;> rfl
        rw [outsKg, this]
        exact (List.map_congr_left (fun o _ => h2 o)).trans (List.map_id l)
      refine out .number (·.x) rfl ?_ ?_
      · simp only [mpMethod]; rw [mpX, e1, exOk]; exact congrArg _ (num _).symm
      · simp only [mpMethod]; rw [mpX, e2, exOk]; exact congrArg _ (num _).symm
    · exact out .energy (Pt.mix (fun T d => (B.F.e T d).v)) rfl (by simp only [mpMethod]; rw [mpE_eq hU1 hmw, e1, exOk])
        (by simp only [mpMethod]; rw [mpE_eq hU2 hmw, e2, exOk])
    · exact out .energy (Pt.mix (fun T d => (B.F.f T d).v)) rfl (by simp only [mpMethod]; rw [mpF_eq hU1 hmw, e1, exOk])
        (by simp only [mpMethod]; rw [mpF_eq hU2 hmw, e2, exOk])
    · exact out .energy (Pt.mix (fun T d => (B.F.g T d).v)) rfl (by simp only [mpMethod]; rw [mpG_eq hU1 hmw, e1, exOk])
        (by simp only [mpMethod]; rw [mpG_eq hU2 hmw, e2, exOk])
    · exact out .energy (Pt.mix (fun T d => (B.F.h T d).v)) rfl (by simp only [mpMethod]; rw [mpH_eq hU1 hmw, e1, exOk])
        (by simp only [mpMethod]; rw [mpH_eq hU2 hmw, e2, exOk])
    · exact out .entropy (Pt.mix (fun T d => (B.F.s T d).v)) rfl (by simp only [mpMethod]; rw [mpS_eq hU1 hmw, e1, exOk])
        (by simp only [mpMethod]; rw [mpS_eq hU2 hmw, e2, exOk])
    · have hr' : r1.pts = r2.pts := hr
      by_cases hc : (r2.pts.any (·.I) && !r2.pts.all (·.I)) = true
      · refine .inl ⟨.value, ?_, ?_⟩
        · simp only [mpMethod]; rw [mpCv_eq hU1 hmw, e1, exOk, hr', if_pos hc]
        · simp only [mpMethod]; rw [mpCv_eq hU2 hmw, e2, exOk, if_pos hc]
      · refine out .entropy (Pt.cv B) rfl ?_ ?_
        · simp only [mpMethod]; rw [mpCv_eq hU1 hmw, e1, exOk, hr', if_neg hc]
        · simp only [mpMethod]; rw [mpCv_eq hU2 hmw, e2, exOk, if_neg hc]

theorem floatMap_ofNan (f : ℝ → ℝ) (c : Nan) : floatMap f (Cand.ofNan c) = Cand.ofNan (c.map f) := by
  cases c <;> rfl

/-- C71, `cp` and `gam`, whose results contain infinities. -/
theorem C71_heat_capacity (E1 E2 : Env) (U1 U2 : Sys) (hU1 : Uses E1 U1) (hU2 : Uses E2 U2)
    (B : Sub) (hmw : B.mw ≠ 0) (S : Sol) (varg1 varg2 : List (Val ℝ)) (kw1 kw2 : Kw)
    (hk1 : (kw1.map (·.1)).Nodup) (hk2 : (kw2.map (·.1)).Nodup)
    (h1 : varg1.length ≤ 2) (h2 : varg2.length ≤ 2)
    (h : (physical E1.a U1 B.mw varg1 kw1).Perm (physical E2.a U2 B.mw varg2 kw2))
    (hd : 2 ≤ (given varg1 kw1).length ∨ SameDefaults E1 E2) :
    SameFloats (internalKg E1.a U1 B.mw .entropy) (internalKg E2.a U2 B.mw .entropy)
      (mpCp E1 B S varg1 kw1) (mpCp E2 B S varg2 kw2) ∧
    mpGam E1 B S varg1 kw1 = mpGam E2 B S varg2 kw2 := by
  have key := argparse_same hU1 hU2 hmw S hd h1 h2 hk1 hk2 h
  rw [mpCp_eq hU1 hmw, mpCp_eq hU2 hmw]
  unfold mpGam
  generalize e1 : mpArgparse E1 B S varg1 kw1 = a1 at key
  generalize e2 : mpArgparse E2 B S varg2 kw2 = a2 at key
  cases key with
  | error e => exact ⟨.inl ⟨e, rfl, rfl⟩, rfl⟩
  | @ok r1 r2 hr =>
    have hr : r1.pts = r2.pts := hr
    simp only [exOk, hr, and_true]
    refine .inr ⟨_, _, rfl, rfl, ?_⟩
    have one : ∀ {E : Env} {U : Sys}, Uses E U → ∀ l : List Pt,
        ((List.zipWith (fun (q : Pt) c => if q.I then .pinf else Cand.ofNan c) l
          (outsKg E.a U B.mw .entropy (l.map (fun q => Pt.at B.F.cp q.T q.d1)))).map
            (floatMap (internalKg E.a U B.mw .entropy)))
          = l.map (fun q => if q.I then .pinf else Cand.ofNan (Pt.at B.F.cp q.T q.d1)) := by
      intro E U hU l
      induction l with
      | nil => rfl
      | cons q l ih =>
        simp only [List.map_cons, outsKg, List.zipWith_cons_cons] at ih ⊢
        rw [ih]
        congr 1
        by_cases hq : q.I = true
        · rw [if_pos hq, if_pos hq]; rfl
        · rw [if_neg hq, if_neg hq, floatMap_ofNan, Option.map_map]
          congr 1
          simp only [Function.comp_def, internalKg_inUnitsKg hU hmw, Option.map_id']
    rw [one hU1, one hU2]

/-! ## Speed of sound -/

theorem convOut_speed {E : Env} {U : Sys} (hU : Uses E U) {l t : String} (hs : SpeedUnits E l t) (xs : List Nan) :
    convOut (outSpeed E) xs = .ok (xs.map (Option.map (fun x => x / size length l * size time t))) := by
  unfold outSpeed
  rw [convOut_map (gs := [(· * (1 / size length l)), (· * (1 / size time t)⁻¹)])
    (.cons (fun x => ?_) (.cons (fun x => ?_) .nil))]
  · congr 3
    funext x
    simp [div_eq_mul_inv]
  · rw [scalarOf_call hU (nonZero_of_mem hU.pos (by simp [allConvs])) (k := "unit_length") rfl hs.cfgl hs.hasl (w := "m") (y := 1) rfl]
    simp [powS]
  · rw [scalarOf_call hU (nonZero_of_mem hU.pos (by simp [allConvs])) (k := "unit_time") rfl hs.cfgt hs.hast (w := "s") (y := 1) rfl]
    simp [powS]

/-- C71, the speed of sound, in any listed units of length and time. -/
theorem C71_speed (E1 E2 : Env) (U1 U2 : Sys) (hU1 : Uses E1 U1) (hU2 : Uses E2 U2)
    (l1 t1 l2 t2 : String) (hs1 : SpeedUnits E1 l1 t1) (hs2 : SpeedUnits E2 l2 t2)
    (B : Sub) (hmw : B.mw ≠ 0) (S : Sol) (varg1 varg2 : List (Val ℝ)) (kw1 kw2 : Kw)
    (hk1 : (kw1.map (·.1)).Nodup) (hk2 : (kw2.map (·.1)).Nodup)
    (h1 : varg1.length ≤ 2) (h2 : varg2.length ≤ 2)
    (h : (physical E1.a U1 B.mw varg1 kw1).Perm (physical E2.a U2 B.mw varg2 kw2))
    (hd : 2 ≤ (given varg1 kw1).length ∨ SameDefaults E1 E2) :
    SameArrays (siSpeed l1 t1) (siSpeed l2 t2) (mpA E1 B S varg1 kw1) (mpA E2 B S varg2 kw2) := by
  have key := argparse_same hU1 hU2 hmw S hd h1 h2 hk1 hk2 h
  unfold mpA
  simp only [convOut_speed hU1 hs1, convOut_speed hU2 hs2]
  generalize e1 : mpArgparse E1 B S varg1 kw1 = a1 at key
  generalize e2 : mpArgparse E2 B S varg2 kw2 = a2 at key
  cases key with
  | error e => exact .inl ⟨e, rfl, rfl⟩
  | @ok r1 r2 hr =>
    have hr : r1.pts = r2.pts := hr
    refine .inr ⟨_, _, rfl, rfl, ?_⟩
    have pos : ∀ {E : Env} {U : Sys}, Uses E U → ∀ {l t : String}, SpeedUnits E l t →
        ∀ x : ℝ, siSpeed l t (x / size length l * size time t) = x := by
      intro E U hU l t hs x
      have hl : size (length : Conv ℝ) l ≠ 0 := nonZero_of_mem hU.pos (c := length) (by simp [allConvs]) _ (lookup_mem (size_lookup hU hs.hasl))
      have ht : size (time : Conv ℝ) t ≠ 0 := nonZero_of_mem hU.pos (c := time) (by simp [allConvs]) _ (lookup_mem (size_lookup hU hs.hast))
      unfold siSpeed
      field_simp
    simp only [List.map_map, Function.comp_def, Option.map_map, pos hU1 hs1, pos hU2 hs2, hr, Option.map_id']

/-! ## Saturation -/

section
variable {E1 E2 : Env} {U1 U2 : Sys} (hU1 : Uses E1 U1) (hU2 : Uses E2 U2) {B : Sub} (hmw : B.mw ≠ 0)
include hU1 hU2 hmw

theorem satT_same (S : Sol) {v1 v2 : Val ℝ}
    (h : (Val.elems v1).map (toKelvin U1.T.name) = (Val.elems v2).map (toKelvin U2.T.name)) :
    satArgparse E1 B S (some v1) none = satArgparse E2 B S (some v2) none := by
  unfold satArgparse
  dsimp only
  rw [exOk, exOk, convT hU1 hmw, convT hU2 hmw, exOk, exOk]
  simp only [h]

theorem satP_same (S : Sol) {v1 v2 : Val ℝ}
    (h : (Val.elems v1).map (fun p => p * size (pressure E1.a) U1.p)
      = (Val.elems v2).map (fun p => p * size (pressure E2.a) U2.p)) :
    satArgparse E1 B S none (some v1) = satArgparse E2 B S none (some v2) := by
  unfold satArgparse
  dsimp only
  rw [convP hU1 hmw, convP hU2 hmw, exOk, exOk]
  simp only [h]

theorem satMethod_same (S : Sol) (q : SatQuantity) {T1 T2 p1 p2 : Option (Val ℝ)}
    (h : satArgparse E1 B S T1 p1 = satArgparse E2 B S T2 p2) :
    SamePairs (internalKg E1.a U1 B.mw q.kind) (internalKg E2.a U2 B.mw q.kind)
      (satMethod q E1 B S T1 p1) (satMethod q E2 B S T2 p2) := by
  rw [satMethod_eq hU1 hmw, satMethod_eq hU2 hmw, h]
  cases satArgparse E2 B S T2 p2 with
  | error e => exact .inl ⟨e, rfl, rfl⟩
  | ok r =>
    refine .inr ⟨_, _, rfl, rfl, ?_, ?_⟩ <;>
    simp only [List.map_map, Function.comp_def, Option.map_map, internalKg_inUnitsKg hU1 hmw,
      internalKg_inUnitsKg hU2 hmw]

theorem satPs_same {v1 v2 : Val ℝ}
    (h : (Val.elems v1).map (toKelvin U1.T.name) = (Val.elems v2).map (toKelvin U2.T.name)) :
    SameArrays (internalKg E1.a U1 B.mw .pressure) (internalKg E2.a U2 B.mw .pressure)
      (satPs E1 B (some v1)) (satPs E2 B (some v2)) := by
  unfold satPs
  dsimp only
  rw [exOk, exOk, convT hU1 hmw, convT hU2 hmw, exOk, exOk]
  simp only [h, convOut_pressure hU1 B.mw, convOut_pressure hU2 B.mw]
  split
  · exact .inl ⟨_, rfl, rfl⟩
  · refine .inr ⟨_, _, rfl, rfl, ?_⟩
    simp only [List.map_map, Function.comp_def, Option.map_some, internalKg_inUnitsKg hU1 hmw,
      internalKg_inUnitsKg hU2 hmw]

theorem satTs_same (S : Sol) {v1 v2 : Val ℝ}
    (h : (Val.elems v1).map (fun p => p * size (pressure E1.a) U1.p)
      = (Val.elems v2).map (fun p => p * size (pressure E2.a) U2.p)) :
    SameArrays (internalKg E1.a U1 B.mw .temperature) (internalKg E2.a U2 B.mw .temperature)
      (satTs E1 B S (some v1)) (satTs E2 B S (some v2)) := by
  unfold satTs
  dsimp only
  rw [exOk, exOk, convP hU1 hmw, convP hU2 hmw, exOk, exOk]
  simp only [h, convOut_temperature hU1 B.mw, convOut_temperature hU2 B.mw]
  split
  · exact .inl ⟨_, rfl, rfl⟩
  · generalize S.Ts _ = m
    cases m with
    | error e => exact .inl ⟨e, rfl, rfl⟩
    | ok Ts =>
      refine .inr ⟨_, _, rfl, rfl, ?_⟩
      simp only [List.map_map, Function.comp_def, Option.map_map, internalKg_inUnitsKg hU1 hmw,
        internalKg_inUnitsKg hU2 hmw]

end

/-- C71, saturation properties at given temperatures or pressures. -/
theorem C71_saturation (E1 E2 : Env) (U1 U2 : Sys) (hU1 : Uses E1 U1) (hU2 : Uses E2 U2)
    (B : Sub) (hmw : B.mw ≠ 0) (S : Sol) :
    (∀ T1 T2 : Val ℝ, (Val.elems T1).map (toKelvin U1.T.name) = (Val.elems T2).map (toKelvin U2.T.name) →
      (∀ q : SatQuantity, SamePairs (internalKg E1.a U1 B.mw q.kind) (internalKg E2.a U2 B.mw q.kind)
        (satMethod q E1 B S (some T1) none) (satMethod q E2 B S (some T2) none)) ∧
      SameArrays (internalKg E1.a U1 B.mw .pressure) (internalKg E2.a U2 B.mw .pressure)
        (satPs E1 B (some T1)) (satPs E2 B (some T2))) ∧
    (∀ p1 p2 : Val ℝ, (Val.elems p1).map (fun p => p * size (pressure E1.a) U1.p)
        = (Val.elems p2).map (fun p => p * size (pressure E2.a) U2.p) →
      (∀ q : SatQuantity, SamePairs (internalKg E1.a U1 B.mw q.kind) (internalKg E2.a U2 B.mw q.kind)
        (satMethod q E1 B S none (some p1)) (satMethod q E2 B S none (some p2))) ∧
      SameArrays (internalKg E1.a U1 B.mw .temperature) (internalKg E2.a U2 B.mw .temperature)
        (satTs E1 B S (some p1)) (satTs E2 B S (some p2))) ∧
    (SameDefaults E1 E2 →
      (∀ q : SatQuantity, SamePairs (internalKg E1.a U1 B.mw q.kind) (internalKg E2.a U2 B.mw q.kind)
        (satMethod q E1 B S none none) (satMethod q E2 B S none none)) ∧
      SameArrays (internalKg E1.a U1 B.mw .pressure) (internalKg E2.a U2 B.mw .pressure)
        (satPs E1 B none) (satPs E2 B none) ∧
      SameArrays (internalKg E1.a U1 B.mw .temperature) (internalKg E2.a U2 B.mw .temperature)
        (satTs E1 B S none) (satTs E2 B S none)) := by
  refine ⟨fun T1 T2 h => ⟨fun q => ?_, ?_⟩, fun p1 p2 h => ⟨fun q => ?_, ?_⟩, fun hd => ?_⟩
  · exact satMethod_same hU1 hU2 hmw S q (satT_same hU1 hU2 hmw S h)
  · exact satPs_same hU1 hU2 hmw h
  · exact satMethod_same hU1 hU2 hmw S q (satP_same hU1 hU2 hmw S h)
  · exact satTs_same hU1 hU2 hmw S h
  · obtain ⟨a1, b1, ⟨s1, hs1, hT1⟩, ⟨u1, hu1, hp1⟩, c1, d1, e1⟩ := C55_defaults E1 U1 hU1 B S
    obtain ⟨a2, b2, ⟨s2, hs2, hT2⟩, ⟨u2, hu2, hp2⟩, c2, d2, e2⟩ := C55_defaults E2 U2 hU2 B S
    have hT : (Val.elems (.scalar a1)).map (toKelvin U1.T.name) = (Val.elems (.scalar a2)).map (toKelvin U2.T.name) := by
      simp only [Val.elems, List.map_cons, List.map_nil, hT1, hT2, hd.T s1 s2 hs1 hs2]
    have hp : (Val.elems (.scalar b1)).map (fun p => p * size (pressure E1.a) U1.p)
        = (Val.elems (.scalar b2)).map (fun p => p * size (pressure E2.a) U2.p) := by
      simp only [Val.elems, List.map_cons, List.map_nil, hp1, hp2, hd.p u1 u2 hu1 hu2]
    refine ⟨fun q => ?_, ?_, ?_⟩
    · rw [c1, c2]; exact satMethod_same hU1 hU2 hmw S q (satT_same hU1 hU2 hmw S hT)
    · rw [d1, d2]; exact satPs_same hU1 hU2 hmw hT
    · rw [e1, e2]; exact satTs_same hU1 hU2 hmw S hp

/-! ## Examples -/

/-- The default configuration with other working units: C, Pa, L, J and kmol; speeds in ft per ms. -/
noncomputable def otherEnv : Env where
  a := SetupArgs.default
  c := { defT := 298.15, defp := 1.01325, str := fun k => match k with
    | "unit_temperature" => .ok "C" | "unit_pressure" => .ok "Pa" | "unit_volume" => .ok "L"
    | "unit_energy" => .ok "J" | "unit_matter" => .ok "kmol" | "def_T_unit" => .ok "K"
    | "def_p_unit" => .ok "bar" | "unit_length" => .ok "ft" | "unit_time" => .ok "ms"
    | _ => .error .param }
  cell := fun _ ws => ws.getLastD 0

/-- Its unit system. -/
def otherSys : Sys := ⟨.C, "Pa", "L", "J", "kmol"⟩

theorem otherEnv_uses : Uses otherEnv otherSys where
  pos := by constructor <;> norm_num [otherEnv, SetupArgs.default]
  valid := ⟨rfl, rfl, rfl, Or.inr rfl⟩
  T := rfl
  p := rfl
  v := rfl
  e := rfl
  m := rfl
  defT := ⟨.K, rfl⟩
  defp := ⟨"bar", rfl, rfl⟩

theorem same_defaults : SameDefaults fullEnv otherEnv where
  T := by
    intro s1 s2 h1 h2
    have e1 : s1.name = "K" := by simpa [fullEnv] using h1.symm
    have e2 : s2.name = "K" := by simpa [otherEnv] using h2.symm
    rw [e1, e2]; rfl
  p := by
    intro u1 u2 h1 h2
    have e1 : u1 = "bar" := by simpa [fullEnv] using h1.symm
    have e2 : u2 = "bar" := by simpa [otherEnv] using h2.symm
    rw [e1, e2]; rfl

theorem size_bar : size (pressure fullEnv.a) "bar" = 100000 := by
  simp only [size, pressure]
  show (some _).getD (1 : ℝ) = 100000
  norm_num

theorem size_Pa : size (pressure otherEnv.a) "Pa" = 1 := by
  norm_num [size, pressure, List.lookup, otherEnv, SetupArgs.default]

/-- The hypotheses of C71 are met by the default units and C, Pa, L, J, kmol: 500 K and 2 bar, positional,
and 226.85 C and 200000 Pa, by keyword in the other order. -/
example : (physical fullEnv.a exampleSys demoSub.mw [.scalar 500, .scalar 2] []).Perm
      (physical otherEnv.a otherSys demoSub.mw [] [("p", .scalar 200000), ("T", .arr [226.85])]) ∧
    SpeedUnits otherEnv "ft" "ms" := by
  refine ⟨?_, ⟨rfl, rfl, rfl, rfl⟩⟩
  have e : physical fullEnv.a exampleSys demoSub.mw [.scalar 500, .scalar 2] [] = [("T", [500]), ("p", [200000])] := by
    show [("T", [toKelvin Scale.K.name 500]), ("p", [2 * size (pressure fullEnv.a) "bar"])] = _
    rw [show Scale.K.name = "K" from rfl, toK_K, size_bar]; norm_num
  have e' : physical otherEnv.a otherSys demoSub.mw [] [("p", .scalar 200000), ("T", .arr [226.85])]
      = [("p", [200000]), ("T", [500])] := by
    show [("p", [200000 * size (pressure otherEnv.a) "Pa"]), ("T", [toKelvin Scale.C.name 226.85])] = _
    rw [size_Pa, show Scale.C.name = "C" from rfl, toK_C]; norm_num
  rw [e, e']
  exact List.Perm.swap _ _ _

/-! ## Default pressure of `T_s` and `T_h` -/

/-- **C71 disagreement.** `T_h(h)` and `T_s(s)` without pressure and density take the number stored as
default pressure in the working pressure unit, not in `def_p_unit`, so their result depends on the
working unit: with the default pressure 1.01325 bar and any substance whose pressure range starts
above 2 Pa, the call in Pa raises `PMParamError`, and the same call in bar does not. -/
theorem C71_T_h_default_defect (B : Sub) (hmw : B.mw ≠ 0) (h1 : 2 ≤ B.plo) (h2 : B.plo ≤ 101325)
    (h3 : 101325 ≤ B.phi) (S : Sol) (hS : ¬ Raises S .param) (i : Mp.Inv) (y1 y2 : ℝ) :
    SameDefaults fullEnv otherEnv ∧
    mpT_inv otherEnv B S i.name (.scalar y2) none none = .error .param ∧
    mpT_inv fullEnv B S i.name (.scalar y1) none none ≠ .error .param := by
  have val : ∀ {E : Env} {U : Sys} (y : ℝ), E.c.defp = 1.01325 →
      argKg E U B.mw [(i.name, .scalar y), ("p", .scalar E.c.defp)] "p"
        = some ⟨[1.01325 * size (pressure E.a) U.p], false⟩ := by
    intro E U y he
    have : ("p" == i.name) = false := by cases i <;> rfl
    simp only [argKg, List.lookup, this, he]
    rfl
  have adm : ∀ y p : ℝ, mpRules [(i.name, .scalar y), ("p", .scalar p)] = .ok () := by
    intro y p
    cases i <;> rfl
  have noT : ∀ {E : Env} {U : Sys} (y : ℝ), argKg E U B.mw [(i.name, .scalar y), ("p", .scalar E.c.defp)] "T" = none := by
    intro E U y
    have : ("T" == i.name) = false := by cases i <;> rfl
    simp [argKg, List.lookup, this]
  refine ⟨same_defaults, ?_, ?_⟩
  · unfold mpT_inv
    dsimp only
    rw [mpT_eq otherEnv_uses hmw, argparse_two otherEnv_uses hmw, adm, exOk, parsed, noT, val _ rfl]
    have hp : otherSys.p = "Pa" := rfl
    rw [hp, size_Pa, mpRange_bad]
    · rfl
    · intro x hx
      simp only [List.mem_singleton] at hx
      left; subst hx; norm_num; linarith
  · unfold mpT_inv
    dsimp only
    rw [mpT_eq fullEnv_uses hmw]
    intro he
    have hu : Usable B 1 (physical fullEnv.a exampleSys B.mw []
        [(i.name, .scalar y1), ("p", .scalar fullEnv.c.defp)]) := by
      have e : physical fullEnv.a exampleSys B.mw [] [(i.name, .scalar y1), ("p", .scalar fullEnv.c.defp)]
          = [(i.name, [internalKg fullEnv.a exampleSys B.mw (kindOf i.name) y1]), ("p", [101325])] := by
        show [(i.name, [internalKg fullEnv.a exampleSys B.mw (kindOf i.name) y1]),
          ("p", [1.01325 * size (pressure fullEnv.a) "bar"])] = _
        rw [size_bar]; norm_num
      rw [e]
      generalize internalKg fullEnv.a exampleSys B.mw (kindOf i.name) y1 = z
      have ni : i.name ∈ ["e", "h", "s"] := by cases i <;> simp [Inv.name]
      have nT : i.name ≠ "T" := by cases i <;> decide
      have nx : i.name ≠ "x" := by cases i <;> decide
      constructor
      · simp
      · constructor
        · cases i <;> simp [Inv.name]
        · cases i <;> simp [Inv.name]
        · simp
        · cases i <;> simp [Inv.name]
        · cases i <;> simp [Inv.name]
        · cases i <;> simp [Inv.name]
      · simp
      · simp
      · intro xs h; simp [nT.symm] at h
      · intro xs h
        have : xs = [101325] := by
          cases i <;> simpa [Inv.name] using h
        exact ⟨101325, by simp [this], h2, h3⟩
      · intro xs h; simp [nx.symm] at h
      · intro xs h; simp [nx.symm] at h
      · intro xs zs h; simp [nx.symm] at h
      · intro xs zs h; simp [nx.symm] at h
    rcases C54_accepts fullEnv exampleSys fullEnv_uses B hmw S [] _ (by simp) 1 hu with ⟨r, hr, -⟩ | ⟨e, hr, hR⟩
    · rw [hr, exOk] at he; cases he
    · rw [hr, exErr] at he; cases he; exact hS hR

/-- The hypotheses are met by a substance with pressures from 611 Pa and inversions that do not raise
`PMParamError`. -/
example := C71_T_h_default_defect { demoSub with plo := 611 } (by norm_num [demoSub]) (by norm_num) (by norm_num)
  (by norm_num [demoSub]) demoSol (by simp [Raises, demoSol]) .h 2000 2000000

end PyroMat.Mp.Props
