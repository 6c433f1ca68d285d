import Verif.Mp.SelfTest
import Mathlib.Tactic.Linarith
import Mathlib.Tactic.NormNum
import Mathlib.Algebra.Order.Field.Basic

/-!
# C109: the self-test of the multi-phase class

The specification is the list of criteria in the documentation of `_test` (`mp1.py:288-306`), and of the polynomials
(`mp1.py:576-640`, `818-870`).
-/

namespace PyroMat.Mp.Props

open PyroMat PyroMat.Gas PyroMat.Mp

/-- A number. -/
def IsScalar (d : Doc) : Prop := (∃ n, d = .int n) ∨ ∃ x, d = .num x

/-- A term `[i, c]` of a one-variable polynomial. -/
def IsTerm1 (d : Doc) : Prop := ∃ (i : Nat) (c : Doc), IsScalar c ∧ d = .list [.int i, c]

/-- A group `[pre, post, term, ...]` of a one-variable polynomial. -/
def IsGroup1 (d : Doc) : Prop :=
  ∃ pre post terms, IsScalar pre ∧ IsScalar post ∧ (∀ t ∈ terms, IsTerm1 t) ∧ d = .list (pre :: post :: terms)

/-- A one-variable polynomial. -/
def IsPoly1 (d : Doc) : Prop := ∃ gs, (∀ g ∈ gs, IsGroup1 g) ∧ d = .list gs

/-- A term `[i, j, c]` of a two-variable polynomial. -/
def IsTerm2 (d : Doc) : Prop := ∃ (i j : Nat) (c : Doc), IsScalar c ∧ d = .list [.int i, .int j, c]

/-- A pair of exponents. -/
def IsPair (d : Doc) : Prop := ∃ a b, IsScalar a ∧ IsScalar b ∧ d = .list [a, b]

/-- A group `[[prex, prey], [postx, posty], term, ...]` of a two-variable polynomial. -/
def IsGroup2 (d : Doc) : Prop :=
  ∃ pre post terms, IsPair pre ∧ IsPair post ∧ (∀ t ∈ terms, IsTerm2 t) ∧ d = .list (pre :: post :: terms)

/-- A two-variable polynomial. -/
def IsPoly2 (d : Doc) : Prop := ∃ gs, (∀ g ∈ gs, IsGroup2 g) ∧ d = .list gs

/-- A table with `n` columns. -/
def IsTable (n : Nat) (d : Doc) : Prop := ∃ rows, (∀ r ∈ rows, ∃ l, l.length = n ∧ r = .list l) ∧ d = .list rows

/-- A positive number. -/
def IsPositive (d : Doc) : Prop := (∃ n, 0 < n ∧ d = .int n) ∨ ∃ x, 0 < x ∧ d = .num x

/-- The documented criteria 0.1 to 0.8 for the entries `AOgroup` and `ARgroup`. -/
structure Documented (ao ar : Obj) : Prop where
  aoT : ∃ d, ao.lookup "Tscale" = some d ∧ IsPositive d
  aod : ∃ d, ao.lookup "dscale" = some d ∧ IsPositive d
  logt : ∀ d, ao.lookup "logt" = some d → IsScalar d
  ao0 : ∀ d, ao.lookup "coef0" = some d → IsPoly1 d
  ao1 : ∀ d, ao.lookup "coef1" = some d → IsTable 2 d
  arT : ∃ d, ar.lookup "Tscale" = some d
  ard : ∃ d, ar.lookup "dscale" = some d
  ar0 : ∀ d, ar.lookup "coef0" = some d → ∃ gs, (∀ g ∈ gs, IsPoly2 g) ∧ d = .list gs
  ar1 : ∀ d, ar.lookup "coef1" = some d → IsTable 7 d
  ar2 : ∀ d, ar.lookup "coef2" = some d → IsTable 8 d

theorem scalar_iff (d : Doc) : d.scalar = true ↔ IsScalar d := by
  cases d <;> simp [Doc.scalar, IsScalar]

theorem power_iff (d : Doc) : d.power = true ↔ ∃ i : Nat, d = .int i := by
  cases d with
  | int n =>
    simp only [Doc.power, decide_eq_true_eq, Doc.int.injEq]
    exact ⟨fun h => ⟨n.toNat, by omega⟩, fun ⟨i, hi⟩ => by omega⟩
  | _ => simp [Doc.power]

theorem pairOk_iff (d : Doc) : pairOk d = true ↔ IsPair d := by
  rcases d with _ | _ | (_ | ⟨a, _ | ⟨b, _ | ⟨c, l⟩⟩⟩) | _ <;> simp [pairOk, IsPair, scalar_iff]

/-- What the code asks of a term: a list of `n` whose first element is a power. -/
theorem badTerm_iff (n : Nat) (d : Doc) :
    badTerm n d = false ↔ ∃ (i : Nat) (l : List Doc), (Doc.int i :: l).length = n ∧ d = .list (.int i :: l) := by
  rcases d with _ | _ | (_ | ⟨a, l⟩) | _ <;> simp only [badTerm, reduceCtorEq, and_false, exists_false, Bool.true_eq_false,
    Bool.or_eq_false_iff, Bool.not_eq_false', power_iff, bne_eq_false_iff_eq, Doc.list.injEq, List.cons.injEq, iff_self]
  constructor
  · rintro ⟨h, i, rfl⟩
    exact ⟨i, l, h, rfl, rfl⟩
  · rintro ⟨i, l', h, rfl, rfl⟩
    exact ⟨h, i, rfl⟩

theorem anyBad_false {f : Doc → Except Err Bool} {l : List Doc} : anyBad f l = .ok false ↔ ∀ x ∈ l, f x = .ok false := by
  induction l with
  | nil => simp [anyBad]
  | cons x xs ih =>
    simp only [anyBad, bind, Except.bind, List.mem_cons, forall_eq_or_imp]
    cases h : f x with
    | error e => simp
    | ok b => cases b <;> simp [ih]

/-- Criterion 0.1 or 0.5 as the code has it. -/
theorem scales_ok {g : Obj} {b : Bool} :
    scales g = .ok b ↔ b = true ∧ (∃ d, g.lookup "Tscale" = some d) ∧ ∃ d, g.lookup "dscale" = some d := by
  unfold scales
  split
  next h =>
    simp only [Bool.and_eq_true, Option.isSome_iff_exists] at h
    simp [h.1, h.2, eq_comm]
  next h =>
    simp only [Bool.and_eq_true, Option.isSome_iff_exists] at h
    simp only [reduceCtorEq, false_iff]
    exact fun hc => h hc.2

theorem items_ok {d : Doc} {l : List Doc} : d.items = .ok l ↔ d = .list l := by
  cases d <;> simp [Doc.items]

theorem poly1_false {d : Doc} : checkPoly1 d = .ok false ↔ ∃ gs, (∀ g ∈ gs, badGroup1 g = .ok false) ∧ d = .list gs := by
  cases d <;> simp [checkPoly1, Doc.items, bind, Except.bind, anyBad_false]

theorem poly2_false {d : Doc} : checkPoly2 d = .ok false ↔ ∃ gs, (∀ g ∈ gs, badGroup2 g = .ok false) ∧ d = .list gs := by
  cases d <;> simp [checkPoly2, Doc.items, bind, Except.bind, anyBad_false]

theorem group1_false {d : Doc} : badGroup1 d = .ok false ↔
    ∃ pre post terms, IsScalar pre ∧ IsScalar post ∧ (∀ t ∈ terms, badTerm 2 t = false) ∧ d = .list (pre :: post :: terms) := by
  rcases d with _ | _ | (_ | ⟨a, _ | ⟨b, l⟩⟩) | _ <;>
    simp [badGroup1, scalar_iff, and_assoc]

theorem group2_false {d : Doc} : badGroup2 d = .ok false ↔
    ∃ pre post terms, IsPair pre ∧ IsPair post ∧ (∀ t ∈ terms, badTerm 3 t = false) ∧ d = .list (pre :: post :: terms) := by
  rcases d with _ | _ | (_ | ⟨a, _ | ⟨b, l⟩⟩) | _ <;>
    simp [badGroup2, pairOk_iff, and_assoc]

theorem mapM_len {n : Nat} {rows : List Doc} {bs : List Bool} (h : rows.mapM (badLen n) = .ok bs) :
    bs.any id = false ↔ ∀ r ∈ rows, ∃ l, l.length = n ∧ r = .list l := by
  induction rows generalizing bs with
  | nil =>
    simp [pure, Except.pure] at h
    subst h
    simp
  | cons r rs ih =>
    rw [List.mapM_cons] at h
    cases r with
    | list l =>
      cases hr : rs.mapM (badLen n) with
      | error e => simp [badLen, hr, bind, Except.bind] at h
      | ok bs' =>
        simp [badLen, hr, bind, Except.bind, pure, Except.pure] at h
        subst h
        have := ih hr
        simp only [List.any_cons, id_eq, Bool.or_eq_false_iff, bne_eq_false_iff_eq, List.mem_cons, forall_eq_or_imp,
          Doc.list.injEq]
        rw [this]
        simp
    | _ => simp [badLen, bind, Except.bind] at h

theorem mapM_table {n : Nat} {rows : List Doc} (h : ∀ r ∈ rows, ∃ l, l.length = n ∧ r = .list l) :
    ∃ bs, rows.mapM (badLen n) = .ok bs := by
  induction rows with
  | nil => exact ⟨[], rfl⟩
  | cons r rs ih =>
    obtain ⟨bs, hbs⟩ := ih fun r hr => h r (List.mem_cons_of_mem _ hr)
    obtain ⟨l, -, rfl⟩ := h r (by simp)
    exact ⟨(l.length != n) :: bs, by rw [List.mapM_cons]; simp only [badLen, hbs, bind, Except.bind, pure, Except.pure]⟩

theorem arTable_true {g : Obj} {key : String} {n : Nat} :
    arTable g key n = .ok true ↔ ∀ d, g.lookup key = some d → IsTable n d := by
  unfold arTable
  cases hg : g.lookup key with
  | none => simp
  | some d =>
    cases d with
    | list rows =>
      simp only [bind, Except.bind, Option.some.injEq, forall_eq', IsTable, Doc.list.injEq]
      constructor
      · cases hm : rows.mapM (badLen n) with
        | error e => simp
        | ok bs =>
          simp only [Except.ok.injEq, Bool.not_eq_true', mapM_len hm]
          exact fun h => ⟨rows, h, rfl⟩
      · rintro ⟨rows', h, rfl⟩
        obtain ⟨bs, hm⟩ := mapM_table h
        simp only [hm, Except.ok.injEq, Bool.not_eq_true', mapM_len hm]
        exact h
    | _ => simp [IsTable]

theorem aoCoef1_true {g : Obj} : aoCoef1 g = true ↔ ∀ d, g.lookup "coef1" = some d → IsTable 2 d := by
  unfold aoCoef1
  cases hg : g.lookup "coef1" with
  | none => simp
  | some d =>
    cases d with
    | list rows =>
      have : ∀ r, rowOk 2 r = true ↔ ∃ l : List Doc, l.length = 2 ∧ r = .list l := by
        intro r; cases r <;> simp [rowOk]
      simp [IsTable, this]
    | _ => simp [IsTable]

theorem aoCoef0_true {g : Obj} : aoCoef0 g = .ok true ↔ ∀ d, g.lookup "coef0" = some d → checkPoly1 d = .ok false := by
  unfold aoCoef0
  cases g.lookup "coef0" with
  | none => simp
  | some d =>
    cases h : checkPoly1 d with
    | error e => simp [bind, Except.bind, h]
    | ok b => cases b <;> simp [bind, Except.bind, h]

theorem arCoef0_true {g : Obj} : arCoef0 g = .ok true ↔
    ∀ d, g.lookup "coef0" = some d → ∃ gs, (∀ g ∈ gs, checkPoly2 g = .ok false) ∧ d = .list gs := by
  unfold arCoef0
  cases g.lookup "coef0" with
  | none => simp
  | some d =>
    cases d with
    | list gs =>
      rw [show (∀ d, some (Doc.list gs) = some d → ∃ gs, (∀ g ∈ gs, checkPoly2 g = .ok false) ∧ d = .list gs)
        ↔ anyBad checkPoly2 gs = .ok false by simp [anyBad_false]]
      cases h : anyBad checkPoly2 gs with
      | error e => simp [bind, Except.bind, h]
      | ok b => cases b <;> simp [bind, Except.bind, h]
    | _ => simp

theorem logtOk_true {g : Obj} : logtOk g = true ↔ ∀ d, g.lookup "logt" = some d → IsScalar d := by
  unfold logtOk
  cases g.lookup "logt" <;> simp [scalar_iff]

theorem integrity_true {ao ar : Obj} : integrity0 ao ar = .ok true ↔
    scales ao = .ok true ∧ logtOk ao = true ∧ aoCoef0 ao = .ok true ∧ aoCoef1 ao = true ∧ scales ar = .ok true ∧
      arCoef0 ar = .ok true ∧ arTable ar "coef1" 7 = .ok true ∧ arTable ar "coef2" 8 = .ok true := by
  unfold integrity0
  cases scales ao <;> cases aoCoef0 ao <;> cases scales ar <;> cases arCoef0 ar <;> cases arTable ar "coef1" 7 <;>
    cases arTable ar "coef2" 8 <;> simp [bind, Except.bind, and_assoc]

/-- C109, acceptance.  Data as documented pass the integrity checks of the self-test, whatever tables are given. -/
theorem C109_accepts (ao ar : Obj) (h : Documented ao ar) (sat rest : Except Err Unit) (trials : List Trial) :
    mpTest ao ar true sat trials rest = .ok true := by
  have hi : integrity0 ao ar = .ok true := by
    rw [integrity_true, scales_ok, scales_ok, logtOk_true, aoCoef0_true, aoCoef1_true, arCoef0_true, arTable_true,
      arTable_true]
    refine ⟨⟨rfl, h.aoT.imp fun _ h => h.1, h.aod.imp fun _ h => h.1⟩, h.logt, ?_, h.ao1, ⟨rfl, h.arT, h.ard⟩, ?_, h.ar1, h.ar2⟩
    · intro d hd
      obtain ⟨gs, hg, rfl⟩ := h.ao0 d hd
      refine poly1_false.mpr ⟨gs, fun g hm => ?_, rfl⟩
      obtain ⟨pre, post, terms, h1, h2, h3, rfl⟩ := hg g hm
      refine group1_false.mpr ⟨pre, post, terms, h1, h2, fun t ht => ?_, rfl⟩
      obtain ⟨i, c, -, rfl⟩ := h3 t ht
      exact (badTerm_iff 2 _).mpr ⟨i, [c], rfl, rfl⟩
    · intro d hd
      obtain ⟨gs, hg, rfl⟩ := h.ar0 d hd
      refine ⟨gs, fun q hq => ?_, rfl⟩
      obtain ⟨gs', hg', rfl⟩ := hg q hq
      refine poly2_false.mpr ⟨gs', fun g hm => ?_, rfl⟩
      obtain ⟨pre, post, terms, h1, h2, h3, rfl⟩ := hg' g hm
      refine group2_false.mpr ⟨pre, post, terms, h1, h2, fun t ht => ?_, rfl⟩
      obtain ⟨i, j, c, -, rfl⟩ := h3 t ht
      exact (badTerm_iff 3 _).mpr ⟨i, [.int j, c], rfl, rfl⟩
  simp [mpTest, hi, bind, Except.bind]

/-- A polynomial whose terms are lists of `n` elements starting with an exponent; of the rest of a term nothing is said. -/
def Roughly (n : Nat) (isExponent : Doc → Prop) (d : Doc) : Prop :=
  ∃ gs, (∀ g ∈ gs, ∃ pre post terms, isExponent pre ∧ isExponent post ∧
    (∀ t ∈ terms, ∃ (i : Nat) (l : List Doc), (Doc.int i :: l).length = n ∧ t = .list (.int i :: l)) ∧
      g = .list (pre :: post :: terms)) ∧ d = .list gs

/-- C109, rejection (partial: positive scales, exponents of the second variable and the saturation groups are not
checked; see the disagreements).  Data that pass the integrity checks have both scales in both groups, a scalar
`logt`, polynomials of the documented shape up to the elements after the first exponent of a term, and tables of the
documented widths. -/
theorem C109_passed_partial (ao ar : Obj) (sat rest : Except Err Unit) (trials : List Trial)
    (h : mpTest ao ar true sat trials rest = .ok true) :
    (∀ g ∈ [ao, ar], ∀ k ∈ ["Tscale", "dscale"], ∃ d, g.lookup k = some d) ∧
    (∀ d, ao.lookup "logt" = some d → IsScalar d) ∧
    (∀ d, ao.lookup "coef0" = some d → Roughly 2 IsScalar d) ∧
    (∀ d, ao.lookup "coef1" = some d → IsTable 2 d) ∧
    (∀ d, ar.lookup "coef0" = some d → ∃ ps, (∀ p ∈ ps, Roughly 3 IsPair p) ∧ d = .list ps) ∧
    (∀ d, ar.lookup "coef1" = some d → IsTable 7 d) ∧
    ∀ d, ar.lookup "coef2" = some d → IsTable 8 d := by
  have hi : integrity0 ao ar = .ok true := by
    unfold mpTest at h
    cases hr : integrity0 ao ar with
    | error e => simp [hr, bind, Except.bind] at h
    | ok b => simpa [hr, bind, Except.bind] using h
  rw [integrity_true, scales_ok, scales_ok, logtOk_true, aoCoef0_true, aoCoef1_true, arCoef0_true, arTable_true,
      arTable_true] at hi
  obtain ⟨⟨-, a1, a2⟩, a3, a4, a5, ⟨-, b1, b2⟩, b3, b4, b5⟩ := hi
  refine ⟨by simp [a1, a2, b1, b2], a3, ?_, a5, ?_, b4, b5⟩
  · intro d hd
    obtain ⟨gs, hg, rfl⟩ := poly1_false.mp (a4 d hd)
    refine ⟨gs, fun g hm => ?_, rfl⟩
    obtain ⟨pre, post, terms, h1, h2, h3, rfl⟩ := group1_false.mp (hg g hm)
    exact ⟨pre, post, terms, h1, h2, fun t ht => (badTerm_iff 2 t).mp (h3 t ht), rfl⟩
  · intro d hd
    obtain ⟨ps, hp, rfl⟩ := b3 d hd
    refine ⟨ps, fun p hm => ?_, rfl⟩
    obtain ⟨gs, hg, rfl⟩ := poly2_false.mp (hp p hm)
    refine ⟨gs, fun g hm => ?_, rfl⟩
    obtain ⟨pre, post, terms, h1, h2, h3, rfl⟩ := group2_false.mp (hg g hm)
    exact ⟨pre, post, terms, h1, h2, fun t ht => (badTerm_iff 3 t).mp (h3 t ht), rfl⟩

/-- A pair of groups as documented. -/
noncomputable def goodAo : Obj := [("Tscale", .int 300), ("dscale", .num 1.5), ("logt", .num 2.5),
  ("coef0", .list [.list [.int 1, .int 0, .list [.int 2, .num 0.5]]]), ("coef1", .list [.list [.num 1, .num 3]])]

/-- A pair of groups as documented. -/
noncomputable def goodAr : Obj := [("Tscale", .int 300), ("dscale", .num 1.5),
  ("coef0", .list [.list [.list [.list [.int 1, .int 0], .list [.int 0, .int 0], .list [.int 2, .int 1, .num 0.5]]]])]

theorem good : Documented goodAo goodAr where
  aoT := ⟨.int 300, rfl, Or.inl ⟨300, by norm_num, rfl⟩⟩
  aod := ⟨.num 1.5, rfl, Or.inr ⟨1.5, by norm_num, rfl⟩⟩
  logt := by
    intro d hd
    rw [show goodAo.lookup "logt" = some (.num 2.5) from rfl] at hd
    cases hd; exact Or.inr ⟨_, rfl⟩
  ao0 := by
    intro d hd
    rw [show goodAo.lookup "coef0" = some (.list [.list [.int 1, .int 0, .list [.int 2, .num 0.5]]]) from rfl] at hd
    cases hd
    refine ⟨_, fun g hg => ?_, rfl⟩
    simp only [List.mem_singleton] at hg
    refine ⟨_, _, _, Or.inl ⟨1, rfl⟩, Or.inl ⟨0, rfl⟩, fun t ht => ?_, hg⟩
    simp only [List.mem_singleton] at ht
    exact ⟨2, .num 0.5, Or.inr ⟨_, rfl⟩, ht⟩
  ao1 := by
    intro d hd
    rw [show goodAo.lookup "coef1" = some (.list [.list [.num 1, .num 3]]) from rfl] at hd
    cases hd
    refine ⟨_, fun g hg => ?_, rfl⟩
    simp only [List.mem_singleton] at hg
    exact ⟨_, rfl, hg⟩
  arT := ⟨_, rfl⟩
  ard := ⟨_, rfl⟩
  ar0 := by
    intro d hd
    rw [show goodAr.lookup "coef0" = some (.list [.list [.list [.list [.int 1, .int 0], .list [.int 0, .int 0],
      .list [.int 2, .int 1, .num 0.5]]]]) from rfl] at hd
    cases hd
    refine ⟨_, fun p hp => ?_, rfl⟩
    simp only [List.mem_singleton] at hp
    refine ⟨_, fun g hg => ?_, hp⟩
    simp only [List.mem_singleton] at hg
    refine ⟨_, _, _, ⟨.int 1, .int 0, Or.inl ⟨1, rfl⟩, Or.inl ⟨0, rfl⟩, rfl⟩, ⟨.int 0, .int 0, Or.inl ⟨0, rfl⟩, Or.inl ⟨0, rfl⟩, rfl⟩,
      fun t ht => ?_, hg⟩
    simp only [List.mem_singleton] at ht
    exact ⟨2, 1, .num 0.5, Or.inr ⟨_, rfl⟩, ht⟩
  ar1 := fun d hd => by rw [show goodAr.lookup "coef1" = none from rfl] at hd; cases hd
  ar2 := fun d hd => by rw [show goodAr.lookup "coef2" = none from rfl] at hd; cases hd

/-- **C109 disagreement.** A negative scale, a term with a negative exponent of the second variable, and text in place of
a coefficient pass the integrity checks, and a missing scale is an error instead of a verdict (`mp1.py:389-404`,
`384`). -/
theorem C109_unchecked_defect (sat rest : Except Err Unit) (trials : List Trial) :
    mpTest [("Tscale", .int (-300)), ("dscale", .other)] [("Tscale", .int 0), ("dscale", .int 0)] true sat trials rest
      = .ok true ∧
    mpTest goodAo [("Tscale", .int 300), ("dscale", .int 1), ("coef0", .list [.list [.list [.list [.int 1, .int 0],
      .list [.int 0, .int 0], .list [.int 2, .int (-1), .other]]]])] true sat trials rest = .ok true ∧
    mpTest [("dscale", .int 1)] goodAr true sat trials rest = .error .key := by
  have ha : scales goodAo = .ok true ∧ logtOk goodAo = true ∧ aoCoef0 goodAo = .ok true ∧ aoCoef1 goodAo = true := by
    have := C109_accepts goodAo goodAr good (.ok ()) (.ok ()) []
    have hi : integrity0 goodAo goodAr = .ok true := by
      cases hr : integrity0 goodAo goodAr with
      | error e => simp [mpTest, hr, bind, Except.bind] at this
      | ok b => simpa [mpTest, hr, bind, Except.bind] using this
    rw [integrity_true] at hi
    exact ⟨hi.1, hi.2.1, hi.2.2.1, hi.2.2.2.1⟩
  refine ⟨rfl, ?_, rfl⟩
  have hi : integrity0 goodAo [("Tscale", .int 300), ("dscale", .int 1), ("coef0", .list [.list [.list [.list [.int 1, .int 0],
      .list [.int 0, .int 0], .list [.int 2, .int (-1), .other]]]])] = .ok true :=
    integrity_true.mpr ⟨ha.1, ha.2.1, ha.2.2.1, ha.2.2.2, rfl, rfl, rfl, rfl⟩
  simp [mpTest, hi, bind, Except.bind]

theorem trials_true (trials : List Trial) (b : Bool) (h : trials.foldlM trial true = .ok b) : b = true := by
  induction trials with
  | nil => simp [pure, Except.pure] at h; exact h.symm ▸ rfl
  | cons t ts ih =>
    rw [List.foldlM_cons] at h
    cases hp : proptest true 0.0001 t.test t.truth with
    | error e => simp [trial, hp, bind, Except.bind] at h
    | ok q => exact ih (by simpa [trial, hp, bind, Except.bind] using h)

/-- **C109 disagreement.** The tables have no bearing on the verdict: data that pass the integrity checks pass the whole
test whenever it comes to an end, even if no saturation property agrees with the table, since each comparison
is joined by `or` (`mp1.py:540-554`); and data that fail the integrity checks pass as soon as one comparison agrees. -/
theorem C109_tables_ignored_defect (ao ar : Obj) (sat rest : Except Err Unit) (trials : List Trial) (b : Bool)
    (h : mpTest ao ar false sat trials rest = .ok b) :
    (mpTest ao ar true sat trials rest = .ok true → b = true) ∧
    ((∃ t ∈ trials, proptest true 0.0001 t.test t.truth = .ok true) → b = true) := by
  unfold mpTest at h ⊢
  cases hr : integrity0 ao ar with
  | error e => simp [hr, bind, Except.bind] at h
  | ok r =>
    cases sat with
    | error e => simp [hr, bind, Except.bind] at h
    | ok u =>
      cases hf : trials.foldlM trial r with
      | error e => simp [hr, hf, bind, Except.bind] at h
      | ok r' =>
        cases rest with
        | error e => simp [hr, hf, bind, Except.bind] at h
        | ok u' =>
          simp only [hr, hf, bind, Except.bind, Bool.false_eq_true, if_false, if_true, Except.ok.injEq] at h ⊢
          subst h
          refine ⟨fun hr1 => ?_, ?_⟩
          · subst hr1
            exact trials_true _ _ hf
          · clear hr
            rintro ⟨t, ht, hp⟩
            induction trials generalizing r with
            | nil => simp at ht
            | cons t' ts ih =>
              rw [List.foldlM_cons] at hf
              rcases List.mem_cons.mp ht with rfl | ht
              · simp only [trial, hp, bind, Except.bind, Bool.true_or] at hf
                exact trials_true _ _ hf
              · cases hq : trial r t' with
                | error e => simp [hq, bind, Except.bind] at hf
                | ok q => exact ih q (by simpa [hq, bind, Except.bind] using hf) ht

/-- A case: the data are as documented, the only comparison is of 1 with 2, and the test is passed. -/
example : proptest true 0.0001 (.ok [some 1]) [some 2] = .ok false ∧
    mpTest goodAo goodAr false (.ok ()) [⟨.ok [some 1], [some 2]⟩] (.ok ()) = .ok true := by
  have h1 : proptest true 0.0001 (.ok [some 1]) [some 2] = .ok false := by
    norm_num [proptest, off, bind, Except.bind]
  refine ⟨h1, ?_⟩
  have ht := C109_accepts goodAo goodAr good (.ok ()) (.ok ()) []
  have hi : integrity0 goodAo goodAr = .ok true := by
    cases hr : integrity0 goodAo goodAr with
    | error e => simp [mpTest, hr, bind, Except.bind] at ht
    | ok b => simpa [mpTest, hr, bind, Except.bind] using ht
  simp [mpTest, hi, trial, h1, bind, Except.bind, pure, Except.pure]

/-- C109, a comparison.  For results and truth values that are numbers, no truth value zero, the comparison succeeds exactly
when every result is within the given fraction of its truth value, or within the given distance when fractions are
not asked for. -/
theorem C109_comparison (percent : Bool) (ep : ℝ) (xs : List (ℝ × ℝ)) (h0 : ∀ q ∈ xs, q.2 ≠ 0) :
    proptest percent ep (.ok (xs.map fun q => some q.1)) (xs.map fun q => some q.2) =
      .ok (decide (∀ q ∈ xs, |q.1 - q.2| ≤ if percent then ep * |q.2| else ep)) := by
  classical
  simp only [proptest, bind, Except.bind, Except.ok.injEq]
  rw [Bool.eq_iff_iff]
  simp only [Bool.not_eq_true', decide_eq_true_eq, List.zip_map', List.any_map, List.any_eq_false, Function.comp]
  refine forall_congr' fun q => forall_congr' fun hq => ?_
  cases percent with
  | false => simp [off]
  | true =>
    have hne := h0 q hq
    simp only [off, hne, if_true, if_false, decide_eq_true_eq, gt_iff_lt, not_lt, abs_div]
    rw [div_le_iff₀ (abs_pos.mpr hne)]

/-- **C109 disagreement.** A result that is not a number counts as agreeing with any truth value (`utility.py:817`). -/
theorem C109_nan_agrees_defect (percent : Bool) (ep : ℝ) (ys : List Nan) :
    proptest percent ep (.ok (ys.map fun _ => none)) ys = .ok true := by
  simp only [proptest, bind, Except.bind, Except.ok.injEq, Bool.not_eq_true']
  rw [List.any_eq_false]
  intro q hq
  have : q.1 = none := by
    have := (List.of_mem_zip hq).1
    simp only [List.mem_map] at this
    obtain ⟨_, _, h⟩ := this
    exact h.symm
  simp [off, this]

example : proptest true 0.01 (.ok [some 100, some 200]) [some 100.5, some 201] = .ok true := by
  classical
  have := C109_comparison true 0.01 [(100, 100.5), (200, 201)] (by norm_num)
  simp only [List.map_cons, List.map_nil] at this
  rw [this]
  congr 1
  norm_num [abs_le]

end PyroMat.Mp.Props
