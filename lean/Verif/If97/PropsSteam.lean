import Verif.If97.PropsCalls

/-!
# Steam: the values of the calls (C66, C67, C68)
-/

set_option linter.unusedSimpArgs false

namespace PyroMat.If97.Props

open PyroMat PyroMat.Units PyroMat.Units.Props PyroMat.Gas PyroMat.Gas.Spec
open PyroMat.Units.Spec hiding kelvin
open PyroMat.Gas.Props PyroMat.Mp.Spec PyroMat.Mp.Props PyroMat.If97 PyroMat.If97.Spec

section
variable {E : Env} {S : Sys} {W : Water}

/-- The element of the result of a call for one state. -/
theorem value_at (hU : Uses E S) (hmw : W.mw ≠ 0) (q : Q) (T p : Val ℝ) {ts ps : List ℝ}
    (hb : broadcast (Val.elems T) (Val.elems p) = .ok (ts, ps)) (hne : ts ≠ []) {out : List Nan}
    (h : method E W q (some T) (some p) none = .ok out) {i : Nat} {t x : ℝ} (ht : ts[i]? = some t)
    (hx : ps[i]? = some x) :
    ∃ v, single W q (kelvin S t) (bar E.a S x) = .ok v ∧ out[i]? = some (some (v * factor E S W q)) := by
  rw [states_eq hU hmw q T p hb hne] at h
  cases hm : (ts.zip ps).mapM (fun a => (single W q (kelvin S a.1) (bar E.a S a.2)).map some) with
  | error e => rw [hm] at h; cases h
  | ok r =>
    rw [hm] at h
    cases h
    have hz : (ts.zip ps)[i]? = some (t, x) := by
      rw [List.getElem?_zip_eq_some]; exact ⟨ht, hx⟩
    have hf := mapM_ok hm
    obtain ⟨hi, hget⟩ := List.getElem?_eq_some_iff.mp hz
    have hi' : i < r.length := by rw [← hf.length_eq]; exact hi
    have h2 := hf.get (i := i) hi hi'
    simp only [List.get_eq_getElem, hget] at h2
    cases hs : single W q (kelvin S t) (bar E.a S x) with
    | error e => rw [hs] at h2; cases h2
    | ok v =>
      rw [hs] at h2
      simp only [Except.map, Except.ok.injEq] at h2
      refine ⟨v, rfl, ?_⟩
      simp [scaleBy, List.getElem?_eq_getElem hi', ← h2]

theorem factor_shown (hU : Uses E S) {q : Q} (hq : q ≠ .s ∨ size temperature S.T.name = 1.8) (v : ℝ) :
    v * factor E S W q = shown E.a S W.mw q v := by
  unfold factor
  split_ifs with h
  · subst h
    rcases hq with hq | hq
    · exact absurd rfl hq
    · rw [hq, div_self (by norm_num), one_pow, mul_one]; exact shown_mul hU _ _ _
  · exact shown_mul hU _ _ _

/-- **C66.** In regions 1, 2 and 5 every value is that of the Gibbs energy of the region, in the
caller's units: enthalpy, density, internal energy and the heat capacities in any units (entropy below). -/
theorem C66_gibbs (hU : Uses E S) (hd : GoodData W) (hmw : W.mw ≠ 0) (hR : W.R ≠ 0) {q : Q} (hq : q ≠ .s)
    (T p : Val ℝ) {ts ps : List ℝ} (hb : broadcast (Val.elems T) (Val.elems p) = .ok (ts, ps))
    (hne : ts ≠ []) {out : List Nan} (h : method E W q (some T) (some p) none = .ok out)
    {i : Nat} {t x : ℝ} (ht : ts[i]? = some t) (hx : ps[i]? = some x)
    {r : Nat} (hr3 : r ≠ 3) (hin : InRegion W r (kelvin S t) (bar E.a S x)) (hT0 : kelvin S t ≠ 0)
    (hp0 : bar E.a S x ≠ 0) (hreg : RegularAt W r (kelvin S t) (bar E.a S x)) :
    ∃ v, out[i]? = some (some (shown E.a S W.mw q v)) ∧ Derives W r q (kelvin S t) (bar E.a S x) v := by
  obtain ⟨v, h1, h2⟩ := value_at hU hmw q T p hb hne h ht hx
  obtain ⟨v', h3, h4⟩ := single_derives hd q hr3 hR hT0 hp0 hreg hin
  rw [h1] at h3; cases h3
  exact ⟨v, by rw [h2, factor_shown hU (Or.inl hq)], h4⟩

/-- **C66**, entropy: the same where the temperature unit is the size of a kelvin.  Missing: the other
temperature units, where it is false (`C66_entropy_defect`). -/
theorem C66_entropy_partial (hU : Uses E S) (hd : GoodData W) (hmw : W.mw ≠ 0) (hR : W.R ≠ 0)
    (hS : S.T = .K ∨ S.T = .C)
    (T p : Val ℝ) {ts ps : List ℝ} (hb : broadcast (Val.elems T) (Val.elems p) = .ok (ts, ps))
    (hne : ts ≠ []) {out : List Nan} (h : method E W .s (some T) (some p) none = .ok out)
    {i : Nat} {t x : ℝ} (ht : ts[i]? = some t) (hx : ps[i]? = some x)
    {r : Nat} (hr3 : r ≠ 3) (hin : InRegion W r (kelvin S t) (bar E.a S x)) (hT0 : kelvin S t ≠ 0)
    (hp0 : bar E.a S x ≠ 0) (hreg : RegularAt W r (kelvin S t) (bar E.a S x)) :
    ∃ v, out[i]? = some (some (shown E.a S W.mw .s v)) ∧ Derives W r .s (kelvin S t) (bar E.a S x) v := by
  obtain ⟨v, h1, h2⟩ := value_at hU hmw .s T p hb hne h ht hx
  obtain ⟨v', h3, h4⟩ := single_derives hd .s hr3 hR hT0 hp0 hreg hin
  rw [h1] at h3; cases h3
  refine ⟨v, ?_, h4⟩
  rw [h2, factor_shown hU (Or.inr ?_)]
  rcases hS with h | h <;> rw [h] <;> rfl

/-- **C66 disagreement.** With temperatures in degrees Fahrenheit or Rankine the entropy is 3.24 times the
value of the Gibbs energy: the conversion multiplies by the ratio of the temperature units where it has
to divide. -/
theorem C66_entropy_defect (hU : Uses E S) (hd : GoodData W) (hmw : W.mw ≠ 0) (hR : W.R ≠ 0)
    (hS : S.T = .F ∨ S.T = .R)
    (T p : Val ℝ) {ts ps : List ℝ} (hb : broadcast (Val.elems T) (Val.elems p) = .ok (ts, ps))
    (hne : ts ≠ []) {out : List Nan} (h : method E W .s (some T) (some p) none = .ok out)
    {i : Nat} {t x : ℝ} (ht : ts[i]? = some t) (hx : ps[i]? = some x)
    {r : Nat} (hr3 : r ≠ 3) (hin : InRegion W r (kelvin S t) (bar E.a S x)) (hT0 : kelvin S t ≠ 0)
    (hp0 : bar E.a S x ≠ 0) (hreg : RegularAt W r (kelvin S t) (bar E.a S x)) :
    ∃ v, out[i]? = some (some (3.24 * shown E.a S W.mw .s v)) ∧
      Derives W r .s (kelvin S t) (bar E.a S x) v := by
  obtain ⟨v, h1, h2⟩ := value_at hU hmw .s T p hb hne h ht hx
  obtain ⟨v', h3, h4⟩ := single_derives hd .s hr3 hR hT0 hp0 hreg hin
  rw [h1] at h3; cases h3
  refine ⟨v, ?_, h4⟩
  rw [h2, factor, if_pos rfl, ← shown_mul hU _ _ v]
  have : size temperature S.T.name = 1 := by rcases hS with h | h <;> rw [h] <;> rfl
  rw [this]
  congr 2
  ring

/-- **C67.** In region 3 the values are those of the Helmholtz energy at a density the bisection found.
If the pressure lies between those at 0.1 and 2.4 times the critical density, there is a density whose
pressure is exactly the one given, and the one used is within 2.3/2^14 critical densities of it. -/
theorem C67_region3 (hU : Uses E S) (hW : Good3 W) (hTc : 0 < W.Tc) (hmw : W.mw ≠ 0)
    {t x : ℝ} (hin : InRegion W 3 (kelvin S t) (bar E.a S x)) {pa pb : ℝ}
    (ha : PressureAt W (kelvin S t) (W.dc * 0.1) pa) (hb' : PressureAt W (kelvin S t) (W.dc * 2.4) pb)
    (h1 : pa ≤ bar E.a S x) (h2 : bar E.a S x ≤ pb) :
    ∃ d ds, PressureAt W (kelvin S t) ds (bar E.a S x) ∧ |d - ds| ≤ W.dc * 2.3 / 2 ^ 14 ∧
      W.dc * 0.1 ≤ ds ∧ ds ≤ W.dc * 2.4 ∧ W.dc * 0.1 ≤ d ∧ d ≤ W.dc * 2.4 ∧
      ∀ (q : Q), (q ≠ .s ∨ size temperature S.T.name = 1.8) →
        ∀ (T p : Val ℝ) (ts ps : List ℝ), broadcast (Val.elems T) (Val.elems p) = .ok (ts, ps) → ts ≠ [] →
        ∀ (out : List Nan), method E W q (some T) (some p) none = .ok out →
        ∀ (i : Nat), ts[i]? = some t → ps[i]? = some x →
        ∃ j, Is2 (helmholtz W) (kelvin S t) d j ∧
          out[i]? = some (some (shown E.a S W.mw q (fromHelm q (kelvin S t) d j))) := by
  have hT : 0 < kelvin S t := lt_trans (by norm_num) hin.1
  obtain ⟨d, ds, g1, g2, g3, g4, g5, g6, g7⟩ := region3 hW hT hTc ha hb' h1 h2
  refine ⟨d, ds, g2, g3, g4, g5, g6, g7, ?_⟩
  intro q hq T p ts ps hb hne out h i ht hx
  obtain ⟨v, e1, e2⟩ := value_at hU hmw q T p hb hne h ht hx
  obtain ⟨f, j, f1, f2, f3⟩ := g1 q
  refine ⟨j, f2, ?_⟩
  rw [e2, factor_shown hU hq]
  unfold single at e1
  rw [(C60_regions W _ _ 3).mpr hin, f1] at e1
  cases e1
  rw [f3]

/-! ## C68: quality -/

/-- The value at a quality: mass fractions of the two saturated phases; for the density, of their
specific volumes. -/
def Lever (q : Q) (x v vL vV : ℝ) : Prop :=
  match q with
  | .d => 1 / v = (1 - x) * (1 / vL) + x * (1 / vV)
  | _ => v = (1 - x) * vL + x * vV

theorem mixed_lever (hd : GoodData W) (q : Q) {T p x : ℝ} (hR : W.R ≠ 0) (hT : T ≠ 0) (hp : p ≠ 0)
    (h1 : RegularAt W 1 T p) (h2 : RegularAt W 2 T p) :
    ∃ v vL vV, mixed W q T p x = .ok v ∧ Derives W 1 q T p vL ∧ Derives W 2 q T p vV ∧ Lever q x v vL vV := by
  obtain ⟨g, e1, e2, -⟩ := derives1 hd.r1 q hR hT hp h1
  obtain ⟨k, f1, f2, -⟩ := derives2 hd q hR hT hp h2
  refine ⟨_, _, _, by unfold mixed; rw [e1, exOk, f1]; rfl, e2, f2, ?_⟩
  cases q <;> simp only [Lever, Q.mix, Q.sat, Q.gibbs, one_div, inv_inv, inv_div] <;> ring

theorem nditer_Tx {T x ts xs : List ℝ} (d : ℝ) (h : broadcast T x = .ok (ts, xs)) (hne : ts ≠ []) :
    nditer3 T [d] x = .ok ((ts.zip xs).map (fun a => (a.1, d, a.2))) := by
  have hz : ∀ (a b : List ℝ), a.length = b.length →
      List.zipWith (fun (a : ℝ × ℝ) x => (a.1, a.2, x)) (a.zip (List.replicate a.length d)) b =
        (a.zip b).map (fun a => (a.1, d, a.2)) := by
    intro a
    induction a with
    | nil => intro b _; rfl
    | cons t a ih =>
      intro b hb
      cases b with
      | nil => rfl
      | cons y b => simp [List.replicate_succ, ih b (by simpa using hb)]
  have hT : T ≠ [] := by
    rintro rfl
    unfold broadcast at h
    split_ifs at h with he
    · cases h; exact hne rfl
    · match x with
      | [y] => simp at h; exact hne h.1
      | [] => simp at he
      | y :: z :: l => simp at h
  have e1 : broadcast T [d] = .ok (T, List.replicate T.length d) := by
    unfold broadcast
    match T, hT with
    | [a], _ => simp
    | a :: b :: l, _ => simp
  unfold nditer3
  rw [e1]
  show (broadcast (T.zip (List.replicate T.length d)) x >>= _) = _
  have hl : (T.zip (List.replicate T.length d)).length = T.length := by simp
  unfold broadcast at h ⊢
  rw [hl]
  split_ifs at h ⊢ with he
  · cases h
    show (if T.zip (List.replicate T.length d) = [] then _ else _) = _
    rw [if_neg (by intro h; rw [h] at hl; exact hT (List.length_eq_zero_iff.mp hl.symm)), hz T x he]
  · match T, x, hT with
    | [a], x, _ =>
      simp only [Except.ok.injEq, Prod.mk.injEq] at h
      obtain ⟨h1, h2⟩ := h
      subst h2
      subst h1
      have hx : x ≠ [] := by rintro rfl; simp at hne
      show ((Except.ok (List.replicate x.length (a, d), x) : Except Err _) >>= _) = _
      show (if List.replicate x.length (a, d) = [] then _ else _) = _
      rw [if_neg (by simpa using hx)]
      congr 1
      clear he hne e1 hl
      induction x with
      | nil => exact absurd rfl hx
      | cons y x ih =>
        cases x with
        | nil => simp
        | cons z x =>
          have := ih (by simp)
          simp only [List.length_cons, List.replicate_succ, List.zipWith_cons_cons, List.zip_cons_cons,
            List.map_cons] at this ⊢
          simp [this]
    | a :: b :: l, [y], _ =>
      simp only at h
      cases h
      show (if (a :: b :: l).zip (List.replicate (a :: b :: l).length d) = [] then
        (Except.error Err.value : Except Err (List (ℝ × ℝ × ℝ))) else Except.ok (List.zipWith
          (fun (a : ℝ × ℝ) x => (a.1, a.2, x)) ((a :: b :: l).zip (List.replicate (a :: b :: l).length d))
          (List.replicate (a :: b :: l).length y))) = _
      rw [if_neg (by simp [List.replicate_succ])]
      have := hz (a :: b :: l) (List.replicate (a :: b :: l).length y) (by simp)
      rw [this]
    | a :: b :: l, [], _ => simp at h
    | a :: b :: l, y :: z :: x, _ => simp at h

/-- **C68.** A call with temperature and quality gives, for each state of saturation pressure `P`, the
mixture by mass of the two saturated phases at `P`, whose values are those of the Gibbs energies of
regions 1 and 2. -/
theorem C68_lever (hU : Uses E S) (hd : GoodData W) (hmw : W.mw ≠ 0) (hR : W.R ≠ 0) {q : Q}
    (hq : q ≠ .s ∨ S.T = .K ∨ S.T = .C)
    (T x : Val ℝ) {ts xs : List ℝ} (hb : broadcast (Val.elems T) (Val.elems x) = .ok (ts, xs))
    (hne : ts ≠ []) {out : List Nan} (h : method E W q (some T) none (some x) = .ok out)
    {i : Nat} {t y P : ℝ} (ht : ts[i]? = some t) (hy : xs[i]? = some y) (hy0 : 0 ≤ y)
    (hP : ps W (kelvin S t) = some P) (hT0 : kelvin S t ≠ 0) (hP0 : P ≠ 0)
    (h1 : RegularAt W 1 (kelvin S t) P) (h2 : RegularAt W 2 (kelvin S t) P) :
    ∃ v vL vV, out[i]? = some (some (shown E.a S W.mw q v)) ∧ Derives W 1 q (kelvin S t) P vL ∧
      Derives W 2 q (kelvin S t) P vV ∧ Lever q y v vL vV := by
  rw [method_eq hU hmw q (some T) none (some x) (nditer_Tx _ hb hne)] at h
  obtain ⟨v, vL, vV, e1, e2, e3, e4⟩ := mixed_lever hd q (x := y) hR hT0 hP0 h1 h2
  refine ⟨v, vL, vV, ?_, e2, e3, e4⟩
  generalize hl : (ts.zip xs).map (fun a => (a.1, E.c.defp, a.2)) = l at h
  have hz : l[i]? = some (t, E.c.defp, y) := by
    rw [← hl, List.getElem?_map, List.getElem?_zip_eq_some (z := (t, y)) |>.mpr ⟨ht, hy⟩]; rfl
  cases hm : l.mapM (fun a => element W q (some T).isNone (none : Option (Val ℝ)).isNone
      (kelvin S a.1) (bar E.a S a.2.1) a.2.2) with
  | error e => rw [hm] at h; cases h
  | ok r =>
    rw [hm] at h
    cases h
    have hf := mapM_ok hm
    obtain ⟨hi, hget⟩ := List.getElem?_eq_some_iff.mp hz
    have hi' : i < r.length := by rw [← hf.length_eq]; exact hi
    have h3 := hf.get (i := i) hi hi'
    simp only [List.get_eq_getElem, hget, element, if_neg (not_lt.mpr hy0), Option.isNone_some,
      Option.isNone_none, hP, e1] at h3
    simp [Except.map] at h3
    have hk : size temperature S.T.name = 1.8 ∨ q ≠ .s := by
      rcases hq with h | h | h
      · exact Or.inr h
      · rw [h]; exact Or.inl rfl
      · rw [h]; exact Or.inl rfl
    simp [scaleBy, List.getElem?_eq_getElem hi', ← h3, factor_shown hU hk.symm]

/-! ## C68: `hsd` -/

theorem broadcast_mem {α β : Type} {xs : List α} {ys : List β} {as : List α} {bs : List β}
    (h : broadcast xs ys = .ok (as, bs)) : (∀ a ∈ as, a ∈ xs) ∧ (∀ b ∈ bs, b ∈ ys) := by
  unfold broadcast at h
  split_ifs at h with he
  · cases h; exact ⟨fun _ h => h, fun _ h => h⟩
  · split at h
    · cases h
      exact ⟨fun a ha => by rw [(List.mem_replicate.mp ha).2]; exact List.mem_cons_self, fun _ h => h⟩
    · cases h
      exact ⟨fun _ h => h, fun a ha => by rw [(List.mem_replicate.mp ha).2]; exact List.mem_cons_self⟩
    · cases h

theorem mem_zipWith3 {l : List (ℝ × ℝ)} {x : List ℝ} {a : ℝ × ℝ × ℝ}
    (h : a ∈ List.zipWith (fun (a : ℝ × ℝ) x => (a.1, a.2, x)) l x) : (a.1, a.2.1) ∈ l ∧ a.2.2 ∈ x := by
  induction l generalizing x with
  | nil => cases h
  | cons b l ih =>
    cases x with
    | nil => cases h
    | cons y x =>
      rw [List.zipWith_cons_cons, List.mem_cons] at h
      rcases h with rfl | h
      · exact ⟨List.mem_cons_self, List.mem_cons_self⟩
      · exact ⟨List.mem_cons_of_mem _ (ih h).1, List.mem_cons_of_mem _ (ih h).2⟩

theorem nditer_mem {T p x : List ℝ} {it : List (ℝ × ℝ × ℝ)} (h : nditer3 T p x = .ok it) :
    ∀ a ∈ it, a.1 ∈ T ∧ a.2.1 ∈ p ∧ a.2.2 ∈ x := by
  unfold nditer3 at h
  cases h1 : broadcast T p with
  | error e => rw [h1] at h; cases h
  | ok r =>
    obtain ⟨T1, p1⟩ := r
    rw [h1, exOk] at h
    dsimp only at h
    cases h2 : broadcast (T1.zip p1) x with
    | error e => rw [h2] at h; cases h
    | ok r =>
      obtain ⟨tp, x1⟩ := r
      rw [h2, exOk] at h
      dsimp only at h
      split_ifs at h
      cases h
      intro a ha
      obtain ⟨m1, m2⟩ := mem_zipWith3 ha
      have m3 := (broadcast_mem h2).1 _ m1
      have m4 := List.of_mem_zip m3
      exact ⟨(broadcast_mem h1).1 _ m4.1, (broadcast_mem h1).2 _ m4.2, (broadcast_mem h2).2 _ m2⟩

theorem element_flag (W : Water) (q : Q) (defT f g : Bool) (T p x : ℝ)
    (h : x < 0 ∨ defT = true ∨ f = g) : element W q defT f T p x = element W q defT g T p x := by
  unfold element
  rcases h with h | h | h
  · rw [if_pos h, if_pos h]
  · subst h; rfl
  · rw [h]

theorem hsd_eq (hU : Uses E S) (hmw : W.mw ≠ 0) (T p x : Option (Val ℝ)) {it : List (ℝ × ℝ × ℝ)}
    (hit : nditer3 (orDefault E.c.defT T) (orDefault E.c.defp p) (orDefault (-1) x) = .ok it) :
    mHsd E W T p x =
      (it.mapM (fun a => hsdElement W T.isNone (kelvin S a.1) (bar E.a S a.2.1) a.2.2)).map
        (fun r : List (Nan × Nan × Nan) => (scaleBy (factor E S W .h) (r.map (·.1)),
          scaleBy (factor E S W .s) (r.map (·.2.1)), scaleBy (factor E S W .d) (r.map (·.2.2)))) := by
  unfold mHsd
  rw [toBar_eq hU, exOk, hit, exOk]
  have hb : ∀ p, p * bar E.a S 1 = bar E.a S p := fun p => by simp only [bar]; ring
  simp only [toK_eq hU, exOk, hb, scale_factor hU hmw]
  cases (it.mapM (fun a => hsdElement W T.isNone (kelvin S a.1) (bar E.a S a.2.1) a.2.2)) with
  | error e => rfl
  | ok r => rfl

theorem mapM_triple {α β : Type} (f g k : α → Except Err β) (l : List α) (a b c : List β) :
    l.mapM (fun x => do
      let h ← f x
      let s ← g x
      let d ← k x
      .ok (h, s, d)) = .ok (a.zip (b.zip c)) ∧ a.length = l.length ∧ b.length = l.length ∧
        c.length = l.length ↔
    l.mapM f = .ok a ∧ l.mapM g = .ok b ∧ l.mapM k = .ok c := by
  induction l generalizing a b c with
  | nil =>
    constructor
    · rintro ⟨-, ha, hb, hc⟩
      rw [List.length_nil, List.length_eq_zero_iff] at ha hb hc
      subst ha; subst hb; subst hc
      exact ⟨rfl, rfl, rfl⟩
    · rintro ⟨ha, hb, hc⟩
      cases ha; cases hb; cases hc
      exact ⟨rfl, rfl, rfl, rfl⟩
  | cons x l ih =>
    simp only [List.mapM_cons]
    cases hf : f x with
    | error e => simp [exErr]
    | ok u =>
      cases hg : g x with
      | error e => simp [exErr, exOk]
      | ok v =>
        cases hk : k x with
        | error e => simp [exErr, exOk]
        | ok w =>
          simp only [exOk]
          constructor
          · rintro ⟨h, ha, hb, hc⟩
            match a, b, c, ha, hb, hc with
            | a0 :: a, b0 :: b, c0 :: c, ha, hb, hc =>
              cases hm : l.mapM (fun x => do
                let h ← f x
                let s ← g x
                let d ← k x
                .ok (h, s, d)) with
              | error e => rw [hm, exErr] at h; cases h
              | ok r =>
                rw [hm, exOk] at h
                simp only [pure, Except.pure, List.zip_cons_cons, Except.ok.injEq, List.cons.injEq,
                  Prod.mk.injEq] at h
                obtain ⟨⟨rfl, rfl, rfl⟩, rfl⟩ := h
                obtain ⟨i1, i2, i3⟩ := (ih a b c).mp ⟨hm, by simpa using ha, by simpa using hb, by simpa using hc⟩
                rw [i1, i2, i3]
                exact ⟨rfl, rfl, rfl⟩
          · rintro ⟨h1, h2, h3⟩
            cases e1 : l.mapM f with
            | error e => rw [e1, exErr] at h1; cases h1
            | ok a' =>
              cases e2 : l.mapM g with
              | error e => rw [e2, exErr] at h2; cases h2
              | ok b' =>
                cases e3 : l.mapM k with
                | error e => rw [e3, exErr] at h3; cases h3
                | ok c' =>
                  rw [e1] at h1; rw [e2] at h2; rw [e3] at h3
                  cases h1; cases h2; cases h3
                  obtain ⟨i0, i1, i2, i3⟩ := (ih a' b' c').mpr ⟨e1, e2, e3⟩
                  rw [i0]
                  exact ⟨rfl, by simp [i1], by simp [i2], by simp [i3]⟩

theorem unzip3 {β : Type} (a b c : List β) (h1 : a.length = b.length) (h2 : b.length = c.length) :
    ((a.zip (b.zip c)).map (·.1) = a) ∧ ((a.zip (b.zip c)).map (·.2.1) = b) ∧
      ((a.zip (b.zip c)).map (·.2.2) = c) := by
  induction a generalizing b c with
  | nil =>
    match b, c, h1, h2 with
    | [], [], _, _ => exact ⟨rfl, rfl, rfl⟩
  | cons x a ih =>
    match b, c, h1, h2 with
    | y :: b, z :: c, h1, h2 =>
      obtain ⟨i1, i2, i3⟩ := ih b c (by simpa using h1) (by simpa using h2)
      simp [i1, i2, i3]

/-- **C68.** `hsd` agrees with the separate methods whenever the pressure is given and not negative, or no
quality is given, or the temperature is left out: if these return, it returns the same three arrays.
Missing: temperature and quality without pressure, where it is false (`C68_hsd_defect`). -/
theorem C68_hsd_partial (hU : Uses E S) (hmw : W.mw ≠ 0) (T p x : Option (Val ℝ))
    (hp : (∃ v, p = some v ∧ ∀ y ∈ Val.elems v, 0 ≤ y) ∨ x = none ∨ T = none)
    {h s d : List Nan} (h1 : method E W .h T p x = .ok h) (h2 : method E W .s T p x = .ok s)
    (h3 : method E W .d T p x = .ok d) : mHsd E W T p x = .ok (h, s, d) := by
  cases hit : nditer3 (orDefault E.c.defT T) (orDefault E.c.defp p) (orDefault (-1) x) with
  | error e =>
    unfold method at h1
    rw [toBar_eq hU, exOk, hit, exErr] at h1
    cases h1
  | ok it =>
    rw [method_eq hU hmw _ _ _ _ hit] at h1 h2 h3
    rw [hsd_eq hU hmw _ _ _ hit]
    have hflag : ∀ a ∈ it, ∀ q, element W q T.isNone (decide (bar E.a S a.2.1 < 0)) (kelvin S a.1)
        (bar E.a S a.2.1) a.2.2 = element W q T.isNone p.isNone (kelvin S a.1) (bar E.a S a.2.1) a.2.2 := by
      intro a ha q
      apply element_flag
      obtain ⟨m1, m2, m3⟩ := nditer_mem hit a ha
      rcases hp with ⟨v, rfl, hv⟩ | rfl | rfl
      · right; right
        have := hv _ m2
        have hn : ¬ bar E.a S a.2.1 < 0 := by
          have hps := ps_pos hU
          unfold bar
          rw [not_lt]; positivity
        simp [hn]
      · left
        simp [orDefault] at m3
        rw [m3]; norm_num
      · right; left; rfl
    have hm : it.mapM (fun a => hsdElement W T.isNone (kelvin S a.1) (bar E.a S a.2.1) a.2.2) =
      it.mapM (fun a => do
        let h ← element W .h T.isNone p.isNone (kelvin S a.1) (bar E.a S a.2.1) a.2.2
        let s ← element W .s T.isNone p.isNone (kelvin S a.1) (bar E.a S a.2.1) a.2.2
        let d ← element W .d T.isNone p.isNone (kelvin S a.1) (bar E.a S a.2.1) a.2.2
        .ok (h, s, d)) := mapM_congr (fun a ha => by simp only [hsdElement, hflag a ha])
    rw [hm]
    cases e1 : it.mapM (fun a => element W .h T.isNone p.isNone (kelvin S a.1) (bar E.a S a.2.1) a.2.2) with
    | error e => rw [e1] at h1; cases h1
    | ok a =>
      cases e2 : it.mapM (fun a => element W .s T.isNone p.isNone (kelvin S a.1) (bar E.a S a.2.1) a.2.2) with
      | error e => rw [e2] at h2; cases h2
      | ok b =>
        cases e3 : it.mapM (fun a => element W .d T.isNone p.isNone (kelvin S a.1) (bar E.a S a.2.1) a.2.2) with
        | error e => rw [e3] at h3; cases h3
        | ok c =>
          obtain ⟨i0, i1, i2, i3⟩ := (mapM_triple _ _ _ it a b c).mpr ⟨e1, e2, e3⟩
          rw [i0]
          rw [e1] at h1; rw [e2] at h2; rw [e3] at h3
          cases h1; cases h2; cases h3
          obtain ⟨u1, u2, u3⟩ := unzip3 a b c (by rw [i1, i2]) (by rw [i2, i3])
          show Except.ok _ = _
          dsimp only
          rw [u1, u2, u3]

end

/-! ## A concrete case

A fluid with an incompressible liquid, ideal vapour and the saturation line of the report. -/

noncomputable def demo : Water where
  r1 := [(0, 0, 1)]
  r2o := [(0, 0, 0)]
  r2r := [(0, 0, 0)]
  r3 := [(0, 0, 0)]
  r3ln := 1
  r5o := [(0, 0, 0)]
  r5r := [(0, 0, 0)]
  r4 := iapws
  b23 := fun _ => 0
  R := 0.461526
  mw := 18.015268
  Tc := 647.096
  pc := 220.64
  dc := 322
  Tt := 273.16
  pt := 0.00611657

theorem wf_const (c : ℝ) : WellFormed [(0, 0, c)] where
  nonempty := by simp
  sorted := by simp
  xrange := by simp
  yrange := by simp

theorem reg_const (c x y : ℝ) : Regular [(0, 0, c)] x y := ⟨Or.inr (by simp), Or.inr (by simp)⟩

theorem demo_good : GoodData demo := ⟨wf_const _, wf_const _, wf_const _, wf_const _, wf_const _, wf_const _⟩

theorem demo_kelvin (t : ℝ) : kelvin exampleSys t = t := by
  simp [kelvin, exampleSys, Scale.name, toK_K]

theorem demo_bar (p : ℝ) : bar fullEnv.a exampleSys p = p := by
  have : size (Units.pressure fullEnv.a) exampleSys.p = 1e5 := rfl
  rw [bar, this]
  norm_num

/-- `C60_range`: one state in range, one not. -/
example (q : Q) : (∃ vs : List ℝ, method fullEnv demo q (some (.arr [300, 500])) (some (.scalar 1)) none =
      .ok (vs.map some)) ∧
    method fullEnv demo q (some (.arr [300, 3000])) (some (.scalar 1)) none = .error .param := by
  constructor
  · obtain ⟨vs, h, -⟩ := (C60_range fullEnv_uses demo_good (by norm_num [demo]) q (.arr [300, 500]) (.scalar 1)
      (ts := [300, 500]) (ps := [1, 1]) rfl (by simp)).1 (by
        intro a ha
        simp only [demo_kelvin, demo_bar]
        simp at ha
        rcases ha with rfl | rfl <;> exact ⟨by norm_num, Or.inl ⟨by norm_num, by norm_num⟩⟩)
    exact ⟨vs, h⟩
  · refine (C60_range fullEnv_uses demo_good (by norm_num [demo]) q (.arr [300, 3000]) (.scalar 1)
      (ts := [300, 3000]) (ps := [1, 1]) rfl (by simp)).2 ⟨(3000, 1), by simp, ?_⟩
    simp only [demo_kelvin, demo_bar]
    rintro ⟨-, ⟨h, -⟩ | ⟨h, -⟩⟩ <;> norm_num at h

/-- `C61_Ts_ps`: the saturation pressure at 300 K. -/
example : ∃ p, mPs fullEnv demo (some (.scalar 300)) = .ok [some p] := by
  obtain ⟨out, h⟩ := (C61_range fullEnv_uses (W := demo) (.scalar 300)).1.mpr (by
    intro t ht
    simp [Val.elems] at ht
    subst ht
    rw [demo_kelvin]
    norm_num [demo])
  obtain ⟨vs, h1, h2, -⟩ := C61_Ts_ps fullEnv_uses (iapws_line (W := demo) rfl) (le_refl _) (le_refl _) _ h
  match vs, h2 with
  | [p], _ => exact ⟨p, by rw [h, h1]; rfl⟩

/-- `C66_gibbs`: region 5. -/
example : ∃ v, method fullEnv demo .h (some (.scalar 1200)) (some (.scalar 10)) none =
    .ok [some (shown fullEnv.a exampleSys demo.mw .h v)] ∧ Derives demo 5 .h 1200 10 v := by
  obtain ⟨vs, h1, h2⟩ := (C60_range fullEnv_uses demo_good (by norm_num [demo]) .h (.scalar 1200) (.scalar 10)
    (ts := [1200]) (ps := [10]) rfl (by simp)).1 (by
      intro a ha
      simp at ha
      subst ha
      simp only [demo_kelvin, demo_bar]
      exact ⟨by norm_num, Or.inr ⟨by norm_num, by norm_num⟩⟩)
  obtain ⟨v, h3, h4⟩ := C66_gibbs fullEnv_uses demo_good (by norm_num [demo]) (by norm_num [demo]) (q := .h)
    (by simp) (.scalar 1200) (.scalar 10) (ts := [1200]) (ps := [10]) rfl (by simp) h1 (i := 0) rfl rfl (r := 5)
    (by simp) (by simp only [demo_kelvin, demo_bar]; norm_num [InRegion]) (by rw [demo_kelvin]; norm_num)
    (by rw [demo_bar]; norm_num) ⟨reg_const _ _ _, reg_const _ _ _⟩
  rw [demo_kelvin, demo_bar] at h4
  refine ⟨v, ?_, h4⟩
  match vs, h2 with
  | [w], _ =>
    rw [h1]
    simp at h3
    simp [h3]

theorem demo_helm (T d : ℝ) (hd : d ≠ 0) {j : Mp.J6} (hj : Is2 (helmholtz demo) T d j) :
    j.py = 0.461526 * T / d := by
  have h1 : HasDerivAt (fun s : ℝ => helmholtz demo T s) (0.461526 * T / d) d := by
    have h2 : HasDerivAt (fun s : ℝ => Real.log (s / 322)) (1 / d) d := by
      have h3 : HasDerivAt (fun s : ℝ => s / 322) (1 / 322) d := (hasDerivAt_id d).div_const 322
      refine (h3.log (div_ne_zero hd (by norm_num))).congr_deriv ?_
      field_simp
    refine ((h2.const_mul (0.461526 * T)).congr_of_eventuallyEq (Filter.Eventually.of_forall fun s => ?_)).congr_deriv ?_
    · simp [helmholtz, demo, polyAt]
    · ring
  exact hj.dy.unique h1

/-- `C67_region3`: 700 K and 250 bar. -/
example : ∃ d ds, PressureAt demo 700 ds 250 ∧ |d - ds| ≤ 322 * 2.3 / 2 ^ 14 := by
  have hW : Good3 demo := ⟨wf_const _, by norm_num [demo], by norm_num [demo]⟩
  have hex : ∀ d : ℝ, 0 < d → PressureAt demo 700 d (d * 0.461526 * 7) := by
    intro d hd
    obtain ⟨F, -, k2, k3, -⟩ := peval_does demo.r3 hW.r3
    have hIs : Is2 (helmholtz demo) 700 d (fullJet demo.R demo.Tc demo.dc (phiJet demo F) 700 d) := by
      refine is_full (V := {a : ℝ × ℝ | 0 < a.1}) (by norm_num [demo])
        (isOpen_lt continuous_const continuous_fst)
        (fun x y hxy => phiJet_jet (ne_of_gt hxy) (k2 x y (reg_const _ _ _))) ?_ (by norm_num) ?_
      · intro T d _ h
        show demo.R * T * ((F 2 _ _).p + _) = _
        rw [k3 2 _ _ (reg_const _ _ _), helmholtz]
        ring
      · show 0 < d / demo.dc
        exact div_pos hd hW.dc
    refine ⟨_, hIs, ?_⟩
    unfold pressureOf
    rw [demo_helm 700 d hd.ne' hIs]
    field_simp
    norm_num
  have hk : kelvin exampleSys 700 = 700 := demo_kelvin 700
  have hb : bar fullEnv.a exampleSys 250 = 250 := demo_bar 250
  obtain ⟨d, ds, h1, h2, -⟩ := C67_region3 fullEnv_uses (W := demo) hW (by norm_num [demo]) (by norm_num [demo])
    (t := 700) (x := 250) (by rw [hk, hb]; norm_num [InRegion, border, demo])
    (pa := demo.dc * 0.1 * 0.461526 * 7) (pb := demo.dc * 2.4 * 0.461526 * 7)
    (by rw [hk]; exact hex _ (by norm_num [demo])) (by rw [hk]; exact hex _ (by norm_num [demo]))
    (by rw [hb]; norm_num [demo]) (by rw [hb]; norm_num [demo])
  rw [hk, hb] at h1
  exact ⟨d, ds, h1, h2⟩

theorem demo_ps : ∃ P, ps demo 273.16 = some P ∧ 0 < P ∧ P ≤ 0.1 := by
  have hs := iapws_line (W := demo) rfl
  refine ⟨_, ps_eq hs.toSatPressure (le_refl _) (by norm_num), ?_, ?_⟩
  · have := rootB_pos hs.toSatPressure (le_refl _) (by norm_num)
    positivity
  · have h1 := rootB_pos hs.toSatPressure (le_refl _) (by norm_num)
    have h2 := rootB_le (W := demo) rfl
    have := pow_le_pow_left₀ h1.le h2 4
    linarith [show (0.2 : ℝ) ^ 4 * 10 ≤ 0.1 by norm_num]

theorem demo_vol (T p : ℝ) (hT : T ≠ 0) (hp : p ≠ 0) : mixed demo .d T p 1 = .ok (1 / (0.461526 * T / (p * 100))) := by
  obtain ⟨g, hg⟩ := g1_ok demo_good T p Q.d.order
  obtain ⟨k, hk⟩ := g2_ok demo_good T p Q.d.order
  have hpi : k.pi = p / 10 ∧ k.j.px = 10 / p := by
    unfold g2 at hk
    obtain ⟨F, h1, h2, h3, h4⟩ := peval_does [(0, 0, 0)] (wf_const 0)
    have e : demo.r2o = [(0, 0, 0)] ∧ demo.r2r = [(0, 0, 0)] := ⟨rfl, rfl⟩
    have hz : ∀ ord x y, 0 < ord → (F ord x y).px = 0 := by
      intro ord x y ho
      have hx := (h2 x y (reg_const 0 x y)).dx
      have : HasDerivAt (fun s => (F 2 s y).p) 0 x := by
        refine (hasDerivAt_const x (0 : ℝ)).congr_of_eventuallyEq (Filter.Eventually.of_forall fun s => ?_)
        show (F 2 s y).p = 0
        rw [h3 2 s y (reg_const 0 s y)]; simp [polyAt]
      rw [h4, Mp.J6.cut]
      simp only [ho, if_true]
      exact hx.unique this
    rw [e.1, e.2, h1, h1] at hk
    cases hk
    refine ⟨rfl, ?_⟩
    simp only [addLog, Q.order, hz 1 _ _ one_pos]
    norm_num
  unfold mixed
  rw [hg, exOk, hk, exOk]
  congr 1
  simp only [Q.mix, Q.sat, hpi.1, hpi.2]
  have hR : demo.R = 0.461526 := rfl
  rw [hR]
  congr 1
  field_simp
  ring

/-- `C68_lever`: the triple point, quality one half. -/
example : ∃ out, method fullEnv demo .h (some (.scalar 273.16)) none (some (.scalar 0.5)) = .ok out := by
  obtain ⟨P, hP, -, -⟩ := demo_ps
  have hn := nditer_Tx (T := [273.16]) (x := [0.5]) fullEnv.c.defp rfl (by simp)
  have m := method_eq (W := demo) fullEnv_uses (by norm_num [demo]) .h (some (.scalar 273.16)) none
    (some (.scalar 0.5)) hn
  rw [m]
  obtain ⟨g, hg⟩ := g1_ok demo_good 273.16 P Q.h.order
  obtain ⟨k, hk⟩ := g2_ok demo_good 273.16 P Q.h.order
  simp only [List.zip_cons_cons, List.zip_nil_right, List.map_cons, List.map_nil, List.mapM_cons, List.mapM_nil,
    demo_kelvin, element, mixed, Option.isNone_some, Option.isNone_none, hP, hg, hk, exOk]
  norm_num [Except.map, pure, Except.pure, exOk]

/-- **C68 disagreement.** With temperature and quality but no pressure, `hsd` does not use the saturation
pressure but the default one: its density differs from that of `d`, for saturated vapour at 273.16 K. -/
theorem C68_hsd_defect :
    ∃ h s d d', mHsd fullEnv demo (some (.scalar 273.16)) none (some (.scalar 1)) = .ok (h, s, d) ∧
      method fullEnv demo .d (some (.scalar 273.16)) none (some (.scalar 1)) = .ok d' ∧ d ≠ d' := by
  obtain ⟨P, hP, hP0, hP1⟩ := demo_ps
  have hmw : demo.mw ≠ 0 := by norm_num [demo]
  have hn := nditer_Tx (T := [273.16]) (x := [1]) fullEnv.c.defp rfl (by simp)
  have hdef : fullEnv.c.defp = 1.01325 := rfl
  obtain ⟨g, hg⟩ := g1_ok demo_good 273.16 1.01325 1
  obtain ⟨k, hk⟩ := g2_ok demo_good 273.16 1.01325 1
  have e1 : hsdElement demo false 273.16 1.01325 1 = .ok
      (some (Q.h.mix (Q.h.sat demo.R 273.16 1.01325 g) (Q.h.sat demo.R 273.16 1.01325 k) 1),
       some (Q.s.mix (Q.s.sat demo.R 273.16 1.01325 g) (Q.s.sat demo.R 273.16 1.01325 k) 1),
       some (1 / (0.461526 * 273.16 / (1.01325 * 100)))) := by
    have hd : mixed demo .d 273.16 1.01325 1 = .ok (1 / (0.461526 * 273.16 / (1.01325 * 100))) :=
      demo_vol _ _ (by norm_num) (by norm_num)
    have hh : mixed demo .h 273.16 1.01325 1 =
        .ok (Q.h.mix (Q.h.sat demo.R 273.16 1.01325 g) (Q.h.sat demo.R 273.16 1.01325 k) 1) := by
      unfold mixed
      rw [show Q.h.order = 1 from rfl, hg, exOk, hk, exOk]
    have hs : mixed demo .s 273.16 1.01325 1 =
        .ok (Q.s.mix (Q.s.sat demo.R 273.16 1.01325 g) (Q.s.sat demo.R 273.16 1.01325 k) 1) := by
      unfold mixed
      rw [show Q.s.order = 1 from rfl, hg, exOk, hk, exOk]
    have hneg : ¬ ((1.01325 : ℝ) < 0) := by norm_num
    have hx : ¬ ((1 : ℝ) < 0) := by norm_num
    simp only [hsdElement, element, hneg, hx, if_false, decide_false, hh, hs, hd, Except.map, exOk]
    rfl
  have e2 : element demo .d false true 273.16 1.01325 1 =
      .ok (some (1 / (0.461526 * 273.16 / (P * 100)))) := by
    have hx : ¬ ((1 : ℝ) < 0) := by norm_num
    simp only [element, hx, if_false, hP, demo_vol _ _ (show (273.16 : ℝ) ≠ 0 by norm_num) hP0.ne', Except.map]
    rfl
  have hf : factor fullEnv exampleSys demo .d ≠ 0 := by
    have hsz : size (volume : Conv ℝ) "m3" = 1 ^ 3 := rfl
    have hm : msize fullEnv.a demo.mw "kg" ≠ 0 := ms_ne fullEnv_uses hmw
    simp only [factor, shown, kind, inUnitsKg, inUnits, perKmol, exampleSys, hsz]
    simp only [reduceCtorEq, if_false]
    have : demo.mw ≠ 0 := hmw
    positivity
  have m1 := hsd_eq (W := demo) fullEnv_uses hmw (some (.scalar 273.16)) none (some (.scalar 1)) hn
  simp only [List.zip_cons_cons, List.zip_nil_right, List.map_cons, List.map_nil, List.mapM_cons,
    List.mapM_nil, demo_kelvin, demo_bar, hdef, Option.isNone_some, e1, exOk, pure, Except.pure, Except.map] at m1
  have m2 := method_eq (W := demo) fullEnv_uses hmw .d (some (.scalar 273.16)) none (some (.scalar 1)) hn
  simp only [List.zip_cons_cons, List.zip_nil_right, List.map_cons, List.map_nil, List.mapM_cons,
    List.mapM_nil, demo_kelvin, demo_bar, hdef, Option.isNone_some, Option.isNone_none, e2, exOk, pure,
    Except.pure, Except.map] at m2
  refine ⟨_, _, _, _, m1, m2, ?_⟩
  · simp only [scaleBy, List.map_cons, List.map_nil, Option.map_some]
    intro h
    simp only [List.cons.injEq, Option.some.injEq, and_true] at h
    have h := mul_right_cancel₀ hf h
    field_simp at h
    linarith

end PyroMat.If97.Props
