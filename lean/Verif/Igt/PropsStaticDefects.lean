import Verif.Igt.PropsStaticBack

/-!
# C85: where dynamic and static mixtures differ
-/

set_option linter.unusedSimpArgs false
set_option linter.unusedSectionVars false

namespace PyroMat.Igt.Props

open PyroMat PyroMat.Gas PyroMat.Igt PyroMat.Igt.Spec PyroMat.Config.Defaults
open PyroMat.Units PyroMat.Units.Spec PyroMat.Units.Props PyroMat.Gas.Spec PyroMat.Gas.Props
open scoped BigOperators

variable {σ : Type} [DecidableEq σ]

theorem zip_within {j s : List Nat} (h : Within j s) :
    j.length = s.length ∧ (List.zipWith (fun i d => decide (i < d)) j s).all id = true := by
  induction h with
  | nil => simp
  | cons h _ ih => simpa [h] using ih

/-- **C85 disagreement.** The mixture at one position, `m[:, j]`, has no axes left, and `toigmix`
raises `TypeError` for it (`len` is asked of a product that is the float 1.0,
`igtools.py:988-991,1164`), although the mixture at that position is one of those which `toigmix` of
the whole mixture returns (`C85_instances`). -/
theorem C85_submixture_defect (E : Env) (L : Lib σ) (m : Mix σ) (j : List Nat)
    (hj : Within j m.shape) (sid : String) :
    ∃ m', getItem E L m (.tup .all j) = .ok (.mix m') ∧ m'.c = m.c ∧
      toigmix L m' sid = .error .type := by
  obtain ⟨h1, h2⟩ := zip_within hj
  refine ⟨⟨m.c, tab (m.c.length :: m.shape.drop j.length) fun r i => m.q.val (r :: (j ++ i))⟩, ?_, rfl, ?_⟩
  · have e : sindex L m (.tup .all j) = some (.tup .all j) := rfl
    unfold getItem
    rw [e]
    dsimp only
    rw [if_pos ⟨h1.le, h2⟩]
  · unfold toigmix mixLen
    have e : List.drop j.length m.shape = [] := List.drop_eq_nil_of_le h1.ge
    rw [if_pos (by show List.drop j.length m.shape = []; exact e)]
    rfl

theorem smix_none {xs : List (String × ℝ)} (h : ∃ q ∈ xs, q.2 = 0) : Gas.Mix.smixOf xs = none := by
  have k0 : ∀ l : List (String × ℝ),
      l.foldl (fun a q => nan2 (· - ·) a (Gas.Mix.xlogx q.2)) none = none := by
    intro l
    induction l with
    | nil => rfl
    | cons q l ih => exact ih
  have k : ∀ (l : List (String × ℝ)) (a : Nan), (∃ q ∈ l, q.2 = 0) →
      l.foldl (fun a q => nan2 (· - ·) a (Gas.Mix.xlogx q.2)) a = none := by
    intro l
    induction l with
    | nil => rintro a ⟨q, hq, -⟩; simp at hq
    | cons q l ih =>
      rintro a ⟨r, hr, h0⟩
      rcases List.mem_cons.mp hr with rfl | hr
      · have : Gas.Mix.xlogx r.2 = none := by simp [Gas.Mix.xlogx, h0]
        rw [List.foldl_cons, this]
        have e : nan2 (· - ·) a (none : Nan) = none := by cases a <;> rfl
        rw [e]
        exact k0 l
      · exact ih _ ⟨r, hr, h0⟩
  unfold Gas.Mix.smixOf
  rw [k _ _ h]
  rfl

/-- **C85 disagreement.** When a constituent is listed with amount zero at a position, the static
mixture for that position reports NaN as entropy, Gibbs and Helmholtz energy at every temperature and
pressure (its mixing entropy is `0 * log 0`, `igmix.py:161-169`), while the dynamic mixture skips
the constituent and reports a number (`C81_answers_entropy_partial`; example below). -/
theorem C85_absent_defect (E : Env) (S : Sys) (hU : Uses E S) (L : Lib σ) (coll : Gas.Mix.Coll) (m : Mix σ)
    (hC : Collected L coll m) (hW : Weighs L m) (sid : String) (l : List (String × Gas.Mix.Entry))
    (hl : toigmix L m sid = .ok l) (j : List Nat) (hj : Within j m.shape)
    (hq : ∀ s ∈ m.c, 0 ≤ amount m s j) (hp : ∃ s ∈ m.c, 0 < amount m s j)
    (hz : ∃ s ∈ m.c, amount m s j = 0) (name : String) (D : Gas.Mix.Entry)
    (hD : l[number m.shape j]? = some (name, D)) (M : Gas) (hM : IsMixture coll D M) (t p : ℝ)
    (hv : ValidAt S L m t) (q : Quantity) (hqq : q = .s ∨ q = .g ∨ q = .f) :
    method q E M [.scalar t, .scalar p] [] = .ok [none] := by
  obtain rfl := entry_at hl hj hD
  have hL := listed_at hC hW _ hq hp
  obtain ⟨⟨c1, hc1, e1⟩, ⟨c2, hc2, e2⟩, emw, -, -⟩ := static_gas hL hM
  have h1 : M.Tlo ≤ toKelvin S.T.name t := by
    rw [e1]
    obtain ⟨s, hs, rfl⟩ := List.mem_map.mp hc1
    exact (hv s hs).1
  have h2 : toKelvin S.T.name t ≤ M.Thi := by
    rw [e2]
    obtain ⟨s, hs, rfl⟩ := List.mem_map.mp hc2
    exact (hv s hs).2
  have hmw : 0 < M.mw := by
    rw [emw, comps_mean hC.once _ (fun s => (L.gas s).mw) (fun c => c.gas.mw) (fun _ _ => rfl)]
    have := meanMw_pos (i := j) hW (by rw [place_within hj]; exact hq)
      (by unfold kmols; rw [place_within hj]; exact total_pos hq hp)
    unfold meanMw kmols at this
    rwa [place_within hj] at this
  have hs : Gas.Mix.smixOf ((compsAt L m j).map (fun c => (c.name, moleFrac false (compsAt L m j) c))) = none := by
    obtain ⟨s, hs, h0⟩ := hz
    refine smix_none ⟨_, List.mem_map_of_mem (List.mem_map_of_mem hs), ?_⟩
    show moleFrac false _ _ = 0
    unfold moleFrac
    show amount m s j / _ = 0
    rw [h0, zero_div]
  obtain ⟨hMs, hMg⟩ : (∀ T, M.s T = none) ∧ ∀ T, M.g T = none := by
    obtain ⟨O, lo, hi, hO, hbs, hx, hy, hlo, hhi, hsm, -⟩ := bootstrap_listed hL
    have h1 := hM {} .new Gas false (fun G => .ok G)
    unfold Gas.Mix.call at h1
    rw [hO] at h1
    simp only [Bool.false_and, Bool.false_eq_true, if_false] at h1
    unfold Gas.Mix.toGas at h1
    rw [hx, species_eq hL.found, hlo, hhi, hsm] at h1
    simp only [Option.map_some, Option.some.injEq, Except.ok.injEq] at h1
    subst h1
    rw [hs]
    constructor
    · intro T
      show Gas.Mix.sM _ none T = none
      unfold Gas.Mix.sM
      cases Gas.Mix.sumPair Gas.s _ T <;> rfl
    · intro T
      show Gas.Mix.gM _ none T = none
      unfold Gas.Mix.gM
      cases Gas.Mix.sumPair Gas.g _ T <;> rfl
  refine (method_Tp hU hmw.ne' t p h1 h2 q).trans ?_
  rcases hqq with rfl | rfl | rfl <;>
    simp [value, Gas.sI, Gas.gI, Gas.fI, Gas.f, hMs, hMg]

theorem put_mem (d : List (String × ℝ)) (k : String) (v : ℝ) :
    (∃ q ∈ putName d k v, q.1 = k) ∧ ∀ q ∈ d, ∃ r ∈ putName d k v, r.1 = q.1 := by
  unfold putName
  split
  · rename_i h
    have h' : ∃ x ∈ d, x.1 = k := by simpa using h
    obtain ⟨x, hx, e⟩ := h'
    refine ⟨⟨(k, v), List.mem_map.mpr ⟨x, hx, by simp [e]⟩, rfl⟩, fun q hq => ?_⟩
    by_cases hk : q.1 = k
    · exact ⟨(k, v), List.mem_map.mpr ⟨q, hq, by simp [hk]⟩, hk.symm⟩
    · exact ⟨q, List.mem_map.mpr ⟨q, hq, by simp [hk]⟩, rfl⟩
  · exact ⟨⟨(k, v), by simp, rfl⟩, fun q hq => ⟨q, by simp [hq], rfl⟩⟩

theorem contents_mem {L : Lib σ} {m : Mix σ} {s : σ} (h : s ∈ m.c) (j : List Nat) :
    ∃ q ∈ contentsAt L m j, q.1 = L.sid s := by
  have k : ∀ (l : List (σ × ℝ)) (d : List (String × ℝ)),
      ((∃ r ∈ l, r.1 = s) ∨ ∃ q ∈ d, q.1 = L.sid s) →
      ∃ q ∈ l.foldl (fun d r => putName d (L.sid r.1) r.2) d, q.1 = L.sid s := by
    intro l
    induction l with
    | nil =>
      rintro d (⟨r, hr, -⟩ | h)
      · simp at hr
      · exact h
    | cons r l ih =>
      intro d hd
      rw [List.foldl_cons]
      refine ih _ ?_
      obtain ⟨p1, p2⟩ := put_mem d (L.sid r.1) r.2
      rcases hd with ⟨r', hr', e⟩ | ⟨q, hq, e⟩
      · rcases List.mem_cons.mp hr' with rfl | hr'
        · rw [e] at p1
          exact Or.inr (e ▸ p1)
        · exact Or.inl ⟨r', hr', e⟩
      · obtain ⟨x, hx, ex⟩ := p2 q hq
        exact Or.inr ⟨x, hx, ex.trans e⟩
  refine k _ _ (Or.inl ?_)
  obtain ⟨n, hn, e⟩ := List.mem_iff_getElem.mp h
  refine ⟨(s, m.q.val (n :: j)), ?_, rfl⟩
  unfold rowsAt
  refine List.mem_map.mpr ⟨(s, n), ?_, rfl⟩
  refine List.mem_iff_getElem.mpr ⟨n, by simpa using hn, ?_⟩
  simp [e]

/-- **C85 disagreement.** A constituent that the collection does not hold as an ordinary gas, such as
a static mixture (`ig.air`), which a dynamic mixture accepts: `toigmix` returns, but the first call of
any property method of the instance raises `PMDataError` (`igmix.py:120-131`). -/
theorem C85_nested_defect (L : Lib σ) (coll : Gas.Mix.Coll) (m : Mix σ) (hr : m.shape ≠ []) (s : σ)
    (hs : s ∈ m.c) (hn : ∀ G as, coll (L.sid s) ≠ some (.gas G as)) (sid : String) (j : List Nat)
    (hj : Within j m.shape) :
    ∃ l name D, toigmix L m sid = .ok l ∧ l[number m.shape j]? = some (name, D) ∧
      ∀ (α : Type) (u : Bool) (f : Gas → Except Err α),
        (Gas.Mix.call coll D {} u f).1 = some (.error .data) := by
  obtain ⟨l, hl, hlen, -⟩ := C85_instances L m hr sid
  obtain ⟨⟨name, D⟩, hD⟩ : ∃ x, l[number m.shape j]? = some x :=
    ⟨_, List.getElem?_eq_getElem (by rw [hlen]; exact number_lt hj)⟩
  refine ⟨l, name, D, hl, hD, fun α u f => ?_⟩
  obtain rfl := entry_at hl hj hD
  obtain ⟨q, hq, e⟩ := contents_mem (L := L) hs j
  exact C65_first_use_partial coll _ α u f ⟨q, hq, by rw [e]; exact hn⟩

end PyroMat.Igt.Props
