import Verif.Igt.PropsIdent

/-!
# C83: a dynamic mixture given its enthalpy, energy or entropy reports it
-/

set_option linter.unusedSectionVars false
set_option linter.unusedSimpArgs false

namespace PyroMat.Igt.Props

open PyroMat PyroMat.Gas PyroMat.Igt PyroMat.Igt.Spec PyroMat.Config.Defaults
open PyroMat.Units PyroMat.Units.Spec PyroMat.Units.Props PyroMat.Gas.Spec PyroMat.Gas.Props
open scoped BigOperators

variable {σ : Type} [DecidableEq σ]

/-- Kilomoles at a position of the mixture. -/
theorem kmols_place (m : Mix σ) (i : List Nat) :
    kmols m i = ∑ s ∈ m.c.toFinset, amount m s (m.at i) := rfl

/-- The value and derivative of a sum. -/
theorem mixEval_eq {L : Lib σ} {m : Mix σ} {j : List Nat} {f : Gas → ℝ → Option (ℝ × ℝ)} {t : ℝ}
    {g g' : σ → ℝ} (h : ∀ s ∈ m.c, f (L.gas s) t = some (g s, g' s)) :
    mixEval L f (rowsAt m j) t = some (weigh g m j, weigh g' m j) := by
  unfold mixEval
  rw [mixSum_weigh (g := g) (fun s hs => by rw [h s hs]; rfl), Option.bind_some,
    mixSum_weigh (g := g') (fun s hs => by rw [h s hs]; rfl)]
  rfl

/-- A mixture of gases whose property rises is regular. -/
theorem mix_regular {L : Lib σ} {m : Mix σ} {j : List Nat} {f : Gas → ℝ → Option (ℝ × ℝ)}
    {lo hi a M J : ℝ} (hR : ∀ s ∈ m.c, Rises (f (L.gas s)) lo hi a M J) (hne : m.c ≠ [])
    (hq : ∀ s ∈ m.c, 0 ≤ amount m s j) (hn : 0 < ∑ s ∈ m.c.toFinset, amount m s j) :
    Regular (mixEval L f (rowsAt m j)) lo hi ((∑ s ∈ m.c.toFinset, amount m s j) * a)
      ((∑ s ∈ m.c.toFinset, amount m s j) * M) ((∑ s ∈ m.c.toFinset, amount m s j) * J) := by
  obtain ⟨s0, hs0⟩ := List.exists_mem_of_ne_nil _ hne
  have h0 := hR s0 hs0
  have ex : ∀ x, lo ≤ x → x ≤ hi → ∃ g g' : σ → ℝ, (∀ s ∈ m.c, f (L.gas s) x = some (g s, g' s) ∧ a ≤ g' s) := by
    intro x h1 h2
    have : ∀ s ∈ m.c, ∃ y y', f (L.gas s) x = some (y, y') ∧ a ≤ y' := fun s hs => (hR s hs).slope x h1 h2
    choose! g g' hg using this
    exact ⟨g, g', hg⟩
  refine ⟨mul_pos hn h0.m_pos, mul_nonneg hn.le h0.M_nonneg, mul_nonneg hn.le h0.J_nonneg, ?_, ?_⟩
  · intro x h1 h2
    obtain ⟨g, g', hg⟩ := ex x h1 h2
    refine ⟨_, _, mixEval_eq (fun s hs => (hg s hs).1), ?_⟩
    refine le_trans ?_ (le_abs_self _)
    unfold weigh
    rw [Finset.sum_mul]
    refine Finset.sum_le_sum fun s hs => ?_
    have hs' : s ∈ m.c := by simpa using hs
    rw [mul_comm]
    exact mul_le_mul_of_nonneg_right (hg s hs').2 (hq s hs')
  · intro x x' y y' h1 h2 h3 h4 hy hy'
    obtain ⟨g, g', hg⟩ := ex x h1 h2
    obtain ⟨k, k', hk⟩ := ex x' h3 h4
    rw [mixEval_eq (fun s hs => (hg s hs).1)] at hy
    rw [mixEval_eq (fun s hs => (hk s hs).1)] at hy'
    simp only [Option.map_some, Option.some.injEq] at hy hy'
    rw [← hy, ← hy']
    unfold weigh
    rw [← Finset.sum_sub_distrib]
    refine (Finset.abs_sum_le_sum_abs _ _).trans ?_
    rw [mul_assoc, ← mul_add, Finset.sum_mul]
    refine Finset.sum_le_sum fun s hs => ?_
    have hs' : s ∈ m.c := by simpa using hs
    rw [← sub_mul, abs_mul, abs_of_nonneg (hq s hs'), mul_comm]
    refine mul_le_mul_of_nonneg_left ?_ (hq s hs')
    exact (hR s hs').lipschitz x x' _ _ h1 h2 h3 h4 (by rw [(hg s hs').1]; rfl) (by rw [(hk s hs').1]; rfl)

/-- The inversion, element by element. -/
theorem iterMix_at {L : Lib σ} {m : Mix σ} {f : Gas → ℝ → Option (ℝ × ℝ)} {y T : NArr} {w : Bool}
    {lo hi : ℝ} (h : iterMix L m f y lo hi = .ok (T, w)) :
    T.shape = y.shape ∧ FitsR m.shape y.shape ∧ ∀ j, Within j y.shape → ∀ v, y.val j = some v →
      ∃ x w', T.val j = x ∧
        iter1 [(mixEval L f (rowsAt m (m.at j)), v)] (0.5 * (lo + hi)) lo hi = .ok ([x], w') ∧
        (w = false → w' = false) := by
  unfold iterMix at h
  obtain ⟨sh, h1, h⟩ := exbind_inv h
  split at h
  · cases h
  · rename_i hsh
    have hsh : sh = y.shape := by simpa using hsh
    subst hsh
    obtain ⟨r, hr, h⟩ := exbind_inv h
    cases h
    refine ⟨rfl, (npShape_inv h1).1, fun j hj v hv => ?_⟩
    obtain ⟨-, he⟩ := iter1_each hr
    have hm := mem_indices.mpr hj
    have hlt := List.idxOf_lt_length_of_mem hm
    obtain ⟨x, w', x1, x2, x3⟩ := he ((indices y.shape).idxOf j)
      (mixEval L f (rowsAt m (m.at j)), v) (by
        rw [List.getElem?_map, List.getElem?_eq_getElem hlt, List.getElem_idxOf hlt, Option.map_some, hv])
    refine ⟨x, w', ?_, x2, x3⟩
    dsimp only
    rw [List.getD_eq_getElem?_getD, x1]
    rfl

/-- The limits when all constituents share them. -/
theorem common_lims {E : Env} {S : Sys} (hU : Uses E S) {L : Lib σ} {m : Mix σ} {lo hi : ℝ}
    (hc : CommonRange L m lo hi) {lim : ℝ × ℝ} (h : limsM E L m = .ok lim) : lim = (lo, hi) := by
  obtain ⟨l, u, e, -, ⟨s, hs, h1⟩, ⟨s', hs', h2⟩⟩ := lims_eq hU L m hc.2.1
  rw [e] at h; cases h
  rw [h1, h2, (hc.2.2 s hs).1, (hc.2.2 s' hs').2]

/-- The temperature found from an energy, at every position. -/
theorem energyM_at {E : Env} {S : Sys} (hU : Uses E S) {L : Lib σ} {m : Mix σ}
    {f : Gas → ℝ → Option (ℝ × ℝ)} {lo up a M J : ℝ} (hc : CommonRange L m lo up)
    (hR : ∀ s ∈ m.c, Rises (f (L.gas s)) lo up a M J) {va : Arr} {T : NArr}
    (h : energyM E L m f lo up va.atleast1.nan = .ok (T, false)) {sh i : List Nat}
    (hf : FitsR T.shape sh) (hi : Within i sh)
    (hq : ∀ s ∈ m.c, 0 ≤ amount m s (place m i)) (hn : 0 < kmols m i) :
    ∃ t z, T.get i = some t ∧ lo ≤ t ∧ t ≤ up ∧
      (mixEval L f (rowsAt m (m.at i)) t).map (fun r => r.1) = some z ∧
      |z - entry va i * (size energy S.e / 1000)| ≤
        (1 + M / a) * (1e-6 * |entry va i * (size energy S.e / 1000)|) + kmols m i * J := by
  unfold energyM at h
  rw [conv_ok (Does.of_acts (acts_e hU none)), exbind_ok] at h
  obtain ⟨s1, -, h⟩ := exbind_inv h
  obtain ⟨y, hy, h⟩ := exbind_inv h
  obtain ⟨e1, e2, e3⟩ := iterMix_at h
  obtain ⟨b1, b2, b3⟩ := bto_inv hy
  subst b1
  have hl : T.shape.length ≤ i.length := by rw [within_length hi]; exact hf.1
  set j := rd T.shape i with hj
  have hjw : Within j y.shape := by rw [← e1]; exact within_rd hf hi
  have hat : m.at j = m.at i := by
    rw [← e1] at e2
    exact rd_rd e2 hl
  have hyj : y.val j = some (entry va i * (size energy S.e / 1000)) := by
    rw [b3 j (within_length hjw)]
    rw [hj, e1, get_get b2 (by rw [← e1]; exact hl), conv_get, atleast1_get, powS_none']
    rfl
  obtain ⟨x, w, x1, x2, x3⟩ := e3 j hjw _ hyj
  rw [x3 rfl, hat] at x2
  have hpl : m.at i = place m i := by
    unfold Mix.at place
    rw [clip_eq_src]
  rw [hpl] at x2 ⊢
  obtain ⟨t, z, rfl, t1, t2, t3, t4⟩ := iter1_regular hc.1 (mix_regular hR hc.2.1 hq hn) x2
  refine ⟨t, z, by rw [get_rd]; exact x1, t1, t2, t3, ?_⟩
  rw [mul_div_mul_left _ _ (ne_of_gt (show (0 : ℝ) < ∑ s ∈ m.c.toFinset, amount m s (place m i) from hn))] at t4
  exact t4

theorem with_h {x b n : String} (hx : x ∈ ["T", "e", "h"]) (h : Admissible [x, b])
    (hn : n ∈ ["T", "e", "h"]) (hne : n ≠ x) : n ≠ b := by
  rintro rfl
  exact hne (h.one_of_Teh n (by simp) x (by simp) hn hx)

/-- The temperature of a call that gives `h` or `e`. -/
theorem found_T {E : Env} {S : Sys} (hU : Uses E S) {L : Lib σ} {m : Mix σ} {varg : List Arr}
    {kw : KwM} {name : String} {f : Gas → ℝ → Option (ℝ × ℝ)}
    (hname : (name = "h" ∧ f = Gas.h) ∨ (name = "e" ∧ f = Gas.e)) {va vb : Arr} {b : String}
    (hs : SuppliesM varg kw name va b vb) {st : MixState} (hst : argparseM E L m varg kw = .ok st) :
    ∃ lim T, limsM E L m = .ok lim ∧ energyM E L m f lim.1 lim.2 va.atleast1.nan = .ok (T, st.warned) ∧
      FitsR T.shape st.T.shape ∧ ∀ i, i.length = st.T.shape.length → st.T.val i = T.get i := by
  obtain ⟨lim, k, st0, hl, hc, h1, h2⟩ := stages hs hst
  obtain ⟨T, h, e, c1, c2, c3, c4⟩ := hc.T
  have hsp : k.s = none ∨ k.p = none := by
    have hx : name ≠ "s" ∧ name ≠ "p" := by
      rcases hname with ⟨rfl, -⟩ | ⟨rfl, -⟩ <;> decide
    by_cases hb : b = "p"
    · subst hb
      exact Or.inl (argM_none (lookup_neither hx.1.symm (by decide)) hc.s)
    · exact Or.inr (argM_none (lookup_neither hx.2.symm (Ne.symm hb)) hc.p)
  have key : ∃ y, energyM E L m f lim.1 lim.2 va.atleast1.nan = .ok y ∧ k.T = some y := by
    rcases hname with ⟨rfl, rfl⟩ | ⟨rfl, rfl⟩
    · rw [argE_none (lookup_neither (by decide) (with_h (by simp) hs.ok (by simp) (by decide))) c3,
        argM_none (lookup_neither (by decide) (with_h (by simp) hs.ok (by simp) (by decide))) c1] at c4
      obtain ⟨y, y1, rfl⟩ := argE_some lookup_first c2
      exact ⟨y, y1, c4⟩
    · rw [argE_none (lookup_neither (by decide) (with_h (by simp) hs.ok (by simp) (by decide))) c2,
        argM_none (lookup_neither (by decide) (with_h (by simp) hs.ok (by simp) (by decide))) c1] at c4
      obtain ⟨y, y1, rfl⟩ := argE_some lookup_first c3
      exact ⟨y, y1, c4⟩
  obtain ⟨⟨Y, w⟩, y1, y2⟩ := key
  obtain ⟨r1, r2, r3, r4⟩ := solveM_T h1 y2 hsp
  obtain ⟨-, -, -, q1, -, -, q2⟩ := rangeM_inv h2
  rw [q1, r2]
  rw [q2 r1]
  exact ⟨lim, Y, hl, y1, r3, r4⟩

/-- Given `h` or `e`, the same property of the call. -/
theorem given_energy {E : Env} {S : Sys} (hU : Uses E S) {L : Lib σ} {m : Mix σ} {varg : List Arr}
    {kw : KwM} {name : String} {f : Gas → ℝ → Option (ℝ × ℝ)}
    (hname : (name = "h" ∧ f = Gas.h) ∨ (name = "e" ∧ f = Gas.e)) {va vb : Arr} {b : String}
    (hs : SuppliesM varg kw name va b vb) {lo up a M J : ℝ} (hc : CommonRange L m lo up)
    (hR : ∀ s ∈ m.c, Rises (f (L.gas s)) lo up a M J) (hsil : SilentM E L m varg kw) {r : Except Err NArr}
    (hr : r = (do
      let st ← argparseM E L m varg kw
      let x ← propeval L m (fun G t => (f G t).map (fun r => r.1)) st.T
      outE E x)) {A : NArr} (hA : r = .ok A) {i : List Nat} (hi : Within i A.shape)
    (hq : ∀ s ∈ m.c, 0 ≤ amount m s (place m i)) (hn : 0 < kmols m i) :
    ∃ y, A.val i = some y ∧ |y - entry va i| ≤ (1 + M / a) * 1e-6 * |entry va i| +
      |kmols m i * J * (1000 / size energy S.e)| := by
  rw [hr] at hA
  obtain ⟨st, hst, hA⟩ := exbind_inv hA
  obtain ⟨X, hX, hA⟩ := exbind_inv hA
  obtain ⟨lim, T, hl, h1, h2, h3⟩ := found_T hU hname hs hst
  rw [hsil st hst, common_lims hU hc hl] at h1
  unfold propeval at hX
  obtain ⟨sh, hsh, hX⟩ := exbind_inv hX
  cases hX
  rw [outE_ok hU] at hA
  cases hA
  dsimp only at hi ⊢
  have f2 := (npShape_inv hsh).2
  obtain ⟨t, z, t1, t2, t3, t4, t5⟩ := energyM_at hU hc hR h1 (h2.trans f2) hi hq hn
  have hl2 : st.T.shape.length ≤ i.length := by rw [within_length hi]; exact f2.1
  have hget : st.T.get i = some t := by
    rw [get_rd, h3 _ (rd_length hl2), get_get h2 hl2, t1]
  obtain ⟨g, g', hg⟩ : ∃ g g' : σ → ℝ, ∀ s ∈ m.c, f (L.gas s) t = some (g s, g' s) := by
    have : ∀ s ∈ m.c, ∃ y y', f (L.gas s) t = some (y, y') := fun s hs => by
      obtain ⟨y, y', h, -⟩ := (hR s hs).slope t t2 t3
      exact ⟨y, y', h⟩
    choose! g g' hg using this
    exact ⟨g, g', hg⟩
  rw [mixEval_eq hg] at t4
  simp only [Option.map_some, Option.some.injEq] at t4
  rw [hget, Option.bind_some, mixSum_weigh (g := g) (fun s hs => by rw [hg s hs]; rfl), t4]
  refine ⟨z * (1000 / size energy S.e), rfl, ?_⟩
  have he := es_ne hU
  have hJ : 0 ≤ kmols m i * J := by
    obtain ⟨s, hs⟩ := List.exists_mem_of_ne_nil _ hc.2.1
    exact mul_nonneg hn.le (hR s hs).J_nonneg
  have e1 : z * (1000 / size energy S.e) - entry va i =
      (z - entry va i * (size energy S.e / 1000)) * (1000 / size energy S.e) := by
    field_simp
  have e2 : |entry va i| = |entry va i * (size energy S.e / 1000)| * |1000 / size energy S.e| := by
    rw [← abs_mul]
    congr 1
    field_simp
  rw [e1, abs_mul, abs_mul (kmols m i * J), abs_of_nonneg hJ, e2, ← mul_assoc, ← add_mul]
  refine mul_le_mul_of_nonneg_right ?_ (abs_nonneg _)
  rw [mul_assoc]
  exact t5

/-- **C83.** Given enthalpy.  For constituents with common temperature limits whose enthalpies rise
with temperature (slopes between `a` and `M`, jumps between the pieces of a fit at most `J` in all),
if no warning is printed, the mixture reports at every position that holds some matter the enthalpy
given for that position, within `(1 + M/a) * 1e-6` of its value plus the jumps times the amount. -/
theorem C83_given_enthalpy (E : Env) (S : Sys) (hU : Uses E S) (L : Lib σ) (m : Mix σ)
    (lo up a M J : ℝ) (hc : CommonRange L m lo up)
    (hR : ∀ s ∈ m.c, Rises (L.gas s).h lo up a M J) (varg : List Arr) (kw : KwM) (vh vb : Arr)
    (b : String) (hs : SuppliesM varg kw "h" vh b vb) (hsil : SilentM E L m varg kw) (A : NArr)
    (hA : iH E L m varg kw = .ok A) (i : List Nat) (hi : Within i A.shape)
    (hq : ∀ s ∈ m.c, 0 ≤ amount m s (place m i)) (hn : 0 < kmols m i) :
    ∃ y, A.val i = some y ∧ |y - entry vh i| ≤ (1 + M / a) * 1e-6 * |entry vh i| +
      |kmols m i * J * (1000 / size energy S.e)| :=
  given_energy hU (Or.inl ⟨rfl, rfl⟩) hs hc hR hsil (r := iH E L m varg kw) rfl hA hi hq hn

/-- **C83.** Given internal energy, in the same way. -/
theorem C83_given_energy (E : Env) (S : Sys) (hU : Uses E S) (L : Lib σ) (m : Mix σ)
    (lo up a M J : ℝ) (hc : CommonRange L m lo up)
    (hR : ∀ s ∈ m.c, Rises (L.gas s).e lo up a M J) (varg : List Arr) (kw : KwM) (ve vb : Arr)
    (b : String) (hs : SuppliesM varg kw "e" ve b vb) (hsil : SilentM E L m varg kw) (A : NArr)
    (hA : iE E L m varg kw = .ok A) (i : List Nat) (hi : Within i A.shape)
    (hq : ∀ s ∈ m.c, 0 ≤ amount m s (place m i)) (hn : 0 < kmols m i) :
    ∃ y, A.val i = some y ∧ |y - entry ve i| ≤ (1 + M / a) * 1e-6 * |entry ve i| +
      |kmols m i * J * (1000 / size energy S.e)| :=
  given_energy hU (Or.inr ⟨rfl, rfl⟩) hs hc hR hsil (r := iE E L m varg kw) rfl hA hi hq hn

end PyroMat.Igt.Props
