import Verif.Gas.PropsRange
import Verif.Gas.PropsNewton

/-!
# Calls with an enthalpy or internal energy that settle
-/

set_option linter.unusedSimpArgs false

namespace PyroMat.Gas.Props

open PyroMat PyroMat.Units PyroMat.Units.Spec PyroMat.Units.Props PyroMat.Gas PyroMat.Gas.Spec

/-- Arrays settle when their elements do. -/
theorem iter1_all {f : ℝ → Option (ℝ × ℝ)} {x0 lo hi : ℝ} (ys : List ℝ)
    (h : ∀ y ∈ ys, ∃ t, iter1 [(f, y)] x0 lo hi = .ok ([some t], false) ∧ lo ≤ t ∧ t ≤ hi) :
    ∃ ts : List ℝ, iter1 (ys.map fun y => (f, y)) x0 lo hi = .ok (ts.map some, false) ∧ ts.length = ys.length ∧
      ∀ t ∈ ts, lo ≤ t ∧ t ≤ hi := by
  have one : ∀ y ∈ ys, ∃ t e, single 1e-6 lo hi 20 20 ⟨f, y, some x0, true⟩ = .ok (e, false) ∧ e.x = some t ∧
      lo ≤ t ∧ t ≤ hi := by
    intro y hy
    obtain ⟨t, ht, h1, h2⟩ := h y hy
    unfold iter1 at ht
    rw [iterLoop_eq] at ht
    cases hs : single 1e-6 lo hi 20 20 ⟨f, y, some x0, true⟩ with
    | error e => simp [hs, exErr, Except.map] at ht
    | ok r =>
      simp only [List.map_cons, List.map_nil, List.mapM_cons, List.mapM_nil, hs, exOk, pure, Except.pure, Except.map,
        List.any_cons, List.any_nil, Bool.or_false, Except.ok.injEq, Prod.mk.injEq, List.cons.injEq, and_true] at ht
      exact ⟨t, r.1, by rw [← ht.2], ht.1, h1, h2⟩
  have all : ∃ rs : List (El × Bool), (ys.map fun y => (⟨f, y, some x0, true⟩ : El)).mapM (single 1e-6 lo hi 20 20) = .ok rs ∧
      rs.any (·.2) = false ∧ ∃ ts : List ℝ, rs.map (·.1.x) = ts.map some ∧ ts.length = ys.length ∧ ∀ t ∈ ts, lo ≤ t ∧ t ≤ hi := by
    clear h
    induction ys with
    | nil => exact ⟨[], rfl, rfl, [], rfl, rfl, by simp⟩
    | cons y ys ih =>
      obtain ⟨rs, h1, h2, ts, h3, h4, h5⟩ := ih (fun z hz => one z (List.mem_cons_of_mem _ hz))
      obtain ⟨t, e, g1, g2, g3, g4⟩ := one y (by simp)
      refine ⟨(e, false) :: rs, ?_, by simpa using h2, t :: ts, ?_, by simp [h4], ?_⟩
      · rw [List.map_cons, List.mapM_cons, g1, exOk, h1]; rfl
      · simp only [List.map_cons, g2, h3]
      · intro z hz
        rcases List.mem_cons.mp hz with rfl | hz
        · exact ⟨g3, g4⟩
        · exact h5 z hz
  obtain ⟨rs, h1, h2, ts, h3, h4, h5⟩ := all
  refine ⟨ts, ?_, h4, h5⟩
  unfold iter1
  rw [iterLoop_eq, List.map_map]
  have : ((fun q : (ℝ → Option (ℝ × ℝ)) × ℝ => (⟨q.1, q.2, some x0, true⟩ : El)) ∘ fun y => (f, y))
      = fun y => (⟨f, y, some x0, true⟩ : El) := rfl
  rw [this, h1]
  simp only [Except.map, exOk, List.map_map, h2]
  rw [← h3]
  rfl

/-- Lists of the same length, or one of them of length 1, can be broadcast. -/
theorem broadcast_some {α β : Type} {xs : List α} {ys : List β}
    (h : xs.length = ys.length ∨ xs.length = 1 ∨ ys.length = 1) :
    ∃ r, broadcast xs ys = .ok r ∧ (∀ x ∈ r.1, x ∈ xs) ∧ (∀ y ∈ r.2, y ∈ ys) ∧
      (xs ≠ [] → ys ≠ [] → r.1.length = max xs.length ys.length ∧ r.2.length = max xs.length ys.length) := by
  unfold broadcast
  by_cases he : xs.length = ys.length
  · rw [if_pos he]
    exact ⟨_, rfl, by simp, by simp, fun a b => by simp [he]⟩
  · rw [if_neg he]
    rcases h with h | h | h
    · exact absurd h he
    · obtain ⟨x, rfl⟩ := List.length_eq_one_iff.mp h
      refine ⟨_, rfl, fun y hy => by simpa using (List.mem_replicate.mp hy).2, by simp, ?_⟩
      intro _ hy
      have := List.length_pos_iff.mpr hy
      refine ⟨?_, ?_⟩ <;> simp <;> omega
    · obtain ⟨y, rfl⟩ := List.length_eq_one_iff.mp h
      match xs, he with
      | [], _ => exact ⟨_, rfl, by simp, by simp, fun a => absurd rfl a⟩
      | [x], he => simp at he
      | x :: x' :: xs, _ =>
        refine ⟨_, rfl, by simp, fun z hz => by simpa using (List.mem_replicate.mp hz).2, ?_⟩
        intro _ _
        refine ⟨?_, ?_⟩ <;> simp

/-- A call with an enthalpy or internal energy whose inversion gives temperatures within the limits succeeds. -/
theorem settled_ok {E : Env} {S : Sys} (hU : Uses E S) {G : Gas} (hmw : G.mw ≠ 0) {varg : List (Val ℝ)} {kw : Kw}
    {a b : String} {va vb : Val ℝ} (ha : a = "h" ∨ a = "e") (h : Supplies varg kw a va b vb) (ts : List ℝ)
    (hT : tempOf G (stdOf E S G.mw [(a, va), (b, vb)]) = .ok (some ⟨ts.map some, false, false⟩))
    (hr : ∀ t ∈ ts, G.Tlo ≤ t ∧ t ≤ G.Thi)
    (hlen : ts.length = (Val.elems vb).length ∨ ts.length = 1 ∨ (Val.elems vb).length = 1)
    (hts : ts ≠ []) (hvb : Val.elems vb ≠ []) :
    ∃ st, argparse E G varg kw = .ok st ∧ st.T.length = max ts.length (Val.elems vb).length := by
  rw [argparse_pair hU hmw h]
  unfold pre
  rw [hT, exOk]
  have hne : a ≠ b := by simpa using h.ok.distinct
  obtain ⟨s1, s2, s3⟩ := stdArg_of E S G.mw va vb hne
  have fin : ∀ st : State, (∀ T ∈ st.T, T ∈ ts.map some) → st.T.length = max ts.length (Val.elems vb).length →
      ∃ st', rangeTest G st = .ok st' ∧ st'.T.length = max ts.length (Val.elems vb).length := by
    intro st h1 h3
    have h2 : st.T ≠ [] := by
      have := List.length_pos_iff.mpr hts
      rw [← List.length_pos_iff]
      omega
    have hno : ∀ T ∈ st.T, oob G T = false := by
      intro T hTm
      obtain ⟨t, ht, rfl⟩ := List.mem_map.mp (h1 T hTm)
      obtain ⟨r1, r2⟩ := hr t ht
      simp only [oob, decide_eq_false_iff_not, not_or, not_lt, gt_iff_lt]
      exact ⟨r1, r2⟩
    unfold rangeTest
    rw [if_neg, if_neg]
    · exact ⟨_, rfl, h3⟩
    · intro hc
      obtain ⟨T, hTm, hTo⟩ := List.any_eq_true.mp hc
      rw [hno T hTm] at hTo; cases hTo
    · intro hc
      obtain ⟨T, l, hl⟩ := List.exists_cons_of_ne_nil h2
      have hm : T ∈ st.T := by rw [hl]; simp
      have := List.all_eq_true.mp hc T hm
      rw [hno T hm] at this; cases this
  have hbk := h.ok.known b (by simp)
  have hbTeh : b ∉ ["T", "e", "h"] := by
    intro hc
    rcases ha with rfl | rfl
    · exact hne (h.ok.one_of_Teh "h" (by simp) b (by simp) (by simp) hc)
    · exact hne (h.ok.one_of_Teh "e" (by simp) b (by simp) (by simp) hc)
  have na : ∀ n, n ≠ a → n ≠ b → stdArg E S G.mw [(a, va), (b, vb)] n = none := s3
  have nb : b = "p" ∨ b = "d" ∨ b = "v" ∨ b = "s" := by
    simp only [List.mem_cons, List.not_mem_nil, or_false] at hbk hbTeh
    tauto
  have an : ∀ n, n ∈ ["p", "d", "v", "s"] → n ≠ a := by
    intro n hn hc
    subst hc
    rcases ha with rfl | rfl <;> simp at hn
  have key : ∀ n, n ∈ ["p", "d", "v", "s"] → n ≠ b → stdArg E S G.mw [(a, va), (b, vb)] n = none :=
    fun n hn hb => na n (an n hn) hb
  have hlen' : (ts.map some).length = (Val.elems vb).length ∨ (ts.map some).length = 1 ∨ (Val.elems vb).length = 1 := by
    simpa using hlen
  have hts' : ts.map some ≠ [] := by simpa using hts
  rcases nb with rfl | rfl | rfl | rfl
  · have e1 : (stdOf E S G.mw [(a, va), ("p", vb)]).s = none := key "s" (by simp) (by simp)
    have e2 : (stdOf E S G.mw [(a, va), ("p", vb)]).d = none := key "d" (by simp) (by simp)
    have e3 : (stdOf E S G.mw [(a, va), ("p", vb)]).v = none := key "v" (by simp) (by simp)
    have e4 : (stdOf E S G.mw [(a, va), ("p", vb)]).p = _ := s2
    unfold solve densityOf
    rw [e1, e2, e3, e4]
    dsimp only
    obtain ⟨r, hr1, hr2, -, hr4⟩ := broadcast_some (xs := ts.map some)
      (ys := (Val.elems vb).map (internal E.a S G.mw (kindOf "p"))) (by simpa using hlen)
    rw [hr1, exOk, exOk]
    exact fin _ hr2 (by simpa using (hr4 hts' (by simpa using hvb)).1)
  · have e1 : (stdOf E S G.mw [(a, va), ("d", vb)]).s = none := key "s" (by simp) (by simp)
    have e2 : (stdOf E S G.mw [(a, va), ("d", vb)]).p = none := key "p" (by simp) (by simp)
    have e3 : (stdOf E S G.mw [(a, va), ("d", vb)]).v = none := key "v" (by simp) (by simp)
    have e4 : (stdOf E S G.mw [(a, va), ("d", vb)]).d = _ := s2
    unfold solve densityOf
    rw [e1, e2, e3, e4]
    dsimp only
    obtain ⟨r, hr1, hr2, -, hr4⟩ := broadcast_some (xs := ts.map some)
      (ys := (Val.elems vb).map (internal E.a S G.mw (kindOf "d"))) (by simpa using hlen)
    rw [hr1, exOk, exOk]
    exact fin _ hr2 (by simpa using (hr4 hts' (by simpa using hvb)).1)
  · have e1 : (stdOf E S G.mw [(a, va), ("v", vb)]).s = none := key "s" (by simp) (by simp)
    have e2 : (stdOf E S G.mw [(a, va), ("v", vb)]).p = none := key "p" (by simp) (by simp)
    have e4 : (stdOf E S G.mw [(a, va), ("v", vb)]).v = _ := s2
    unfold solve densityOf
    rw [e1, e2, e4]
    dsimp only
    obtain ⟨r, hr1, hr2, -, hr4⟩ := broadcast_some (xs := ts.map some)
      (ys := ((Val.elems vb).map (internal E.a S G.mw (kindOf "v"))).map (fun x => 1 / x)) (by simpa using hlen)
    rw [hr1, exOk, exOk]
    exact fin _ hr2 (by simpa using (hr4 hts' (by simpa using hvb)).1)
  · have e1 : (stdOf E S G.mw [(a, va), ("s", vb)]).p = none := key "p" (by simp) (by simp)
    have e2 : (stdOf E S G.mw [(a, va), ("s", vb)]).d = none := key "d" (by simp) (by simp)
    have e3 : (stdOf E S G.mw [(a, va), ("s", vb)]).v = none := key "v" (by simp) (by simp)
    have e4 : (stdOf E S G.mw [(a, va), ("s", vb)]).s = _ := s2
    unfold solve densityOf
    rw [e1, e2, e3, e4]
    dsimp only
    obtain ⟨r, hr1, -, hr2, hr4⟩ := broadcast_some (ys := ts.map some)
      (xs := (Val.elems vb).map (internal E.a S G.mw (kindOf "s"))) (by
        rcases hlen with g | g | g
        · left; simpa using g.symm
        · right; right; simpa using g
        · right; left; simpa using g)
    rw [hr1, exOk, exOk]
    exact fin _ hr2 (by simpa [max_comm] using (hr4 (by simpa using hvb) hts').2)

end PyroMat.Gas.Props
