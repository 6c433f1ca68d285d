import Mathlib.Tactic.NormNum
import Verif.Igt.Lemmas

/-!
# Mixture strings (C44)
-/

namespace PyroMat.Igt.Props

open PyroMat PyroMat.Igt PyroMat.Igt.Spec

theorem splitPlus_one (a : List Char) (h : '+' ∉ a) : splitPlus a = [a] := by
  induction a with
  | nil => rfl
  | cons c a ih =>
    have hc : c ≠ '+' := fun e => h (by simp [e])
    have ih' := ih (fun e => h (by simp [e]))
    rw [splitPlus]
    · rw [ih']
    · exact hc

theorem splitPlus_append (a b : List Char) (h : '+' ∉ a) :
    splitPlus (a ++ '+' :: b) = a :: splitPlus b := by
  induction a with
  | nil => rfl
  | cons c a ih =>
    have hc : c ≠ '+' := fun e => h (by simp [e])
    have ih' := ih (fun e => h (by simp [e]))
    rw [List.cons_append, splitPlus]
    · rw [ih']
    · exact hc

theorem splitPlus_join (as : List (List Char)) (hne : as ≠ []) (h : ∀ a ∈ as, '+' ∉ a) :
    splitPlus (joinPlus as) = as := by
  induction as with
  | nil => exact absurd rfl hne
  | cons a as ih =>
    cases as with
    | nil => exact splitPlus_one a (h a (by simp))
    | cons b bs =>
      rw [joinPlus, splitPlus_append a _ (h a (by simp)),
        ih (by simp) (fun x hx => h x (by simp [hx]))]
      simp

theorem dropWhile_all {α : Type} (p : α → Bool) (l r : List α) (h : ∀ c ∈ l, p c = true) :
    (l ++ r).dropWhile p = r.dropWhile p := by
  induction l with
  | nil => rfl
  | cons c l ih =>
    rw [List.cons_append, List.dropWhile_cons, if_pos (h c (by simp))]
    exact ih fun x hx => h x (by simp [hx])

theorem dropWhile_head {α : Type} (p : α → Bool) (c : α) (l : List α) (h : p c = false) :
    (c :: l).dropWhile p = c :: l := by
  rw [List.dropWhile_cons, if_neg (by simp [h])]

/-- Stripping removes blanks around a text that neither starts nor ends with a blank. -/
theorem strip_spec (ws : Char → Bool) (l n r : List Char) (hl : ∀ c ∈ l, ws c = true)
    (hr : ∀ c ∈ r, ws c = true) (hh : ∃ c, n.head? = some c ∧ ws c = false)
    (ht : ∃ c, n.getLast? = some c ∧ ws c = false) : strip ws (l ++ n ++ r) = n := by
  obtain ⟨c, hc, hcw⟩ := hh
  obtain ⟨d, hd, hdw⟩ := ht
  unfold strip
  rw [List.append_assoc, dropWhile_all ws l _ hl]
  have h1 : (n ++ r).dropWhile ws = n ++ r := by
    cases n with
    | nil => simp at hc
    | cons x xs =>
      simp only [List.head?_cons, Option.some.injEq] at hc
      subst hc
      exact dropWhile_head ws x _ hcw
  rw [h1, List.reverse_append, dropWhile_all ws r.reverse _ (by simpa using hr)]
  have h2 : n.reverse.dropWhile ws = n.reverse := by
    have : n.reverse.head? = some d := by rw [List.head?_reverse]; exact hd
    cases hn : n.reverse with
    | nil => rw [hn] at this; simp at this
    | cons x xs =>
      rw [hn] at this
      simp only [List.head?_cons, Option.some.injEq] at this
      subst this
      exact dropWhile_head ws x _ hdw
  rw [h2, List.reverse_reverse]

theorem strip_blank (ws : Char → Bool) (l : List Char) (hl : ∀ c ∈ l, ws c = true) :
    strip ws l = [] := by
  unfold strip
  have := dropWhile_all ws l [] hl
  rw [List.append_nil] at this
  rw [this]; rfl

theorem scan_found (alpha : Char → Bool) (pre : List Char) (c : Char) (rest : List Char)
    (hp : ∀ x ∈ pre, alpha x = false) (hc : alpha c = true) (ii : Option Nat) (k : Nat) :
    scan alpha ii (pre ++ c :: rest) k = some (k + pre.length) := by
  induction pre generalizing ii k with
  | nil => simp [scan, hc]
  | cons x pre ih =>
    rw [List.cons_append, scan, if_neg (by simp [hp x (by simp)]),
      ih (fun y hy => hp y (by simp [hy]))]
    simp; omega

theorem putKey_new (d : List (List Char × ℝ)) (k : List Char) (v : ℝ) (h : k ∉ d.map Prod.fst) :
    putKey d k v = d ++ [(k, v)] := by
  induction d with
  | nil => rfl
  | cons p d ih =>
    obtain ⟨j, w⟩ := p
    simp only [List.map_cons, List.mem_cons, not_or] at h
    rw [putKey, if_neg (fun e => h.1 e.symm), ih h.2]
    rfl

section
variable {ws alpha : Char → Bool} {toFloat : List Char → Option ℝ}

/-- One well-written fragment. -/
theorem fragment (hdisj : ∀ c, alpha c = true → ws c = false) (t : Term) (x : ℝ)
    (h : t.Writes ws alpha toFloat x) (rest : List (List Char)) (ii : Option Nat)
    (d : List (List Char × ℝ)) :
    ∃ k, parseLoop ws alpha toFloat (t.text :: rest) ii d =
      parseLoop ws alpha toFloat rest (some k) (putKey d t.name x) := by
  obtain ⟨c, cs, hn, hc⟩ := h.name
  have htext : t.text = t.pre ++ c :: (cs ++ t.post) := by
    unfold Term.text
    rw [hn]; simp
  have hscan : scan alpha ii t.text 0 = some t.pre.length := by
    rw [htext, scan_found alpha t.pre c _ (fun x hx => (h.pre x hx).1) hc, Nat.zero_add]
  have htake : t.text.take t.pre.length = t.pre := by rw [htext]; simp
  have hdrop : t.text.drop t.pre.length = [] ++ t.name ++ t.post := by
    rw [htext, hn]; simp
  have hname : strip ws (t.text.drop t.pre.length) = t.name := by
    rw [hdrop]
    refine strip_spec ws [] t.name t.post (by simp) (fun c hc => (h.post c hc).1)
      ⟨c, by rw [hn]; rfl, hdisj c hc⟩ ?_
    cases hl : t.name.getLast? with
    | none => rw [hn] at hl; simp at hl
    | some e => exact ⟨e, rfl, h.last e (by rw [hl]; rfl)⟩
  refine ⟨t.pre.length, ?_⟩
  rw [parseLoop, hscan]
  simp only [htake, hname]
  rcases h.value with ⟨hb, rfl⟩ | ⟨l, n, r, hpre, hl, hr, hh, ht, hf⟩
  · rw [strip_blank ws t.pre hb]
    simp
  · have hsn : strip ws t.pre = n := by rw [hpre]; exact strip_spec ws l n r hl hr hh ht
    have hne : n ≠ [] := by
      obtain ⟨c, hc, _⟩ := hh
      intro e
      rw [e] at hc; simp at hc
    rw [hsn, if_neg hne, hf]

/-- **C44, partial.** A string of terms joined by plus signs, each a quantity and a substance name
(or only a name, meaning 1), with distinct names, gives exactly those quantities in that order.
`alpha`, `ws` and `toFloat` are Python's letter test, white-space test and `float`.  Missing:
repeated names and quantities in exponent notation, see the disagreements below. -/
theorem C44_parse_partial (hdisj : ∀ c, alpha c = true → ws c = false)
    (ts : List (Term × ℝ)) (hne : ts ≠ []) (h : ∀ p ∈ ts, p.1.Writes ws alpha toFloat p.2)
    (hd : (ts.map (fun p => p.1.name)).Nodup) :
    parseMixstr ws alpha toFloat (joinPlus (ts.map (fun p => p.1.text))) =
      .ok (ts.map (fun p => (p.1.name, p.2))) := by
  have hplus : ∀ a ∈ ts.map (fun p => p.1.text), '+' ∉ a := by
    intro a ha
    obtain ⟨p, hp, rfl⟩ := List.mem_map.mp ha
    have hw := h p hp
    unfold Term.text
    intro hm
    rcases List.mem_append.mp hm with hm | hm
    · rcases List.mem_append.mp hm with hm | hm
      · exact (hw.pre _ hm).2 rfl
      · exact hw.plus hm
    · exact (hw.post _ hm).2 rfl
  unfold parseMixstr
  rw [splitPlus_join _ (by simpa using hne) hplus]
  have key : ∀ (ts : List (Term × ℝ)) (ii : Option Nat) (d : List (List Char × ℝ)),
      (∀ p ∈ ts, p.1.Writes ws alpha toFloat p.2) →
      (d.map Prod.fst ++ ts.map (fun p => p.1.name)).Nodup →
      parseLoop ws alpha toFloat (ts.map (fun p => p.1.text)) ii d =
        .ok (d ++ ts.map (fun p => (p.1.name, p.2))) := by
    intro ts
    induction ts with
    | nil => intro ii d _ _; simp [parseLoop]
    | cons p ts ih =>
      intro ii d hw hn
      rw [List.map_cons]
      obtain ⟨k, hk⟩ := fragment (toFloat := toFloat) hdisj p.1 p.2 (hw p (by simp))
        (ts.map (fun p => p.1.text)) ii d
      rw [hk]
      have hnew : p.1.name ∉ d.map Prod.fst := by
        intro hm
        rw [List.nodup_append] at hn
        exact hn.2.2 _ hm p.1.name (by simp) rfl
      rw [putKey_new d _ _ hnew, ih _ _ (fun q hq => hw q (by simp [hq])) (by
        simpa [List.append_assoc] using hn)]
      simp
  exact key ts none [] h (by simpa using hd)

/-- **C44.** A quantity that is not a number is reported. -/
theorem C44_bad_quantity (t : Term) (hpre : ∀ c ∈ t.pre, alpha c = false ∧ c ≠ '+')
    (hname : ∃ c cs, t.name = c :: cs ∧ alpha c = true) (hplus : '+' ∉ t.name)
    (hpost : '+' ∉ t.post)
    (l n r : List Char) (hp : t.pre = l ++ n ++ r) (hl : ∀ c ∈ l, ws c = true)
    (hr : ∀ c ∈ r, ws c = true) (hh : ∃ c, n.head? = some c ∧ ws c = false)
    (ht : ∃ c, n.getLast? = some c ∧ ws c = false) (hf : toFloat n = none) (rest : List Char) :
    parseMixstr ws alpha toFloat (t.text ++ '+' :: rest) = .error .param ∧
    parseMixstr ws alpha toFloat t.text = .error .param := by
  obtain ⟨c, cs, hn, hc⟩ := hname
  have hno : '+' ∉ t.text := by
    unfold Term.text
    intro hm
    rcases List.mem_append.mp hm with hm | hm
    · rcases List.mem_append.mp hm with hm | hm
      · exact (hpre _ hm).2 rfl
      · exact hplus hm
    · exact hpost hm
  have htext : t.text = t.pre ++ c :: (cs ++ t.post) := by
    unfold Term.text
    rw [hn]; simp
  have hscan : scan alpha none t.text 0 = some t.pre.length := by
    rw [htext, scan_found alpha t.pre c _ (fun x hx => (hpre x hx).1) hc, Nat.zero_add]
  have htake : t.text.take t.pre.length = t.pre := by rw [htext]; simp
  have hsn : strip ws t.pre = n := by rw [hp]; exact strip_spec ws l n r hl hr hh ht
  have hne : n ≠ [] := by
    obtain ⟨c, hc, _⟩ := hh
    intro e
    rw [e] at hc; simp at hc
  have step : ∀ parts, parseLoop ws alpha toFloat (t.text :: parts) none [] = .error .param := by
    intro parts
    rw [parseLoop, hscan]
    simp only [htake, hsn, if_neg hne, hf]
  unfold parseMixstr
  rw [splitPlus_append _ _ hno, splitPlus_one _ hno]
  exact ⟨step _, step _⟩

end

/-! ## Disagreements -/

/-- **C44 disagreement.** A substance named twice keeps only the last quantity:
`'2 N2 + 3 N2'` gives 3, not 5 (`igtools.py:35`).  Stated for any letter and white-space tests and
any `float` that accepts these texts. -/
theorem C44_repeated_name_defect (ws alpha : Char → Bool) (toFloat : List Char → Option ℝ)
    (h1 : alpha '2' = false) (h2 : alpha '3' = false) (h3 : alpha 'N' = true)
    (w1 : ws '2' = false) (w2 : ws '3' = false) (w3 : ws 'N' = false)
    (f2 : toFloat ['2'] = some 2) (f3 : toFloat ['3'] = some 3) :
    parseMixstr ws alpha toFloat ['2', 'N', '2', '+', '3', 'N', '2'] = .ok [(['N', '2'], 3)] := by
  simp [parseMixstr, splitPlus, parseLoop, scan, h1, h2, h3, strip, w1, w2, w3, f2, f3, putKey]

/-- **C44 disagreement.** A quantity in exponent notation is cut at the letter: `'1e3N2'` gives
quantity 1 of a substance called `e3N2` (`igtools.py:25-34`). -/
theorem C44_exponent_defect (ws alpha : Char → Bool) (toFloat : List Char → Option ℝ)
    (h1 : alpha '1' = false) (h2 : alpha 'e' = true) (w1 : ws '1' = false) (w2 : ws '2' = false)
    (w3 : ws 'e' = false) (f1 : toFloat ['1'] = some 1) :
    parseMixstr ws alpha toFloat ['1', 'e', '3', 'N', '2'] = .ok [(['e', '3', 'N', '2'], 1)] := by
  simp [parseMixstr, splitPlus, parseLoop, scan, h1, h2, strip, w1, w2, w3, f1, putKey]

/-- **C44 disagreement.** The empty string is not reported as a bad mixture string: the loop
variable is unset and Python raises `UnboundLocalError` (`igtools.py:25-28`). -/
theorem C44_empty_defect (ws alpha : Char → Bool) (toFloat : List Char → Option ℝ) :
    parseMixstr ws alpha toFloat [] = .error .unboundLocal := rfl

/-! ## A concrete case -/

/-- `'2.5 N2 + O2'` meets the hypotheses. -/
example : ∃ (ws alpha : Char → Bool) (toFloat : List Char → Option ℝ),
    (∀ c, alpha c = true → ws c = false) ∧
    parseMixstr ws alpha toFloat "2.5 N2 + O2".toList =
      .ok [("N2".toList, 2.5), ("O2".toList, 1)] := by
  refine ⟨fun c => c == ' ', fun c => c == 'N' || c == 'O',
    fun s => if s = "2.5".toList then some 2.5 else none, ?_, ?_⟩
  · intro c hc
    simp only [Bool.or_eq_true, beq_iff_eq] at hc
    rcases hc with rfl | rfl <;> rfl
  · have := C44_parse_partial (ws := fun c => c == ' ') (alpha := fun c => c == 'N' || c == 'O')
      (toFloat := fun s => if s = "2.5".toList then some 2.5 else none)
      (by
        intro c hc
        simp only [Bool.or_eq_true, beq_iff_eq] at hc
        rcases hc with rfl | rfl <;> rfl)
      [(⟨['2', '.', '5', ' '], ['N', '2'], [' ']⟩, 2.5), (⟨[' '], ['O', '2'], []⟩, 1)]
      (by simp) (by
        intro p hp
        simp only [List.mem_cons, List.not_mem_nil, or_false] at hp
        rcases hp with rfl | rfl
        · refine ⟨by simp, ⟨'N', ['2'], rfl, rfl⟩, by simp, by simp, by simp, Or.inr
            ⟨[], ['2', '.', '5'], [' '], rfl, by simp, by simp, ⟨'2', rfl, rfl⟩, ⟨'5', rfl, rfl⟩, ?_⟩⟩
          simp
        · refine ⟨by simp, ⟨'O', ['2'], rfl, rfl⟩, by simp, by simp, by simp, Or.inl ⟨by simp, rfl⟩⟩)
      (by simp)
    exact this

end PyroMat.Igt.Props
