import Verif.Text.Spec

/-! # C19: message wrapping -/

set_option linter.unusedSimpArgs false

namespace PyroMat.Text.Props

open PyroMat.Text PyroMat.Text.Spec

theorem ink_append (ws : Char → Bool) (a b : List Char) : ink ws (a ++ b) = ink ws a ++ ink ws b := by
  simp [ink]

theorem words_flatten (ws : Char → Bool) (l cur : List Char) (hc : ∀ c ∈ cur, ws c = false) :
    (wordsFrom ws cur l).flatten = cur ++ ink ws l := by
  induction l generalizing cur with
  | nil => unfold wordsFrom; split <;> simp_all [ink]
  | cons c l ih =>
    unfold wordsFrom
    by_cases h : ws c = true
    · simp only [h, if_true]
      split
      · rename_i h0; subst h0
        rw [ih [] (by simp)]; simp [ink, h]
      · rw [List.flatten_cons, ih [] (by simp)]; simp [ink, h]
    · have h' : ws c = false := by simpa using h
      simp only [h', Bool.false_eq_true, if_false]
      rw [ih (cur ++ [c]) (by
        intro d hd
        rcases List.mem_append.mp hd with hd | hd
        · exact hc d hd
        · simp at hd; subst hd; exact h')]
      simp [ink, h']

theorem words_ink (ws : Char → Bool) (l : List Char) : (words ws l).flatten = ink ws l := by
  simp [words, words_flatten]

theorem wordsFrom_good (ws : Char → Bool) (l cur : List Char) (hc : ∀ c ∈ cur, ws c = false) :
    ∀ w ∈ wordsFrom ws cur l, w ≠ [] ∧ ∀ c ∈ w, ws c = false := by
  induction l generalizing cur with
  | nil =>
    unfold wordsFrom
    split
    · simp
    · intro w hw; simp at hw; subst hw; exact ⟨by assumption, hc⟩
  | cons c l ih =>
    unfold wordsFrom
    by_cases h : ws c = true
    · simp only [h, if_true]
      split
      · exact ih [] (by simp)
      · intro w hw
        rcases List.mem_cons.mp hw with rfl | hw
        · exact ⟨by assumption, hc⟩
        · exact ih [] (by simp) w hw
    · have h' : ws c = false := by simpa using h
      simp only [h', Bool.false_eq_true, if_false]
      exact ih (cur ++ [c]) (by
        intro d hd
        rcases List.mem_append.mp hd with hd | hd
        · exact hc d hd
        · simp at hd; subst hd; exact h')

theorem splitNN_ink (ws : Char → Bool) (hn : ws '\n' = true) (l : List Char) :
    ((splitNN l).map (ink ws)).flatten = ink ws l := by
  fun_induction splitNN l with
  | case1 => simp [ink]
  | case2 rest ih => simp [ih, ink, hn]
  | case3 c rest _ h ih =>
    rw [h] at ih; simp at ih
    simp [ink, List.filter_cons] at ih ⊢
    split <;> simp_all
  | case4 c rest _ p ps h ih =>
    rw [h] at ih
    simp only [List.map_cons, List.flatten_cons] at ih ⊢
    have : ink ws (c :: p) = ink ws [c] ++ ink ws p := by rw [← ink_append]; rfl
    rw [this, List.append_assoc, ih, ← ink_append]; rfl

theorem ink_self {ws : Char → Bool} {w : List Char} (h : ∀ c ∈ w, ws c = false) : ink ws w = w := by
  unfold ink; rw [List.filter_eq_self]; intro c hc; simp [h c hc]

/-- Loop invariant: `out` is finished lines followed by an open line `k` leads + payload. -/
structure Inv (ws : Char → Bool) (lead tail : List Char) (nmax : Nat) (out : List Char)
    (nline : Nat) (seen : List Char) (done : List Line) (cur : Line) : Prop where
  out_eq : out = render lead tail done ++ (List.replicate cur.leads lead).flatten ++ cur.payload
  nline_eq : nline = cur.payload.length
  cur_le : cur.payload.length ≤ nmax
  leads_le : cur.leads ≤ 1 ∨ (cur.payload ≠ [] ∧ cur.leads ≤ 2)
  done_ok : ∀ l ∈ done, l.leads ≤ 2 ∧ l.payload.length ≤ nmax
  ink_eq : (done.map (fun l => ink ws l.payload)).flatten ++ ink ws cur.payload = seen

theorem render_snoc (lead tail : List Char) (ls : List Line) (l : Line) :
    render lead tail (ls ++ [l]) = render lead tail ls ++ l.chars lead tail := by
  simp [render]

theorem chop_inv {ws lead tail nmax} (hpos : 0 < nmax) (out : List Char) (nline : Nat)
    (word : List Char) (hw : ∀ c ∈ word, ws c = false) (hne : word ≠ []) (seen : List Char)
    (done : List Line) (cur : Line)
    (hi : Inv ws lead tail nmax out nline seen done cur) :
    ∃ pre done' cur', Inv ws lead tail nmax (chop lead (tail ++ ['\n']) nmax out nline word).1
        (chop lead (tail ++ ['\n']) nmax out nline word).2.1 (seen ++ pre) done' cur' ∧
      word = pre ++ (chop lead (tail ++ ['\n']) nmax out nline word).2.2 ∧
      (chop lead (tail ++ ['\n']) nmax out nline word).2.2.length ≤ nmax ∧
      (chop lead (tail ++ ['\n']) nmax out nline word).2.2 ≠ [] := by
  fun_induction chop lead (tail ++ ['\n']) nmax out nline word generalizing seen done cur with
  | case2 out nline word h =>
    refine ⟨[], done, cur, by simpa using hi, by simp, by simp only; omega, hne⟩
  | case1 out nline word h ih =>
    have htl : (word.take nmax).length = nmax := by rw [List.length_take]; omega
    have hdne : word.drop nmax ≠ [] := by
      intro he
      have := congrArg List.length he
      simp at this; omega
    have hink : ink ws (word.take nmax) = word.take nmax :=
      ink_self (fun c hc => hw c (List.mem_of_mem_take hc))
    by_cases hn : nline > 0
    · simp only [hn, dite_true, if_true] at ih ⊢
      obtain ⟨pre, d', c', h1, h2, h3, h4⟩ := ih (fun c hc => hw c (List.mem_of_mem_drop hc)) hdne
        (seen ++ word.take nmax) (done ++ [cur] ++ [⟨1, word.take nmax⟩]) ⟨1, []⟩
        { out_eq := by
            rw [hi.out_eq, render_snoc, render_snoc]
            simp [Line.chars]
          nline_eq := rfl
          cur_le := by simp
          leads_le := Or.inl (Nat.le_refl _)
          done_ok := by
            intro l hl
            simp only [List.mem_append, List.mem_singleton] at hl
            rcases hl with (hl | rfl) | rfl
            · exact hi.done_ok l hl
            · exact ⟨by rcases hi.leads_le with h | h <;> omega, hi.cur_le⟩
            · exact ⟨by simp, by simp [htl]⟩
          ink_eq := by
            simp only [List.map_append, List.flatten_append, List.map_cons, List.map_nil,
              List.flatten_cons, List.flatten_nil, List.append_nil, hink]
            rw [← hi.ink_eq]; simp [ink] }
      refine ⟨word.take nmax ++ pre, d', c', by simpa only [List.append_assoc] using h1, ?_, h3, h4⟩
      rw [List.append_assoc, ← h2, List.take_append_drop]
    · simp only [hn, dite_false, if_false] at ih ⊢
      have hcp : cur.payload = [] := by
        have := hi.nline_eq
        exact List.eq_nil_of_length_eq_zero (by omega)
      have hcl : cur.leads ≤ 1 := by
        rcases hi.leads_le with h | h
        · exact h
        · exact absurd hcp h.1
      obtain ⟨pre, d', c', h1, h2, h3, h4⟩ := ih (fun c hc => hw c (List.mem_of_mem_drop hc)) hdne
        (seen ++ word.take nmax) (done ++ [⟨cur.leads + 1, word.take nmax⟩]) ⟨1, []⟩
        { out_eq := by
            rw [hi.out_eq, render_snoc]
            simp [Line.chars, hcp, List.replicate_succ', List.flatten_append]
          nline_eq := rfl
          cur_le := by simp
          leads_le := Or.inl (Nat.le_refl _)
          done_ok := by
            intro l hl
            simp only [List.mem_append, List.mem_singleton] at hl
            rcases hl with hl | rfl
            · exact hi.done_ok l hl
            · exact ⟨by simp; omega, by simp [htl]⟩
          ink_eq := by
            simp only [List.map_append, List.flatten_append, List.map_cons, List.map_nil,
              List.flatten_cons, List.flatten_nil, List.append_nil, hink]
            rw [← hi.ink_eq, hcp]; simp [ink] }
      refine ⟨word.take nmax ++ pre, d', c', by simpa only [List.append_assoc] using h1, ?_, h3, h4⟩
      rw [List.append_assoc, ← h2, List.take_append_drop]

theorem putWord_inv {ws lead tail nmax} (hsp : ws ' ' = true) (hpos : 0 < nmax) (st : List Char × Nat)
    (word : List Char) (hw : ∀ c ∈ word, ws c = false) (hne : word ≠ []) (seen : List Char)
    (done : List Line) (cur : Line)
    (hi : Inv ws lead tail nmax st.1 st.2 seen done cur) :
    ∃ done' cur', Inv ws lead tail nmax (putWord lead (tail ++ ['\n']) nmax st word).1
        (putWord lead (tail ++ ['\n']) nmax st word).2 (seen ++ word) done' cur' := by
  obtain ⟨pre, d, c, h1, h2, h3, h4⟩ := chop_inv hpos st.1 st.2 word hw hne seen done cur hi
  unfold putWord
  generalize chop lead (tail ++ ['\n']) nmax st.1 st.2 word = r at h1 h2 h3 h4
  obtain ⟨out, nline, w⟩ := r
  simp only at h1 h2 h3 h4 ⊢
  have hww : ∀ x ∈ w, ws x = false := fun x hx => hw x (by rw [h2]; simp [hx])
  split
  · refine ⟨d ++ [c], ⟨1, w⟩, ?_⟩
    exact
      { out_eq := by rw [h1.out_eq, render_snoc]; simp [Line.chars]
        nline_eq := rfl
        cur_le := h3
        leads_le := Or.inl (Nat.le_refl _)
        done_ok := by
          intro l hl
          rcases List.mem_append.mp hl with hl | hl
          · exact h1.done_ok l hl
          · simp at hl; subst hl
            exact ⟨by rcases h1.leads_le with h | h <;> omega, h1.cur_le⟩
        ink_eq := by
          simp only [List.map_append, List.flatten_append, List.map_cons, List.map_nil,
              List.flatten_cons, List.flatten_nil, List.append_nil, ink_self hww]
          rw [h1.ink_eq, List.append_assoc, ← h2] }
  · split
    · rename_i hn0
      have hcp : c.payload = [] := List.eq_nil_of_length_eq_zero (by rw [← h1.nline_eq]; exact hn0)
      have hcl : c.leads ≤ 1 := by
        rcases h1.leads_le with h | h
        · exact h
        · exact absurd hcp h.1
      refine ⟨d, ⟨c.leads, w⟩, ?_⟩
      exact
        { out_eq := by rw [h1.out_eq, hcp]; simp
          nline_eq := rfl
          cur_le := h3
          leads_le := Or.inl hcl
          done_ok := h1.done_ok
          ink_eq := by
            have := h1.ink_eq
            rw [hcp] at this
            simp only [ink, List.filter_nil, List.append_nil] at this
            simp only [ink_self hww]
            rw [show (d.map fun l => ink ws l.payload).flatten = seen ++ pre from this,
              List.append_assoc, ← h2] }
    · rename_i hle hn0
      refine ⟨d, ⟨c.leads, c.payload ++ ' ' :: w⟩, ?_⟩
      exact
        { out_eq := by rw [h1.out_eq]; simp
          nline_eq := by simp [h1.nline_eq]; omega
          cur_le := by
            have := h1.nline_eq
            simp only [List.length_append, List.length_cons]; omega
          leads_le := by
            rcases h1.leads_le with h | h
            · exact Or.inl h
            · exact Or.inr ⟨by simp, h.2⟩
          done_ok := h1.done_ok
          ink_eq := by
            have h5 : ink ws (' ' :: w) = w := by
              rw [show ' ' :: w = [' '] ++ w from rfl, ink_append, ink_self hww]; simp [ink, hsp]
            rw [ink_append, h5, ← List.append_assoc, h1.ink_eq, List.append_assoc, ← h2] }

theorem foldWords_inv {ws lead tail nmax} (hsp : ws ' ' = true) (hpos : 0 < nmax)
    (l : List (List Char)) (hl : ∀ w ∈ l, w ≠ [] ∧ ∀ c ∈ w, ws c = false) :
    ∀ (st : List Char × Nat) (seen : List Char) (done : List Line) (cur : Line),
      Inv ws lead tail nmax st.1 st.2 seen done cur →
      ∃ done' cur', Inv ws lead tail nmax (l.foldl (putWord lead (tail ++ ['\n']) nmax) st).1
        (l.foldl (putWord lead (tail ++ ['\n']) nmax) st).2 (seen ++ l.flatten) done' cur' := by
  induction l with
  | nil => intro st seen done cur hi; exact ⟨done, cur, by simpa using hi⟩
  | cons w l ih =>
    intro st seen done cur hi
    obtain ⟨d, c, h⟩ := putWord_inv hsp hpos st w (hl w (by simp)).2 (hl w (by simp)).1 seen done
      cur hi
    obtain ⟨d', c', h'⟩ := ih (fun v hv => hl v (List.mem_cons_of_mem _ hv)) _ _ d c h
    exact ⟨d', c', by simpa [List.append_assoc] using h'⟩

theorem putPar_inv {ws lead tail nmax} (hsp : ws ' ' = true) (hpos : 0 < nmax) (par out : List Char)
    (seen : List Char) (done : List Line) (cur : Line)
    (hi : Inv ws lead tail nmax out 0 seen done cur) :
    ∃ done', Inv ws lead tail nmax (putPar ws lead (tail ++ ['\n']) nmax out par) 0
      (seen ++ ink ws par) done' ⟨0, []⟩ := by
  obtain ⟨d, c, h⟩ := foldWords_inv hsp hpos (words ws par)
    (wordsFrom_good ws par [] (by simp)) (out, 0) seen done cur hi
  rw [words_ink] at h
  refine ⟨d ++ [c], ?_⟩
  unfold putPar
  exact
    { out_eq := by rw [h.out_eq, render_snoc]; simp [Line.chars]
      nline_eq := rfl
      cur_le := by simp
      leads_le := Or.inl (by simp)
      done_ok := by
        intro l hl
        rcases List.mem_append.mp hl with hl | hl
        · exact h.done_ok l hl
        · simp at hl; subst hl
          exact ⟨by rcases h.leads_le with h | h <;> omega, h.cur_le⟩
      ink_eq := by
        rw [← h.ink_eq]; simp [ink] }

theorem foldPars_inv {ws lead tail nmax} (hsp : ws ' ' = true) (hpos : 0 < nmax)
    (pars : List (List Char)) :
    ∀ (out seen : List Char) (done : List Line) (cur : Line),
      Inv ws lead tail nmax out 0 seen done cur → pars ≠ [] →
      ∃ done', Inv ws lead tail nmax (pars.foldl (putPar ws lead (tail ++ ['\n']) nmax) out) 0
        (seen ++ (pars.map (ink ws)).flatten) done' ⟨0, []⟩ := by
  induction pars with
  | nil => intro _ _ _ _ _ h; exact absurd rfl h
  | cons p pars ih =>
    intro out seen done cur hi _
    obtain ⟨d, h⟩ := putPar_inv hsp hpos p out seen done cur hi
    by_cases hp : pars = []
    · subst hp
      exact ⟨d, by simpa using h⟩
    · obtain ⟨d', h'⟩ := ih _ _ d _ h hp
      exact ⟨d', by simpa [List.append_assoc] using h'⟩

/-- C19, the `-1` convention: exactly when lead and tail leave no room. -/
theorem C19_minus_one (ws : Char → Bool) (text lead tail : List Char) (width : Int) :
    splitLines ws text lead tail width = none ↔ width ≤ lead.length + tail.length := by
  unfold splitLines
  constructor
  · intro h
    split at h
    · omega
    · simp at h
  · intro h
    rw [if_pos (by omega)]

/-- C19 for every text (partial: at most two leads per line instead of exactly one, so a line
may exceed the width by one lead; the three defect theorems below show where).  When there is
room, the output is a sequence of complete lines, each with at most two leads, the tail, and a
payload that fits the remaining width; the non-blank characters of the payloads are exactly
those of the text, in order: nothing is lost, duplicated or reordered. -/
theorem C19_wrap_partial (ws : Char → Bool) (hsp : ws ' ' = true) (hnl : ws '\n' = true)
    (text lead tail : List Char) (width : Int) (hroom : lead.length + tail.length < width) :
    ∃ lines : List Line,
      splitLines ws text lead tail width = some (render lead tail lines) ∧
      (lines.map (fun l => ink ws l.payload)).flatten = ink ws text ∧
      ∀ l ∈ lines, l.leads ≤ 2 ∧ (l.payload.length : Int) + lead.length + tail.length ≤ width := by
  have hpos : 0 < (width - lead.length - tail.length).toNat := by omega
  have hne : splitNN text ≠ [] := by
    fun_cases splitNN text <;> simp
  obtain ⟨d, h⟩ := foldPars_inv (ws := ws) (lead := lead) (tail := tail) hsp hpos (splitNN text)
    lead [] [] ⟨1, []⟩
    { out_eq := by simp [render]
      nline_eq := rfl
      cur_le := by simp
      leads_le := Or.inl (Nat.le_refl _)
      done_ok := by simp
      ink_eq := by simp [ink] } hne
  refine ⟨d, ?_, ?_, ?_⟩
  · unfold splitLines
    rw [if_neg (by omega)]
    simp only
    rw [h.out_eq]; simp
  · have := h.ink_eq
    rw [splitNN_ink ws hnl] at this
    simpa [ink] using this
  · intro l hl
    have := h.done_ok l hl
    exact ⟨this.1, by omega⟩

/-- Python's ASCII whitespace, enough for the examples. -/
def pyWs (c : Char) : Bool := c = ' ' || c = '\n' || c = '\t' || c = '\r'

theorem spaced_snoc (l : List (List Char)) (w : List Char) (hl : l ≠ []) :
    spaced (l ++ [w]) = spaced l ++ ' ' :: w := by
  induction l with
  | nil => exact absurd rfl hl
  | cons a l ih =>
    cases l with
    | nil => rfl
    | cons b l =>
      have h1 : ∀ x y (z : List (List Char)), spaced (x :: y :: z) = x ++ ' ' :: spaced (y :: z) :=
        fun _ _ _ => rfl
      have h2 : (a :: b :: l ++ [w]) = a :: b :: (l ++ [w]) := rfl
      rw [h2, h1, h1]
      have := ih (by simp)
      rw [List.cons_append] at this
      rw [this]; simp

/-- Invariant for a single paragraph of words that fit. -/
theorem fit_inv {lead tail nmax} (l : List (List Char)) (hl : ∀ w ∈ l, w ≠ [] ∧ w.length ≤ nmax) :
    ∀ (done : List (List (List Char))) (cur : List (List Char)),
      (spaced cur).length ≤ nmax → (∀ w ∈ cur, w ≠ []) →
      (∀ ln ∈ done, (spaced ln).length ≤ nmax) →
      ∃ (done' : List (List (List Char))) (cur' : List (List Char)), l.foldl (putWord lead (tail ++ ['\n']) nmax)
          (render lead tail (done.map fun ln => ⟨1, spaced ln⟩) ++ lead ++ spaced cur,
            (spaced cur).length)
        = (render lead tail (done'.map fun ln => ⟨1, spaced ln⟩) ++ lead ++ spaced cur',
            (spaced cur').length) ∧
        done'.flatten ++ cur' = done.flatten ++ cur ++ l ∧ (spaced cur').length ≤ nmax ∧
        (∀ ln ∈ done', (spaced ln).length ≤ nmax) := by
  induction l with
  | nil => intro done cur h1 _ h2; exact ⟨done, cur, rfl, by simp, h1, h2⟩
  | cons w l ih =>
    intro done cur h1 h0 h2
    obtain ⟨hw, hwl⟩ := hl w (by simp)
    have hchop : ∀ (o : List Char) (n : Nat), chop lead (tail ++ ['\n']) nmax o n w = (o, n, w) := by
      intro o n
      rw [chop, dif_neg (by omega)]
    have hl' := fun v hv => hl v (List.mem_cons_of_mem _ hv)
    rw [List.foldl_cons]
    by_cases hfit : (spaced cur).length + 1 + w.length > nmax
    · have hstep : putWord lead (tail ++ ['\n']) nmax
          (render lead tail (done.map fun ln => ⟨1, spaced ln⟩) ++ lead ++ spaced cur,
            (spaced cur).length) w
          = (render lead tail ((done ++ [cur]).map fun ln => ⟨1, spaced ln⟩) ++ lead ++ spaced [w],
            (spaced [w]).length) := by
        simp only [putWord, hchop, hfit, if_true, List.map_append, List.map_cons, List.map_nil,
          render_snoc, spaced]
        simp [Line.chars]
      rw [hstep]
      obtain ⟨d', c', e1, e2, e3, e4⟩ := ih hl' (done ++ [cur]) [w] (by simpa [spaced] using hwl)
        (by simp [hw]) (by
          intro ln hln
          rcases List.mem_append.mp hln with h | h
          · exact h2 ln h
          · simp at h; subst h; exact h1)
      exact ⟨d', c', e1, by rw [e2]; simp, e3, e4⟩
    · by_cases hc : cur = []
      · subst hc
        have hstep : putWord lead (tail ++ ['\n']) nmax
            (render lead tail (done.map fun ln => ⟨1, spaced ln⟩) ++ lead ++ spaced [],
              (spaced []).length) w
            = (render lead tail (done.map fun ln => ⟨1, spaced ln⟩) ++ lead ++ spaced [w],
              (spaced [w]).length) := by
          simp only [spaced, List.length_nil] at hfit ⊢
          simp only [putWord, hchop, hfit, if_false, if_true]
          simp
        rw [hstep]
        obtain ⟨d', c', e1, e2, e3, e4⟩ := ih hl' done [w] (by simpa [spaced] using hwl)
          (by simp [hw]) h2
        exact ⟨d', c', e1, by rw [e2]; simp, e3, e4⟩
      · have hn0 : (spaced cur).length ≠ 0 := by
          cases cur with
          | nil => exact absurd rfl hc
          | cons a t =>
            have ha := h0 a (by simp)
            cases t with
            | nil => simp [spaced, ha]
            | cons b t => simp [spaced, ha]
        have hstep : putWord lead (tail ++ ['\n']) nmax
            (render lead tail (done.map fun ln => ⟨1, spaced ln⟩) ++ lead ++ spaced cur,
              (spaced cur).length) w
            = (render lead tail (done.map fun ln => ⟨1, spaced ln⟩) ++ lead ++ spaced (cur ++ [w]),
              (spaced (cur ++ [w])).length) := by
          simp only [putWord, hchop, hfit, hn0, if_false, spaced_snoc cur w hc]
          simp
          omega
        rw [hstep]
        obtain ⟨d', c', e1, e2, e3, e4⟩ := ih hl' done (cur ++ [w]) (by
          rw [spaced_snoc cur w hc]; simp; omega)
          (by
            intro v hv
            rcases List.mem_append.mp hv with h | h
            · exact h0 v h
            · simp at h; subst h; exact hw) h2
        exact ⟨d', c', e1, by rw [e2]; simp, e3, e4⟩

theorem splitNN_single (l : List Char) (h : ¬ ['\n', '\n'] <:+: l) : splitNN l = [l] := by
  fun_induction splitNN l with
  | case1 => rfl
  | case2 rest ih => exact absurd ⟨[], rest, rfl⟩ h
  | case3 c rest _ hs ih =>
    have := ih (fun hi => h (hi.trans (List.suffix_cons _ _).isInfix))
    rw [hs] at this; cases this
  | case4 c rest _ p ps hs ih =>
    have := ih (fun hi => h (hi.trans (List.suffix_cons _ _).isInfix))
    rw [hs] at this; cases this; rfl

/-- C19 in full for one paragraph whose words fit on a line: the output is exactly lines of
whole words joined by single spaced, every line carries one lead and the tail and respects the
width, and the words of all lines in order are the words of the text. -/
theorem C19_wrap_one_paragraph (ws : Char → Bool) (text lead tail : List Char) (width : Int)
    (hroom : lead.length + tail.length < width) (hpar : ¬ ['\n', '\n'] <:+: text)
    (hfit : ∀ w ∈ words ws text, (w.length : Int) + lead.length + tail.length ≤ width) :
    ∃ lines : List (List (List Char)),
      splitLines ws text lead tail width
        = some (lines.map fun ln => lead ++ spaced ln ++ tail ++ ['\n']).flatten ∧
      lines.flatten = words ws text ∧
      ∀ ln ∈ lines, ((lead ++ spaced ln ++ tail).length : Int) ≤ width := by
  obtain ⟨d, c, e1, e2, e3, e4⟩ := fit_inv (lead := lead) (tail := tail)
    (nmax := (width - lead.length - tail.length).toNat) (words ws text) (by
      intro w hw
      exact ⟨(wordsFrom_good ws text [] (by simp) w hw).1, by have := hfit w hw; omega⟩)
    [] [] (by simp [spaced]) (by simp) (by simp)
  refine ⟨d ++ [c], ?_, by simpa using e2, ?_⟩
  · unfold splitLines
    rw [if_neg (by omega), splitNN_single text hpar]
    simp only [List.foldl_cons, List.foldl_nil, putPar]
    have hs : (render lead tail (([] : List (List (List Char))).map fun ln => ⟨1, spaced ln⟩) ++ lead ++
        spaced [], (spaced []).length) = (lead, 0) := by simp [render, spaced]
    rw [hs] at e1
    rw [e1]
    simp [render, Line.chars, List.map_map, Function.comp_def]
  · intro ln hln
    rcases List.mem_append.mp hln with h | h
    · have := e4 ln h; simp only [List.length_append]; omega
    · simp at h; subst h; simp only [List.length_append]; omega

example : ¬ ['\n', '\n'] <:+: "the quick  brown\nfox".toList ∧
    words pyWs "the quick  brown\nfox".toList
      = ["the".toList, "quick".toList, "brown".toList, "fox".toList] := by
  constructor
  · simp [List.infix_cons_iff]
  · simp [words, wordsFrom, pyWs]

/-- Defect: a word longer than the line puts two leads on one line, which then exceeds the
width (here width 6, lead `> `, the first line is 8 characters long). -/
theorem C19_double_lead_defect :
    splitLines pyWs "abcdefgh".toList "> ".toList [] 6
      = some "> > abcd\n> \n> efgh\n".toList := by
  simp [splitLines, splitNN, putPar, words, wordsFrom, putWord, chop, pyWs]

/-- Defect: paragraphs after the first do not get the lead on their first line. -/
theorem C19_second_paragraph_defect :
    splitLines pyWs "a\n\nb".toList "> ".toList [] 10 = some "> a\nb\n".toList := by
  simp [splitLines, splitNN, putPar, words, wordsFrom, putWord, chop, pyWs]

/-- Defect: a first word that exactly fills the line is preceded by an empty line. -/
theorem C19_blank_line_defect :
    splitLines pyWs "abcd".toList "> ".toList [] 6 = some "> \n> abcd\n".toList := by
  simp [splitLines, splitNN, putPar, words, wordsFrom, putWord, chop, pyWs]

end PyroMat.Text.Props
