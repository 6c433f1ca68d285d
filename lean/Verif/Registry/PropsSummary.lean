import Verif.Registry.PropsInfo
import Mathlib.Algebra.Order.Ring.Abs
import Mathlib.Algebra.Order.Ring.Unbundled.Rat
import Mathlib.Tactic.Linarith

set_option linter.unusedSimpArgs false

/-! # C93: the summary of one substance -/

namespace PyroMat.Registry.Info

open PyroMat PyroMat.Registry PyroMat.Registry.Info.Spec PyroMat.Registry.Props

/-! ## The two lines of the formula -/

theorem overlay_append (a b c d : Text) (h : a.length = b.length) :
    overlay (a ++ c) (b ++ d) = overlay a b ++ overlay c d := by
  unfold overlay
  exact List.zipWith_append h

theorem overlay_left (a : Text) (h : ' ' ∉ a) : ∀ b : Text, a.length = b.length →
    overlay a b = a := by
  induction a with
  | nil => intro b _; simp [overlay]
  | cons x a ih =>
    intro b hb
    rcases b with _ | ⟨y, b⟩
    · simp at hb
    · simp only [List.mem_cons, not_or] at h
      have := ih h.2 b (by simpa using hb)
      unfold overlay at this ⊢
      rw [List.zipWith_cons_cons, this, if_neg (fun e => h.1 e.symm)]

theorem overlay_blank (b : Text) : overlay (blanks b.length) b = b := by
  induction b with
  | nil => rfl
  | cons y b ih =>
    unfold overlay blanks at ih ⊢
    rw [List.length_cons, List.replicate_succ, List.zipWith_cons_cons, ih, if_pos rfl]

/-- The atoms other than the electron. -/
def neutral (aa : List (Text × Qty)) : List (Text × Qty) := aa.filter fun p => p.1 ≠ ['e']

theorem qtyText_amount (W : World) (q : Qty) : qtyText W q = amount W q := by
  rcases q with n | x
  · by_cases h : n = 1
    · subst h; rfl
    · rw [qtyText, if_neg h]
      unfold amount
      split
      · rename_i heq; exact absurd (by injection heq) h
      · rename_i heq; injection heq with h1; rw [h1]
      · rename_i heq; cases heq
  · rfl

theorem fold_lines (W : World) (aa : List (Text × Qty)) (h : ∀ p ∈ aa, ' ' ∉ p.1) : ∀ l : Lines,
    l.aline.length = l.nline.length →
    (aa.foldl (atomStep W) l).aline.length = (aa.foldl (atomStep W) l).nline.length ∧
    overlay (aa.foldl (atomStep W) l).aline (aa.foldl (atomStep W) l).nline =
      overlay l.aline l.nline ++ formula W (neutral aa) := by
  induction aa with
  | nil => intro l hl; exact ⟨hl, by simp [neutral, formula]⟩
  | cons p aa ih =>
    intro l hl
    rw [List.foldl_cons]
    have ih' := ih (fun q hq => h q (List.mem_cons_of_mem _ hq))
    by_cases he : p.1 = ['e']
    · have hs : atomStep W l p = { l with charge := chargeText W p.2 } := by
        rw [atomStep, if_pos he]
      have hn : neutral (p :: aa) = neutral aa := by simp [neutral, he]
      rw [hs, hn]
      exact ih' _ hl
    · have hs : atomStep W l p = { l with
          aline := l.aline ++ p.1 ++ blanks (qtyText W p.2).length
          nline := l.nline ++ blanks p.1.length ++ qtyText W p.2 } := by
        rw [atomStep, if_neg he]
      have hn : neutral (p :: aa) = p :: neutral aa := by simp [neutral, he]
      rw [hs, hn]
      have hlen : (l.aline ++ p.1 ++ blanks (qtyText W p.2).length).length =
          (l.nline ++ blanks p.1.length ++ qtyText W p.2).length := by
        simp [blanks, hl]
      refine ⟨(ih' _ hlen).1, (ih' _ hlen).2.trans ?_⟩
      have e1 : overlay (l.aline ++ p.1 ++ blanks (qtyText W p.2).length)
          (l.nline ++ blanks p.1.length ++ qtyText W p.2) =
          overlay l.aline l.nline ++ p.1 ++ qtyText W p.2 := by
        rw [overlay_append _ _ _ _ (by simp [blanks, hl]), overlay_append _ _ _ _ hl,
          overlay_blank, overlay_left _ (h p (by simp)) _ (by simp [blanks])]
      dsimp only
      rw [e1, qtyText_amount]
      simp [formula, List.append_assoc]

theorem fold_charge (W : World) (aa : List (Text × Qty)) (hn : (aa.map Prod.fst).Nodup) :
    ∀ l : Lines, (aa.foldl (atomStep W) l).charge =
      match aa.lookup ['e'] with
      | none => l.charge
      | some q => chargeText W q := by
  induction aa with
  | nil => intro l; rfl
  | cons p aa ih =>
    intro l
    rw [List.map_cons, List.nodup_cons] at hn
    rw [List.foldl_cons, ih hn.2]
    obtain ⟨k, q⟩ := p
    by_cases he : k = ['e']
    · subst he
      have hno : aa.lookup ['e'] = none := by
        rw [List.lookup_eq_none_iff]
        intro x hx
        simp only [bne_iff_ne, ne_eq, beq_iff_eq]
        intro e
        exact hn.1 (List.mem_map.mpr ⟨x, hx, by simpa using e.symm⟩)
      rw [hno, List.lookup_cons_self]
      simp [atomStep]
    · have hk : (['e'] == k) = false := by
        rw [beq_eq_false_iff_ne]; exact fun e => he e.symm
      rw [List.lookup_cons, hk, atomStep, if_neg he]

theorem natStr_intStr (n : Int) (h : 0 < n) : natStr n.natAbs = intStr n := by
  rw [intStr, if_neg (by omega)]

theorem amount_int (W : World) (n : Int) (h : n ≠ 1) : amount W (.int n) = intStr n := by
  rw [← qtyText_amount, qtyText, if_neg h]

theorem charge_ok (W : World) (aa : List (Text × Qty)) (hn : (aa.map Prod.fst).Nodup) :
    IsCharge W aa (atomLines W aa).charge := by
  have h := fold_charge W aa hn ⟨blanks 4, blanks 4, []⟩
  unfold IsCharge
  rcases he : aa.lookup ['e'] with _ | (n | x)
  · rw [he] at h; exact h
  · rw [he] at h
    dsimp only at h ⊢
    refine ⟨fun hp => ?_, fun hm => ?_⟩
    · rw [atomLines, h, chargeText, if_pos hp]
      by_cases h1 : n = 1
      · subst h1; rfl
      · rw [if_pos (by omega), amount_int W n h1, natStr_intStr n hp]; rfl
    · rw [atomLines, h, chargeText, if_neg (by omega)]
      by_cases h1 : n = -1
      · subst h1; rfl
      · rw [if_pos (by omega), amount_int W (-n) (by omega), ← natStr_intStr (-n) (by omega),
          Int.natAbs_neg]
        rfl
  · rw [he] at h
    dsimp only at h ⊢
    refine ⟨fun hp => ?_, fun hm => ?_⟩
    · have ha : absRat x = x := by rw [absRat, if_neg (not_lt.mpr hp.le)]
      rw [atomLines, h, chargeText, if_pos hp, ha]
      by_cases h1 : x = 1
      · subst h1; simp
      · simp [h1]
    · have ha : absRat x = -x := by rw [absRat, if_pos hm]
      rw [atomLines, h, chargeText, if_neg (not_lt.mpr hm.le), ha]
      by_cases h1 : x = -1
      · subst h1; simp
      · have : ¬ -x = 1 := fun e => h1 (by linarith)
        simp [h1, this]

/-! ## The lines -/

theorem entry_ok (l v : Text) (hl : l.length ≤ 18) : IsEntry (some l, v) (label l ++ v ++ ['\n']) := by
  refine ⟨label l, ?_, rfl, blanks (18 - l.length), blank_blanks _, rfl⟩
  simp [label, padLeft, blanks]
  omega

theorem names_tail (ns : List Text) (lead : Text) (h : Blank lead) (hl : lead.length = 21) :
    List.Forall₂ IsEntry (ns.map fun x => (none, x)) (nameLines lead ns) := by
  induction ns generalizing lead with
  | nil => exact .nil
  | cons n ns ih =>
    refine .cons ⟨lead, hl, rfl, h⟩ ?_
    exact ih _ (blank_blanks _) (by simp [blanks, hl])

theorem two_ok (m : Nat) (h : m < 60) : two m = (if m < 10 then ['0'] else []) ++ natStr m := by
  have : ∀ m : Fin 60, two m.val = (if m.val < 10 then ['0'] else []) ++ natStr m.val := by decide
  exact this ⟨m, h⟩

/-- The part of a summary after the formula, on the target stream. -/
def lineWrites (W : World) (ss : Subst) (m : Text) (t : Stamp) : List Text :=
  (match ss.names with
    | some ns => nameLines (label "Names".toList) ns
    | none => []) ++
  [label "Molecular Weight".toList ++ m ++ ['\n']] ++
  (match ss.cas with
    | some c => [label "CAS number".toList ++ c.toList ++ ['\n']]
    | none => []) ++
  (match ss.inchi with
    | some c => [label "InChI string".toList ++ c.toList ++ ['\n']]
    | none => []) ++
  [label "Data class".toList ++ ss.cls.toList ++ ['\n'],
   label "Loaded from".toList ++ (W.sheet ss).fromfile ++ ['\n'],
   label "Last updated".toList ++ clock t ++ ['\n']]

theorem lineWrites_ok (W : World) (ss : Subst) (m : Text) (t : Stamp) :
    List.Forall₂ IsEntry (entries W ss m t) (lineWrites W ss m t) := by
  unfold entries lineWrites
  refine List.rel_append (List.rel_append (List.rel_append (List.rel_append ?_ ?_) ?_) ?_) ?_
  · rcases ss.names with _ | (_ | ⟨n, ns⟩)
    · exact .nil
    · exact .nil
    · refine .cons (entry_ok _ _ (by decide)) ?_
      exact names_tail ns _ (blank_blanks _) (by decide)
  · exact .cons (entry_ok _ _ (by decide)) .nil
  · rcases ss.cas with _ | c
    · exact .nil
    · exact .cons (entry_ok _ _ (by decide)) .nil
  · rcases ss.inchi with _ | c
    · exact .nil
    · exact .cons (entry_ok _ _ (by decide)) .nil
  · exact .cons (entry_ok _ _ (by decide)) (.cons (entry_ok _ _ (by decide))
      (.cons (entry_ok _ _ (by decide)) .nil))

/-! ## Running the writes -/

theorem run_ok (ws : List (Stream × Text)) : run (ws.map .ok) = (ws, none) := by
  induction ws with
  | nil => rfl
  | cons w ws ih => rw [List.map_cons, run, ih]

theorem run_append (ws : List (Stream × Text)) (rest : List Step) :
    run (ws.map .ok ++ rest) = (ws ++ (run rest).1, (run rest).2) := by
  induction ws with
  | nil => rfl
  | cons w ws ih => rw [List.map_cons, List.cons_append, run, ih]; rfl

theorem run_error (ws : List (Stream × Text)) (e : Err) (rest : List Step) :
    run (ws.map .ok ++ .error e :: rest) = (ws, some e) := by
  rw [run_append]
  simp [run]

/-- The lines after the formula up to the file name. -/
def early (W : World) (ss : Subst) (m : Text) : List Text :=
  (match ss.names with
    | some ns => nameLines (label "Names".toList) ns
    | none => []) ++
  [label "Molecular Weight".toList ++ m ++ ['\n']] ++
  (match ss.cas with
    | some c => [label "CAS number".toList ++ c.toList ++ ['\n']]
    | none => []) ++
  (match ss.inchi with
    | some c => [label "InChI string".toList ++ c.toList ++ ['\n']]
    | none => []) ++
  [label "Data class".toList ++ ss.cls.toList ++ ['\n'],
   label "Loaded from".toList ++ (W.sheet ss).fromfile ++ ['\n']]

/-- The block of the formula. -/
def block (W : World) (aa : List (Text × Qty)) : Text :=
  '\n' :: (atomLines W aa).aline ++ (atomLines W aa).charge ++
    '\n' :: (atomLines W aa).nline ++ "\n\n".toList

theorem lineWrites_flatten (W : World) (ss : Subst) (m : Text) (t : Stamp) :
    (lineWrites W ss m t).flatten =
      (early W ss m).flatten ++ (label "Last updated".toList ++ clock t ++ ['\n']) := by
  unfold lineWrites early
  generalize (match ss.names with
    | some ns => nameLines (label "Names".toList) ns
    | none => []) = a
  generalize (match ss.cas with
    | some c => [label "CAS number".toList ++ c.toList ++ ['\n']]
    | none => []) = b
  generalize (match ss.inchi with
    | some c => [label "InChI string".toList ++ c.toList ++ ['\n']]
    | none => []) = c
  generalize label "Molecular Weight".toList ++ m ++ ['\n'] = d
  generalize label "Data class".toList ++ ss.cls.toList ++ ['\n'] = e
  generalize label "Loaded from".toList ++ (W.sheet ss).fromfile ++ ['\n'] = f
  generalize label "Last updated".toList ++ clock t ++ ['\n'] = g
  simp

/-- The writes to the target stream before the time of the file. -/
def targets (W : World) (ss : Subst) (aa : List (Text × Qty)) (m : Text) : List (Stream × Text) :=
  ((title ss) :: (block W aa) :: early W ss m).map fun s => (.target, s)

theorem map_say (l : List Text) : l.map say = (l.map fun s => (Stream.target, s)).map .ok := by
  simp [say, Function.comp_def]

theorem details_eq (W : World) (ss : Subst) (aa : List (Text × Qty)) (m : Text)
    (ha : (W.sheet ss).amounts = .ok aa) (hm : (W.sheet ss).mw = .ok m) :
    details W ss = (targets W ss aa m).map .ok ++ [timeStep W ss, docStep W ss] := by
  have e1 : formulaSteps W ss = [say (block W aa)] := by
    unfold formulaSteps block
    rw [ha]
  have e2 : mwStep W ss = say (label "Molecular Weight".toList ++ m ++ ['\n']) := by
    unfold mwStep field
    rw [hm]
  have e3 : (targets W ss aa m).map Except.ok =
      ((title ss) :: (block W aa) :: early W ss m).map say := by rw [map_say]; rfl
  rw [e3]
  unfold details title early
  rw [e1, e2]
  unfold field
  generalize "***\nInformation summary for substance: \"".toList ++ ss.id ++ "\"\n***\n".toList = t
  generalize label "Data class".toList ++ ss.cls.toList ++ ['\n'] = c
  generalize label "Loaded from".toList ++ (W.sheet ss).fromfile ++ ['\n'] = f
  generalize label "Molecular Weight".toList ++ m ++ ['\n'] = g
  generalize label "Names".toList = nm
  generalize label "CAS number".toList = ca
  generalize label "InChI string".toList = ic
  rcases ss.names with _ | ns <;> rcases ss.cas with _ | cas <;> rcases ss.inchi with _ | inc <;>
    simp

theorem clock_text (t : Stamp) (h : t.min < 60) :
    label "Last updated".toList ++ natStr t.hour ++ [':'] ++ two t.min ++ [' '] ++
      months.getD t.month [] ++ [' '] ++ natStr t.day ++ ", ".toList ++ natStr t.year ++
      "\n\n".toList = (label "Last updated".toList ++ clock t ++ ['\n']) ++ ['\n'] := by
  have e : "\n\n".toList = ['\n', '\n'] := by decide
  unfold clock
  rw [two_ok _ h, e]
  unfold months
  generalize label "Last updated".toList = l
  generalize natStr t.hour = hh
  generalize natStr t.min = mm
  generalize natStr t.day = dd
  generalize natStr t.year = yy
  generalize (if t.min < 10 then ['0'] else ([] : Text)) = z
  generalize List.getD _ _ _ = mo
  simp only [List.append_assoc, List.cons_append, List.nil_append]

theorem received_append (s : Stream) (a b : List (Stream × Text)) :
    received s (a ++ b) = received s a ++ received s b := by
  simp [received]

/-- What `info` does for a substance, however it is asked for. -/
theorem info_one (lower : Text → Text) (W : World) (data : List Subst) (kw : Query) (arg : Arg)
    (ss : Subst) (hobj : Objects data) (hid : (data.map (·.id)).Nodup)
    (h : Refers lower data kw arg ss) :
    (info lower W data arg kw).wrote = (run (details W ss)).1 ∧
    (info lower W data arg kw).err = (run (details W ss)).2 := by
  rcases h with rfl | ⟨rfl, hmem⟩ | rfl | rfl | ⟨rfl, hc⟩
  · exact ⟨rfl, rfl⟩
  · have hf : data.find? (fun c => decide (c.id = ss.id)) = some ss := by
      induction data with
      | nil => simp at hmem
      | cons d ds ih =>
        rw [List.find?_cons]
        rw [List.map_cons, List.nodup_cons] at hid
        by_cases hd : d.id = ss.id
        · simp only [hd, decide_true]
          rcases List.mem_cons.mp hmem with h | h
          · rw [h]
          · exact absurd (List.mem_map.mpr ⟨ss, h, hd.symm⟩) hid.1
        · simp only [hd, decide_false]
          rcases List.mem_cons.mp hmem with h | h
          · exact absurd (by rw [h]) hd
          · exact ih (fun a ha b hb => hobj a (List.mem_cons_of_mem _ ha) b
              (List.mem_cons_of_mem _ hb)) hid.2 h
    unfold info
    simp only [hf]
    exact ⟨rfl, rfl⟩
  · exact ⟨rfl, rfl⟩
  · exact ⟨rfl, rfl⟩
  · have hm := C26_search lower data kw none hobj
    have hnd := search_nodup lower data kw none
    have hs : search lower data kw none = [ss] := by
      rcases hl : search lower data kw none with _ | ⟨x, _ | ⟨y, l⟩⟩
      · have := (hm ss).mpr ((hc ss).mpr rfl)
        rw [hl] at this; simp at this
      · have := (hc x).mp ((hm x).mp (by rw [hl]; simp))
        rw [this]
      · have hx := (hc x).mp ((hm x).mp (by rw [hl]; simp))
        have hy := (hc y).mp ((hm y).mp (by rw [hl]; simp))
        rw [hl, hx, hy] at hnd
        simp at hnd
    unfold info
    simp only [hs]
    exact ⟨rfl, rfl⟩

/-- C93.  Asked for one substance whose atoms and molecular weight are known and whose file exists,
`info` raises nothing.  The target receives the title with the identifier; the formula on two lines,
equally long, which laid over each other read as the symbols and their amounts in the order of the
atoms, with the charge after them; then one labelled line per fact in a fixed order.  Standard output
receives the documentation, wrapped to 74 columns, with nothing lost. -/
theorem C93_summary (lower : Text → Text) (W : World) (data : List Subst) (kw : Query) (arg : Arg)
    (ss : Subst) (hobj : Objects data) (hid : (data.map (·.id)).Nodup)
    (h : Refers lower data kw arg ss) (aa : List (Text × Qty)) (m : Text) (t : Stamp)
    (ha : (W.sheet ss).amounts = .ok aa) (hm : (W.sheet ss).mw = .ok m)
    (ht : W.mtime (W.sheet ss).fromfile = some t) (h60 : t.min < 60)
    (hkeys : (aa.map Prod.fst).Nodup) (hsym : ∀ p ∈ aa, ' ' ∉ p.1)
    (hsp : W.ws ' ' = true) (hnl : W.ws '\n' = true) :
    (info lower W data arg kw).err = none ∧
    (∃ (top charge bottom : Text) (lines : List Text),
      received .target (info lower W data arg kw).wrote =
        title ss ++ (['\n'] ++ top ++ charge ++ ['\n'] ++ bottom ++ ['\n', '\n']) ++
          lines.flatten ++ ['\n'] ∧
      top.length = bottom.length ∧
      overlay top bottom = blanks 4 ++ formula W (aa.filter fun p => p.1 ≠ ['e']) ∧
      IsCharge W aa charge ∧
      List.Forall₂ IsEntry (entries W ss m t) lines) ∧
    ∃ lines : List PyroMat.Text.Spec.Line,
      received .stdout (info lower W data arg kw).wrote = PyroMat.Text.Spec.render [] [] lines ∧
      (lines.map (fun l => PyroMat.Text.Spec.ink W.ws l.payload)).flatten =
        PyroMat.Text.Spec.ink W.ws (W.sheet ss).doc ∧
      ∀ l ∈ lines, l.payload.length ≤ 74 := by
  obtain ⟨hw, he⟩ := info_one lower W data kw arg ss hobj hid h
  obtain ⟨dl, hd1, hd2, hd3⟩ := PyroMat.Text.Props.C19_wrap_partial W.ws hsp hnl (W.sheet ss).doc [] [] 74
    (by simp)
  have hdoc : docStep W ss = .ok (.stdout, PyroMat.Text.Spec.render [] [] dl) := by
    unfold docStep
    rw [hd1]
  have htime : timeStep W ss =
      say ((label "Last updated".toList ++ clock t ++ ['\n']) ++ ['\n']) := by
    unfold timeStep
    rw [ht]
    exact congrArg say (clock_text t h60)
  have hrun : run (details W ss) = (targets W ss aa m ++
      [(.target, (label "Last updated".toList ++ clock t ++ ['\n']) ++ ['\n']),
       (.stdout, PyroMat.Text.Spec.render [] [] dl)], none) := by
    rw [details_eq W ss aa m ha hm, run_append, htime, hdoc]
    rfl
  rw [hw, he, hrun]
  have hl := fold_lines W aa hsym ⟨blanks 4, blanks 4, []⟩ rfl
  refine ⟨rfl, ⟨(atomLines W aa).aline, (atomLines W aa).charge, (atomLines W aa).nline,
    lineWrites W ss m t, ?_, hl.1, ?_, charge_ok W aa hkeys, lineWrites_ok W ss m t⟩,
    dl, ?_, hd2, ?_⟩
  · rw [received_append, targets, received_target, lineWrites_flatten]
    unfold block
    have e : "\n\n".toList = ['\n', '\n'] := by decide
    rw [e]
    generalize title ss = a
    generalize (early W ss m) = b
    generalize label "Last updated".toList ++ clock t ++ ['\n'] = c
    simp [received]
  · have ho : overlay (blanks 4) (blanks 4) = blanks 4 := by decide
    refine hl.2.trans ?_
    dsimp only
    rw [ho]
    rfl
  · rw [received_append, targets, received_other]
    simp [received]
  · intro l hl'
    have := (hd3 l hl').2
    simp at this
    omega

/-- C93.  However one substance is asked for - by object, by identifier, in a set or list, or by
criteria that it alone satisfies - the same text is written and the same exception, if any, raised. -/
theorem C93_same (lower : Text → Text) (W : World) (data : List Subst) (kw kw' : Query)
    (arg arg' : Arg) (ss : Subst) (hobj : Objects data) (hid : (data.map (·.id)).Nodup)
    (h : Refers lower data kw arg ss) (h' : Refers lower data kw' arg' ss) :
    (info lower W data arg kw).wrote = (info lower W data arg' kw').wrote ∧
    (info lower W data arg kw).err = (info lower W data arg' kw').err := by
  obtain ⟨h1, h2⟩ := info_one lower W data kw arg ss hobj hid h
  obtain ⟨h1', h2'⟩ := info_one lower W data kw' arg' ss hobj hid h'
  exact ⟨h1.trans h1'.symm, h2.trans h2'.symm⟩

/-- C93.  An identifier that is not in the collection is refused with a parameter error, and nothing
is written to the target. -/
theorem C93_unknown (lower : Text → Text) (W : World) (data : List Subst) (kw : Query) (s : Text)
    (h : ∀ ss ∈ data, ss.id ≠ s) :
    (info lower W data (.ident s) kw).err = some .param ∧
    (info lower W data (.ident s) kw).wrote = [] := by
  have hf : data.find? (fun c => decide (c.id = s)) = none := by
    rw [List.find?_eq_none]
    intro c hc
    simpa using h c hc
  unfold info
  simp only [hf]
  exact ⟨trivial, trivial⟩

/-- C93.  When the atoms of the substance cannot be told (a mixture with a component that has no
atomic data), the exception passes through after the title. -/
theorem C93_atoms_fail (lower : Text → Text) (W : World) (data : List Subst) (kw : Query) (arg : Arg)
    (ss : Subst) (hobj : Objects data) (hid : (data.map (·.id)).Nodup)
    (h : Refers lower data kw arg ss) (e : Err) (ha : (W.sheet ss).amounts = .error e) :
    (info lower W data arg kw).err = some e ∧
    received .target (info lower W data arg kw).wrote = title ss ∧
    received .stdout (info lower W data arg kw).wrote = [] := by
  obtain ⟨hw, he⟩ := info_one lower W data kw arg ss hobj hid h
  have hf : formulaSteps W ss = [.error e] := by
    unfold formulaSteps
    rw [ha]
  have hd : ∃ rest, details W ss = say (title ss) :: .error e :: rest := by
    unfold details title
    rw [hf]
    generalize "***\nInformation summary for substance: \"".toList ++ ss.id ++
      "\"\n***\n".toList = t
    simp only [List.cons_append, List.nil_append, List.append_assoc]
    exact ⟨_, rfl⟩
  obtain ⟨rest, hd⟩ := hd
  have hrun : run (details W ss) = ([(.target, title ss)], some e) := by
    rw [hd]
    exact run_error [(.target, title ss)] e rest
  rw [hw, he, hrun]
  refine ⟨rfl, ?_, ?_⟩
  · generalize title ss = t
    simp [received]
  · simp [received]

/-- **C93 disagreement.** A substance that was not loaded from an existing file (one that was made in
memory, or whose file has since been removed) has no summary: `info` raises an operating-system
exception after the file name, and its documentation is never printed. -/
theorem C93_no_file_defect (lower : Text → Text) (W : World) (data : List Subst) (kw : Query)
    (arg : Arg) (ss : Subst) (hobj : Objects data) (hid : (data.map (·.id)).Nodup)
    (h : Refers lower data kw arg ss) (aa : List (Text × Qty)) (m : Text)
    (ha : (W.sheet ss).amounts = .ok aa) (hm : (W.sheet ss).mw = .ok m)
    (ht : W.mtime (W.sheet ss).fromfile = none) :
    (info lower W data arg kw).err = some .exception ∧
    received .stdout (info lower W data arg kw).wrote = [] := by
  obtain ⟨hw, he⟩ := info_one lower W data kw arg ss hobj hid h
  have htime : timeStep W ss = .error .exception := by
    unfold timeStep
    rw [ht]
  rw [hw, he, details_eq W ss aa m ha hm, htime, run_error]
  refine ⟨rfl, ?_⟩
  rw [targets, received_other]

/-- **C93 disagreement.** "If the target keyword is set to a file stream, the output will be sent
there instead of standard out": the documentation of the substance is printed on standard output all
the same, whenever there is anything in it to print. -/
theorem C93_stream_defect (lower : Text → Text) (W : World) (data : List Subst) (kw : Query)
    (arg : Arg) (ss : Subst) (hobj : Objects data) (hid : (data.map (·.id)).Nodup)
    (h : Refers lower data kw arg ss) (aa : List (Text × Qty)) (m : Text) (t : Stamp)
    (ha : (W.sheet ss).amounts = .ok aa) (hm : (W.sheet ss).mw = .ok m)
    (ht : W.mtime (W.sheet ss).fromfile = some t) (h60 : t.min < 60)
    (hkeys : (aa.map Prod.fst).Nodup) (hsym : ∀ p ∈ aa, ' ' ∉ p.1)
    (hsp : W.ws ' ' = true) (hnl : W.ws '\n' = true)
    (hdoc : ∃ c ∈ (W.sheet ss).doc, W.ws c = false) :
    received .stdout (info lower W data arg kw).wrote ≠ [] := by
  obtain ⟨-, -, lines, h1, h2, -⟩ := C93_summary lower W data kw arg ss hobj hid h aa m t ha hm ht
    h60 hkeys hsym hsp hnl
  rw [h1]
  intro hr
  have hl : lines = [] := by
    rcases lines with _ | ⟨l, ls⟩
    · rfl
    · simp [PyroMat.Text.Spec.render, PyroMat.Text.Spec.Line.chars] at hr
  rw [hl] at h2
  obtain ⟨c, hc, hcw⟩ := hdoc
  have : c ∈ PyroMat.Text.Spec.ink W.ws (W.sheet ss).doc := by
    unfold PyroMat.Text.Spec.ink
    rw [List.mem_filter]
    exact ⟨hc, by simp [hcw]⟩
  rw [← h2] at this
  simp at this

/-- **C93 disagreement.** Printing a set or list with one substance in it removes the substance from
the caller's set or list: the next `info` on the same object reports that no substance matched. -/
theorem C93_emptied_defect (lower : Text → Text) (W : World) (data : List Subst) (kw : Query)
    (ss : Subst) (arg : Arg) (h : arg = .set [ss] ∨ arg = .list [ss]) :
    (info lower W data (info lower W data arg kw).after kw).wrote = [(.target, nothing W kw)] := by
  rcases h with rfl | rfl <;> exact rfl

/-- **C93 disagreement.** "When it is called with an iterable of PYroMat data instances": a tuple with
one substance in it raises an attribute error, and a generator of any length a type error; nothing is
written. -/
theorem C93_iterable_defect (lower : Text → Text) (W : World) (data l : List Subst) (kw : Query)
    (ss : Subst) :
    (info lower W data (.tuple [ss]) kw).err = some .attribute ∧
    (info lower W data (.tuple [ss]) kw).wrote = [] ∧
    (info lower W data (.generator l) kw).err = some .type ∧
    (info lower W data (.generator l) kw).wrote = [] := ⟨rfl, rfl, rfl, rfl⟩

/-- **C93 disagreement.** A substance whose atoms list zero electrons, which is neutral, is shown with
the charge `+0`. -/
theorem C93_zero_charge_defect (W : World) (aa : List (Text × Qty)) (hn : (aa.map Prod.fst).Nodup)
    (h : aa.lookup ['e'] = some (.int 0)) : (atomLines W aa).charge = "+0".toList := by
  have := fold_charge W aa hn ⟨blanks 4, blanks 4, []⟩
  rw [h] at this
  rw [atomLines, this]
  exact (by decide : (if (0 : Int) > 0 then ['-'] else ['+']) ++
    (if (0 : Int).natAbs ≠ 1 then natStr (0 : Int).natAbs else []) = "+0".toList)

end PyroMat.Registry.Info
