import Verif.Registry.InfoSpec
import Verif.Registry.Props
import Verif.Text.Props
import Mathlib.Data.List.Forall2
import Mathlib.Tactic.IntervalCases

set_option linter.unusedSimpArgs false

/-! # C92: the table of `info` -/

namespace PyroMat.Registry.Info

open PyroMat PyroMat.Registry PyroMat.Registry.Info.Spec PyroMat.Registry.Props

theorem received_target (ts : List Text) :
    received .target (ts.map fun t => (Stream.target, t)) = ts.flatten := by
  induction ts with
  | nil => rfl
  | cons a ts ih => simp [received] at ih ⊢; rw [ih]

theorem received_other (ts : List Text) :
    received .stdout (ts.map fun t => (Stream.target, t)) = [] := by
  induction ts with
  | nil => rfl
  | cons a ts ih => simp [received] at ih ⊢

theorem blank_blanks (n : Nat) : Blank (blanks n) := by
  intro c hc
  exact (List.mem_replicate.mp hc).2

theorem length_blanks (n : Nat) : (blanks n).length = n := by simp [blanks]

theorem idlen_ge (l : List Subst) : ∀ n : Nat, n ≤ l.foldl (fun n ss => max n ss.id.length) n ∧
    ∀ ss ∈ l, ss.id.length ≤ l.foldl (fun n ss => max n ss.id.length) n := by
  induction l with
  | nil => intro n; simp
  | cons a l ih =>
    intro n
    simp only [List.foldl_cons, List.mem_cons, forall_eq_or_imp]
    have h := ih (max n a.id.length)
    refine ⟨le_trans (le_max_left _ _) h.1, le_trans (le_max_right _ _) h.1, h.2⟩

theorem namelen_ge (l : List Subst) : ∀ n : Nat,
    n ≤ l.foldl (fun n ss => match ss.names with
      | some (nm :: _) => max n nm.length
      | _ => n) n ∧
    ∀ ss ∈ l, (firstName ss).length ≤ l.foldl (fun n ss => match ss.names with
      | some (nm :: _) => max n nm.length
      | _ => n) n := by
  induction l with
  | nil => intro n; simp
  | cons a l ih =>
    intro n
    simp only [List.foldl_cons, List.mem_cons, forall_eq_or_imp]
    rcases hn : a.names with _ | (_ | ⟨m, ms⟩)
    · have h := ih n
      exact ⟨h.1, by simp [firstName, hn], h.2⟩
    · have h := ih n
      exact ⟨h.1, by simp [firstName, hn], h.2⟩
    · have h := ih (max n m.length)
      exact ⟨le_trans (le_max_left _ _) h.1,
        by simpa [firstName, hn] using le_trans (le_max_right _ _) h.1, h.2⟩

theorem line_ok (wid wname : Nat) (i c n rest : Text) (hi : i.length ≤ wid) (hc : c.length ≤ 5)
    (hn : n.length ≤ wname) :
    IsLine ⟨wid, 5, wname⟩ i c n rest (rowHead wid wname i c n ++ rest) := by
  refine ⟨padRight wid i, center 5 c, padRight wname n, ?_, ?_, ?_, ?_,
    ⟨_, blank_blanks _, rfl⟩, ⟨_, _, blank_blanks _, blank_blanks _, rfl⟩,
    ⟨_, blank_blanks _, rfl⟩⟩
  · simp [rowHead, classlen]
  · simp [padRight, blanks]; omega
  · simp [center, blanks]; omega
  · simp [padRight, blanks]; omega

theorem shown_first (ss : Subst) : Shown ss (firstName ss) := by
  rcases hn : ss.names with _ | (_ | ⟨m, ms⟩)
  · exact Or.inr ⟨Or.inl hn, by simp [firstName, hn]⟩
  · exact Or.inr ⟨Or.inr hn, by simp [firstName, hn]⟩
  · exact Or.inl ⟨ms, by simp [firstName, hn]⟩

theorem cells_ok (W : World) (ss : Subst) (ps : List Text) :
    List.Forall₂ (IsCell (W.sheet ss).has) ps (ps.map (propCell W ss)) := by
  induction ps with
  | nil => exact .nil
  | cons p ps ih =>
    refine .cons ?_ ih
    by_cases h : (W.sheet ss).has p = true
    · exact Or.inl ⟨h, by simp [propCell, h]⟩
    · rw [Bool.not_eq_true] at h
      refine Or.inr ⟨h, ?_, ?_⟩
      · simp only [propCell, h]
        exact blank_blanks _
      · simp [propCell, h, blanks]

/-- The text of a row. -/
def rowText (W : World) (wid wname : Nat) (ss : Subst) : Text :=
  rowHead wid wname ss.id ss.cls.toList (firstName ss) ++
    ((proplist.map (propCell W ss)).flatten ++ "\n".toList)

theorem rowsFrom_text (W : World) (wid wname : Nat) (l : List Subst) : ∀ k : Nat,
    (rowsFrom W wid wname k l).flatten =
      (((l.map (rowText W wid wname)).zipIdx k).map fun x =>
        (if x.2 % 15 = 0 then head wid wname else []) ++ x.1).flatten := by
  induction l with
  | nil => intro k; rfl
  | cons ss l ih =>
    intro k
    simp only [rowsFrom, List.flatten_append, ih, List.map_cons, List.zipIdx_cons,
      List.flatten_cons]
    congr 1
    by_cases hk : k % 15 = 0 <;> simp [rowWrites, rowText, hk]

theorem head_ok (wid wname : Nat) (hi : 2 ≤ wid) (hn : 4 ≤ wname) :
    IsHead ⟨wid, 5, wname⟩ (head wid wname) := by
  refine ⟨rowHead wid wname "ID".toList "class".toList "name".toList ++ " properties\n".toList,
    wid + classlen + wname + proplen + 11,
    line_ok wid wname _ _ _ _ (by simpa using hi) (by decide) (by simpa using hn), ?_, ?_⟩
  · simp [head, rule]
  · have : (columns.map fun p => p.length + 1).sum = proplen := by decide
    simp only [this, classlen]
    omega

theorem sorted_perm (l : List Subst) : (sorted l).Perm l := List.mergeSort_perm l _

theorem pyLe_iff : ∀ s t : Text, pyLe s t = true ↔ InOrder s t
  | [], t => by simp [pyLe, InOrder]
  | a :: s, [] => by simp [pyLe, InOrder]
  | a :: s, b :: t => by
    have ih := pyLe_iff s t
    by_cases h : a = b
    · subst h
      rw [pyLe, if_pos rfl, ih]
      constructor
      · rintro (⟨r, rfl⟩ | ⟨p, x, y, r, r', rfl, rfl, hxy⟩)
        · exact Or.inl ⟨r, rfl⟩
        · exact Or.inr ⟨a :: p, x, y, r, r', rfl, rfl, hxy⟩
      · rintro (⟨r, hr⟩ | ⟨p, x, y, r, r', h1, h2, hxy⟩)
        · rw [List.cons_append, List.cons.injEq] at hr
          exact Or.inl ⟨r, hr.2⟩
        · rcases p with _ | ⟨q, p⟩
          · simp only [List.nil_append, List.cons.injEq] at h1 h2
            rw [← h1.1, ← h2.1] at hxy
            omega
          · simp only [List.cons_append, List.cons.injEq] at h1 h2
            exact Or.inr ⟨p, x, y, r, r', h1.2, h2.2, hxy⟩
    · rw [pyLe, if_neg h, decide_eq_true_eq]
      constructor
      · intro hab
        exact Or.inr ⟨[], a, b, s, t, rfl, rfl, hab⟩
      · rintro (⟨r, hr⟩ | ⟨p, x, y, r, r', h1, h2, hxy⟩)
        · rw [List.cons_append, List.cons.injEq] at hr
          exact absurd hr.1.symm h
        · rcases p with _ | ⟨q, p⟩
          · simp only [List.nil_append, List.cons.injEq] at h1 h2
            rw [h1.1, h2.1]
            exact hxy
          · simp only [List.cons_append, List.cons.injEq] at h1 h2
            exact absurd (h1.1.trans h2.1.symm) h

theorem toNat_inj {a b : Char} (h : a.toNat = b.toNat) : a = b := by
  rw [← Char.ofNat_toNat a, ← Char.ofNat_toNat b, h]

theorem pyLe_total : ∀ s t : Text, (pyLe s t || pyLe t s) = true
  | [], t => by simp [pyLe]
  | a :: s, [] => by simp [pyLe]
  | a :: s, b :: t => by
    have ih := pyLe_total s t
    by_cases h : a = b
    · subst h
      simpa [pyLe] using ih
    · have h' : ¬ b = a := fun e => h e.symm
      have hn : a.toNat ≠ b.toNat := fun e => h (toNat_inj e)
      rw [pyLe, pyLe, if_neg h, if_neg h', Bool.or_eq_true, decide_eq_true_eq, decide_eq_true_eq]
      omega

theorem pyLe_trans : ∀ s t u : Text, pyLe s t = true → pyLe t u = true → pyLe s u = true
  | [], t, u => by simp [pyLe]
  | a :: s, [], u => by simp [pyLe]
  | a :: s, b :: t, [] => by simp [pyLe]
  | a :: s, b :: t, c :: u => by
    have ih := pyLe_trans s t u
    intro h1 h2
    by_cases hab : a = b
    · subst hab
      by_cases hac : a = c
      · subst hac
        rw [pyLe, if_pos rfl] at h1 h2 ⊢
        exact ih h1 h2
      · rw [pyLe, if_neg hac] at h2 ⊢
        exact h2
    · rw [pyLe, if_neg hab, decide_eq_true_eq] at h1
      by_cases hbc : b = c
      · subst hbc
        rw [pyLe, if_neg hab, decide_eq_true_eq]
        exact h1
      · rw [pyLe, if_neg hbc, decide_eq_true_eq] at h2
        have hac : ¬ a = c := by rintro rfl; omega
        rw [pyLe, if_neg hac, decide_eq_true_eq]
        omega

theorem pyLe_antisymm : ∀ s t : Text, pyLe s t = true → pyLe t s = true → s = t
  | [], [] => by simp
  | [], b :: t => by simp [pyLe]
  | a :: s, [] => by simp [pyLe]
  | a :: s, b :: t => by
    have ih := pyLe_antisymm s t
    intro h1 h2
    by_cases hab : a = b
    · subst hab
      rw [pyLe, if_pos rfl] at h1 h2
      rw [ih h1 h2]
    · have hba : ¬ b = a := fun e => hab e.symm
      rw [pyLe, if_neg hab, decide_eq_true_eq] at h1
      rw [pyLe, if_neg hba, decide_eq_true_eq] at h2
      omega

theorem sorted_pairwise' (l : List Subst) :
    (sorted l).Pairwise (fun a b => pyLe a.id b.id = true) :=
  List.pairwise_mergeSort (fun a b c => pyLe_trans a.id b.id c.id)
    (fun a b => pyLe_total a.id b.id) l

theorem sorted_pairwise (l : List Subst) : (sorted l).Pairwise (fun a b => InOrder a.id b.id) :=
  (sorted_pairwise' l).imp fun h => (pyLe_iff _ _).mp h

theorem sorted_eq {l l' : List Subst} (hn : (l.map (·.id)).Nodup) (hp : l.Perm l') :
    sorted l = sorted l' := by
  refine List.Perm.eq_of_pairwise ?_ (sorted_pairwise' l) (sorted_pairwise' l')
    ((sorted_perm l).trans (hp.trans (sorted_perm l').symm))
  intro a b ha hb hab hba
  have ha' : a ∈ l := (sorted_perm l).mem_iff.mp ha
  have hb' : b ∈ l := hp.mem_iff.mpr ((sorted_perm l').mem_iff.mp hb)
  exact List.inj_on_of_nodup_map hn ha' hb' (pyLe_antisymm _ _ hab hba)

theorem report_many (W : World) (kw : Query) (l : List Subst) (h : 2 ≤ l.length) (k e : Arg)
    (b : Bool) :
    report W kw l k e b = ⟨(table W l).map (fun t => (.target, t)), k, none⟩ := by
  rcases l with _ | ⟨a, _ | ⟨c, l⟩⟩
  · simp at h
  · simp at h
  · rfl

theorem flatten_two (a b : Text) (l : List Text) :
    ([a, b] ++ l).flatten = (a ++ b) ++ l.flatten := by simp

theorem tableOf_text (W : World) (l : List Subst) (x : Text)
    (h : (rowsFrom W (idlen l) (namelen l) 0 l).flatten = x) :
    (tableOf W l).flatten = banner W.version ++ x := by
  unfold tableOf banner
  refine (flatten_two _ _ _).trans ?_
  exact congrArg _ h

theorem table_text (W : World) (l : List Subst) :
    (table W l).flatten = banner W.version ++
      withHeads (head (idlen (sorted l)) (namelen (sorted l)))
        ((sorted l).map (rowText W (idlen (sorted l)) (namelen (sorted l)))) := by
  unfold table
  exact tableOf_text W _ _ (rowsFrom_text W _ _ _ 0)

/-- The tables of C92: every member once, in the order of the identifiers. -/
def IsTable (W : World) (l : List Subst) (text : Text) : Prop :=
  ∃ (ord : List Subst) (w : Widths) (hd : Text) (rows : List Text),
    ord.Perm l ∧ ord.Pairwise (fun a b => InOrder a.id b.id) ∧
    List.Forall₂ (IsRow W w) ord rows ∧ IsHead w hd ∧
    text = banner W.version ++ withHeads hd rows

theorem table_ok (W : World) (l : List Subst) (hc : ∀ ss ∈ l, ss.cls.toList.length ≤ 5) :
    IsTable W l (table W l).flatten := by
  have hid := idlen_ge (sorted l) 2
  have hnm := namelen_ge (sorted l) 4
  refine ⟨sorted l, ⟨idlen (sorted l), 5, namelen (sorted l)⟩, _, _, sorted_perm l,
    sorted_pairwise l, ?_, head_ok _ _ hid.1 hnm.1, table_text W l⟩
  rw [List.forall₂_map_right_iff, List.forall₂_same]
  intro ss hss
  exact ⟨firstName ss, _, shown_first ss, cells_ok W ss _,
    line_ok _ _ _ _ _ _ (hid.2 ss hss) (hc ss ((sorted_perm l).mem_iff.mp hss)) (hnm.2 ss hss)⟩

/-- C92.  Given a set, list or tuple of at least two substances, `info` raises nothing, leaves the
caller's object alone, writes nothing to standard output when the caller gave a stream, and writes a
table: a banner, then one row for every member in the order of the identifiers, all rows in the same
columns, each property marked exactly when the substance has it, with the column titles before the
first row and after every fifteen.  The columns hold for classes of at most five characters. -/
theorem C92_table (lower : Text → Text) (W : World) (data l : List Subst) (kw : Query) (arg : Arg)
    (ha : arg = .set l ∨ arg = .list l ∨ arg = .tuple l) (h2 : 2 ≤ l.length)
    (hc : ∀ ss ∈ l, ss.cls.toList.length ≤ 5) :
    (info lower W data arg kw).err = none ∧ (info lower W data arg kw).after = arg ∧
    received .stdout (info lower W data arg kw).wrote = [] ∧
    IsTable W l (received .target (info lower W data arg kw).wrote) := by
  have key : info lower W data arg kw =
      ⟨(table W l).map (fun t => (.target, t)), arg, none⟩ := by
    rcases ha with rfl | rfl | rfl <;> simp only [info] <;> rw [report_many _ _ _ h2]
  rw [key]
  refine ⟨rfl, rfl, received_other _, ?_⟩
  rw [received_target]
  exact table_ok W l hc

/-- C92.  The table does not depend on the order in which the members are given, nor on whether they
come in a set, a list or a tuple, as long as no identifier occurs twice. -/
theorem C92_order (lower : Text → Text) (W : World) (data l l' : List Subst) (kw : Query)
    (arg arg' : Arg) (ha : arg = .set l ∨ arg = .list l ∨ arg = .tuple l)
    (ha' : arg' = .set l' ∨ arg' = .list l' ∨ arg' = .tuple l') (h2 : 2 ≤ l.length)
    (hn : (l.map (·.id)).Nodup) (hp : l.Perm l') :
    (info lower W data arg kw).wrote = (info lower W data arg' kw).wrote := by
  have h2' : 2 ≤ l'.length := hp.length_eq ▸ h2
  have ht : table W l = table W l' := by simp only [table, sorted_eq hn hp]
  have key : ∀ (m : List Subst) (a : Arg), (a = .set m ∨ a = .list m ∨ a = .tuple m) →
      2 ≤ m.length → (info lower W data a kw).wrote =
        (table W m).map (fun t => (Stream.target, t)) := by
    intro m a hm hm2
    rcases hm with rfl | rfl | rfl <;> simp only [info] <;> rw [report_many _ _ _ hm2]
  rw [key l arg ha h2, key l' arg' ha' h2', ht]

theorem addMember_nodup (s : List Subst) (c : Subst) (hs : (s.map (·.oid)).Nodup) :
    ((addMember s c).map (·.oid)).Nodup := by
  unfold addMember
  split
  · exact hs
  · rename_i h
    rw [List.map_append, List.nodup_append]
    refine ⟨hs, by simp, ?_⟩
    intro a ha b hb
    simp only [List.map_cons, List.map_nil, List.mem_singleton] at hb
    subst hb
    obtain ⟨x, hx, rfl⟩ := List.mem_map.mp ha
    intro hxc
    apply h
    rw [List.any_eq_true]
    exact ⟨x, hx, by simpa using hxc⟩

theorem search_nodup (lower : Text → Text) (data : List Subst) (q : Query)
    (m : Option (List Subst)) : ((search lower data q m).map (·.oid)).Nodup := by
  unfold search
  suffices h : ∀ (l acc : List Subst), (acc.map (·.oid)).Nodup →
      ((l.foldl (fun acc c => if candidateMatches lower q c then addMember acc c else acc)
        acc).map (·.oid)).Nodup from h _ [] (by simp)
  intro l
  induction l with
  | nil => intro acc h; exact h
  | cons a l ih =>
    intro acc h
    simp only [List.foldl_cons]
    apply ih
    split
    · exact addMember_nodup acc a h
    · exact h

/-- C92, without members: when at least two loaded substances satisfy the criteria, the table lists
exactly the loaded substances that satisfy them, each once. -/
theorem C92_search (lower : Text → Text) (W : World) (data : List Subst) (kw : Query)
    (hobj : Objects data) (hc : ∀ ss ∈ data, ss.cls.toList.length ≤ 5)
    (a b : Subst) (ha : a ∈ data) (hb : b ∈ data) (hab : a ≠ b)
    (hsa : Registry.Spec.Satisfies lower kw a) (hsb : Registry.Spec.Satisfies lower kw b) :
    (info lower W data .none kw).err = none ∧
    ∃ l : List Subst, l.Nodup ∧
      (∀ c, c ∈ l ↔ c ∈ data ∧ Registry.Spec.Satisfies lower kw c) ∧
      IsTable W l (received .target (info lower W data .none kw).wrote) := by
  have hm := C26_search lower data kw none hobj
  have hnd := search_nodup lower data kw none
  have h2 : 2 ≤ (search lower data kw none).length := by
    have ha' := (hm a).mpr ⟨ha, hsa⟩
    have hb' := (hm b).mpr ⟨hb, hsb⟩
    rcases hl : search lower data kw none with _ | ⟨x, _ | ⟨y, l⟩⟩
    · rw [hl] at ha'; simp at ha'
    · rw [hl, List.mem_singleton] at ha' hb'
      exact absurd (ha'.trans hb'.symm) hab
    · simp
  have key : info lower W data .none kw =
      ⟨(table W (search lower data kw none)).map (fun t => (.target, t)), .none, none⟩ := by
    simp only [info]
    rw [report_many _ _ _ h2]
  rw [key]
  refine ⟨rfl, search lower data kw none, List.Nodup.of_map _ hnd, hm, ?_⟩
  rw [received_target]
  exact table_ok W _ (fun ss hss => hc ss ((hm ss).mp hss).1)

/-- C92, without members: the message that nothing was found appears exactly when no loaded substance
satisfies the criteria (and is not an error). -/
theorem C92_nothing (lower : Text → Text) (W : World) (data : List Subst) (kw : Query)
    (hobj : Objects data) (h : ∀ c ∈ data, ¬ Registry.Spec.Satisfies lower kw c) :
    info lower W data .none kw = ⟨[(.target, nothing W kw)], .none, none⟩ := by
  have hm := C26_search lower data kw none hobj
  have he : search lower data kw none = [] := by
    rw [List.eq_nil_iff_forall_not_mem]
    intro c hc
    exact h c ((hm c).mp hc).1 ((hm c).mp hc).2
  unfold info
  simp only [he]
  unfold report nothing
  exact rfl

theorem rows_same_length (W : World) (w : Widths) (ss ss' : Subst) (r r' : Text)
    (h : IsRow W w ss r) (h' : IsRow W w ss' r') : r.length = r'.length := by
  have cell : ∀ (s : Subst) (cells : List Text) (ps : List Text),
      List.Forall₂ (IsCell (W.sheet s).has) ps cells →
      cells.flatten.length = (ps.map fun p => p.length + 1).sum := by
    intro s cells ps hf
    induction hf with
    | nil => rfl
    | cons hp _ ih =>
      rename_i p c ps cs _
      have : c.length = p.length + 1 := by
        rcases hp with ⟨_, rfl⟩ | ⟨_, _, h⟩
        · simp
        · exact h
      simp only [List.flatten_cons, List.length_append, List.map_cons, List.sum_cons, ih, this]
  obtain ⟨n, cs, _, hf, ci, cc, cn, rfl, h1, h2, h3, -⟩ := h
  obtain ⟨n', cs', _, hf', ci', cc', cn', rfl, h1', h2', h3', -⟩ := h'
  have e := cell ss cs _ hf
  have e' := cell ss' cs' _ hf'
  simp only [List.length_append, e, e', h1, h2, h3, h1', h2', h3']

/-- C92.  All rows of a table are equally long. -/
theorem C92_aligned (W : World) (l : List Subst) (text : Text) (h : IsTable W l text) :
    ∃ (ord : List Subst) (hd : Text) (rows : List Text) (n : Nat), ord.Perm l ∧
      rows.length = l.length ∧ text = banner W.version ++ withHeads hd rows ∧
      ∀ r ∈ rows, r.length = n := by
  obtain ⟨ord, w, hd, rows, hp, -, hf, -, rfl⟩ := h
  refine ⟨ord, hd, rows, (rows.head?.getD []).length, hp,
    by rw [← hf.length_eq, hp.length_eq], rfl, ?_⟩
  intro r hr
  rcases hrows : rows with _ | ⟨r0, rs⟩
  · rw [hrows] at hr; simp at hr
  · rw [hrows] at hr hf
    have hex : ∀ x ∈ r0 :: rs, ∃ ss, IsRow W w ss x := by
      intro x hx
      obtain ⟨i, hi, rfl⟩ := List.mem_iff_getElem.mp hx
      exact ⟨ord[i]'(by rw [hf.length_eq]; exact hi), List.Forall₂.get hf _ hi⟩
    obtain ⟨s, hs⟩ := hex r hr
    obtain ⟨s0, hs0⟩ := hex r0 (by simp)
    simpa using rows_same_length W w s s0 r r0 hs hs0

end PyroMat.Registry.Info
