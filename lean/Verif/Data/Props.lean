import Mathlib.Data.List.Nodup
import Verif.Data.Lemmas

/-!
# Property theorems C20-C25, C62: data files and the collection
-/

set_option linter.unusedSimpArgs false

namespace PyroMat.Data.Props

open PyroMat PyroMat.Data PyroMat.Data.Spec

/-! ## C20 - suppressing and reviving -/

theorem hasExt_unique_char {s : String} (h1 : HasExt s ".hpd") (h2 : HasExt s ".hpd~") : False := by
  obtain ⟨a, -, ha⟩ := h1
  obtain ⟨b, -, hb⟩ := h2
  have h := congrArg String.toList (ha.symm.trans hb)
  simp only [String.toList_append] at h
  have h3 := congrArg List.getLast? h
  have e1 : ".hpd".toList = ['.', 'h', 'p'] ++ ['d'] := rfl
  have e2 : ".hpd~".toList = ['.', 'h', 'p', 'd'] ++ ['~'] := rfl
  rw [e1, e2, ← List.append_assoc, ← List.append_assoc, List.getLast?_concat,
    List.getLast?_concat] at h3
  cases h3

/-- C20, refusal: a path of the wrong form raises a file error and nothing changes. -/
theorem C20_wrong_form (fs : Flat) (path : String) :
    (¬ HasExt path ".hpd" → suppressFile fs path = (fs, some .file)) ∧
    (¬ HasExt path ".hpd~" → reviveFile fs path = (fs, some .file)) := by
  constructor
  · intro h
    have : ¬ isHpd path = true := fun h' => h ((isHpd_iff path).mp h')
    simp [suppressFile, this]
  · intro h
    have : ¬ isSup path = true := fun h' => h ((isSup_iff path).mp h')
    simp [reviveFile, this]

theorem hasExt_tilde {path : String} (h : HasExt path ".hpd") : HasExt (path ++ "~") ".hpd~" := by
  obtain ⟨stem, h1, rfl⟩ := h
  refine ⟨stem, h1, ?_⟩
  apply String.toList_injective
  simp [String.toList_append]

theorem dropLast_tilde (path : String) : dropLastChar (path ++ "~") = path := by
  apply String.toList_injective
  simp only [dropLastChar, String.toList_ofList, String.toList_append]
  exact List.dropLast_concat

theorem ne_tilde (path : String) : path ≠ path ++ "~" := by
  intro h
  have := congrArg (fun s => s.toList.length) h
  simp at this

/-- C20, inverse: when the data file exists and the suppressed name is free, suppressing
succeeds, moves the content, loses no file, and reviving restores the file system exactly. -/
theorem C20_suppress_revive (fs : Flat) (path : String) (c : Content)
    (hp : HasExt path ".hpd") (hex : fs path = some c) (hfree : fs (path ++ "~") = none) :
    ∃ fs', suppressFile fs path = (fs', none) ∧
      fs' (path ++ "~") = some c ∧ fs' path = none ∧
      (∀ q, q ≠ path → q ≠ path ++ "~" → fs' q = fs q) ∧
      reviveFile fs' (path ++ "~") = (fs, none) := by
  have h1 : isHpd path = true := (isHpd_iff path).mpr hp
  have h2 : isSup (path ++ "~") = true := (isSup_iff _).mpr (hasExt_tilde hp)
  have hne := ne_tilde path
  refine ⟨_, by simp only [suppressFile, h1, if_true, rename, hex]; rfl, ?_, ?_, ?_, ?_⟩
  · simp
  · simp [hne]
  · intro q hq1 hq2; simp [hq1, hq2]
  · simp only [reviveFile, h2, if_true, rename, dropLast_tilde]
    congr 1
    funext q
    by_cases hq1 : q = path
    · subst hq1; simp [hex]
    · by_cases hq2 : q = path ++ "~"
      · subst hq2; simp [hq1, hfree]
      · simp [hq1, hq2]

/-- C20, a missing file: a file error and nothing changes. -/
theorem C20_missing (fs : Flat) (path : String) (h : fs path = none) :
    suppressFile fs path = (fs, some .file) ∧ reviveFile fs path = (fs, some .file) := by
  constructor
  · unfold suppressFile; split
    · simp [rename, h]
    · rfl
  · unfold reviveFile; split
    · simp [rename, h]
    · rfl

/-- C20 needs the target name to be free: if `x.hpd~` already exists, suppressing `x.hpd`
silently destroys it. -/
theorem C20_overwrite_defect (fs : Flat) (path : String) (c c' : Content)
    (hp : HasExt path ".hpd") (hex : fs path = some c) (_ : fs (path ++ "~") = some c') :
    ∃ fs', suppressFile fs path = (fs', none) ∧ fs' (path ++ "~") = some c ∧
      fs' path = none := by
  have h1 : isHpd path = true := (isHpd_iff path).mpr hp
  exact ⟨_, by simp only [suppressFile, h1, if_true, rename, hex]; rfl, by simp,
    by simp [ne_tilde path]⟩

theorem visitEntries_sup (recursive : Bool) (path name : String) (c : Content)
    (es : List (String × Node)) (h : HasExt name ".hpd~") :
    visitEntries recursive path ((name, .file c) :: es)
      = (name, [.sup (path ++ "/" ++ name)]) :: visitEntries recursive path es := by
  have h1 : ¬ HasExt name ".hpd" := fun h' => hasExt_unique_char h' h
  simp [visitEntries, Node.isDir, h, h1]

example : HasExt "H2O.hpd" ".hpd" ∧ HasExt "H2O.hpd~" ".hpd~" :=
  ⟨⟨"H2O", by decide, rfl⟩, ⟨"H2O", by decide, rfl⟩⟩

/-! ## C21 - precedence -/

theorem recAct_cases (cfg : Cfg) (reg : Registry) (t : Rec) (data : Coll) :
    ((data.lookup t.id).isSome = true ∧ cfg.fatal = true ∧ recAct cfg reg t data = (data, some .data)) ∨
    ((data.lookup t.id).isSome = true ∧ cfg.fatal = false ∧ cfg.overwrite = false ∧
      recAct cfg reg t data = (data, none)) ∨
    (((data.lookup t.id).isSome = false ∨ (cfg.fatal = false ∧ cfg.overwrite = true)) ∧
      Loadable reg t ∧ recAct cfg reg t data = (data.set t.id t, none)) ∨
    (((data.lookup t.id).isSome = false ∨ (cfg.fatal = false ∧ cfg.overwrite = true)) ∧
      ¬ Loadable reg t ∧ ∃ e, recAct cfg reg t data = (data, some e)) := by
  unfold recAct
  by_cases h1 : (data.lookup t.id).isSome = true ∧ cfg.fatal = true
  · exact Or.inl ⟨h1.1, h1.2, by rw [if_pos h1]⟩
  · rw [if_neg h1]
    by_cases h2 : (data.lookup t.id).isSome = true ∧ cfg.overwrite = false
    · refine Or.inr (Or.inl ⟨h2.1, ?_, h2.2, by rw [if_pos h2]⟩)
      cases hf : cfg.fatal with
      | false => rfl
      | true => exact absurd ⟨h2.1, hf⟩ h1
    · rw [if_neg h2]
      have h3 : (data.lookup t.id).isSome = false ∨ (cfg.fatal = false ∧ cfg.overwrite = true) := by
        cases hs : (data.lookup t.id).isSome with
        | false => exact Or.inl rfl
        | true =>
          refine Or.inr ⟨?_, ?_⟩
          · cases hf : cfg.fatal with
            | false => rfl
            | true => exact absurd ⟨hs, hf⟩ h1
          · cases ho : cfg.overwrite with
            | true => rfl
            | false => exact absurd ⟨hs, ho⟩ h2
      rcases construct_normal reg data t with ⟨h, hl⟩ | ⟨e, h, hl⟩
      · exact Or.inr (Or.inr (Or.inl ⟨h3, hl, by rw [h]⟩))
      · exact Or.inr (Or.inr (Or.inr ⟨h3, hl, e, by rw [h]⟩))

theorem run_winner (cfg : Cfg) (reg : Registry) (rs : List Rec) :
    ∀ (data data' : Coll), runActs (rs.map (recAct cfg reg)) data = (data', none) →
      ∀ k, data'.lookup k = winner cfg.overwrite (data.lookup k) (withId k rs) := by
  induction rs with
  | nil =>
    intro data data' h k
    simp only [List.map_nil, runActs, Prod.mk.injEq, and_true] at h
    subst h
    simp [winner, withId]
  | cons t rs ih =>
    intro data data' h k
    simp only [List.map_cons, runActs] at h
    have hfil : withId k (t :: rs) = if t.id = k then t :: withId k rs else withId k rs := by
      by_cases hk : t.id = k <;> simp [withId, List.filter_cons, hk]
    rcases recAct_cases cfg reg t data with ⟨-, -, hr⟩ | ⟨hs, -, ho, hr⟩ | ⟨hc, -, hr⟩ | ⟨-, -, e, hr⟩
    · rw [hr] at h; simp at h
    · rw [hr] at h
      simp only at h
      rw [ih data data' h k, hfil]
      by_cases hk : t.id = k
      · subst hk
        simp only [if_true, ho, winner, Bool.false_eq_true, if_false]
        obtain ⟨old, hold⟩ := Option.isSome_iff_exists.mp hs
        simp [hold]
      · simp [hk]
    · rw [hr] at h
      simp only at h
      rw [ih _ data' h k, lookup_set, hfil]
      by_cases hk : t.id = k
      · subst hk
        simp only [if_true]
        cases ho : cfg.overwrite with
        | true =>
          simp only [winner, if_true]
          rw [List.getLast?_cons]
          cases (withId t.id rs).getLast? <;> simp
        | false =>
          rcases hc with hc | hc
          · have : data.lookup t.id = none := by
              cases hl : data.lookup t.id with
              | none => rfl
              | some _ => rw [hl] at hc; cases hc
            simp [winner, this]
          · rw [ho] at hc; cases hc.2
      · have hk' : ¬ k = t.id := fun e => hk e.symm
        simp [hk, hk']
    · rw [hr] at h; simp at h

theorem load_eq (cfg : Cfg) (reg : Registry) (fs : Resolve) (dirs : List String) (data : Coll) :
    load cfg reg fs dirs data
      = runActs ((records (allVisits cfg.recursive fs dirs)).map (recAct cfg reg)) data := by
  unfold load
  rw [loadDirs_eq, load_eq_records]

/-- C21.  When `load()` returns normally, the record in memory under every identifier is the one
the precedence rule names: the last (first, without `dat_overwrite`) of the record loaded
earlier and the readable files with that identifier in traversal order.  Identifiers carried by
no file keep their record. -/
theorem C21_precedence (cfg : Cfg) (reg : Registry) (fs : Resolve) (dirs : List String)
    (data data' : Coll) (h : load cfg reg fs dirs data = (data', none)) (k : String) :
    data'.lookup k = winner cfg.overwrite (data.lookup k)
      (withId k (records (allVisits cfg.recursive fs dirs))) := by
  rw [load_eq] at h
  exact run_winner cfg reg _ data data' h k

theorem visitEntries_map (recursive : Bool) (path : String) (es : List (String × Node)) :
    visitEntries recursive path es = es.map fun p =>
      (p.1, (visitEntries recursive path [p]).flatMap Prod.snd) := by
  induction es with
  | nil => rfl
  | cons p es ih =>
    obtain ⟨name, n⟩ := p
    rw [List.map_cons, ← ih]
    simp [visitEntries]

theorem sortNames_perm {α : Type} {l l' : List (String × α)} (hn : (l.map Prod.fst).Nodup)
    (hp : l.Perm l') : sortNames l = sortNames l' := by
  have htot : ∀ (a b : String × α), (decide (a.1 ≤ b.1) || decide (b.1 ≤ a.1)) = true := by
    intro a b
    rcases le_total a.1 b.1 with h | h <;> simp [h]
  have htr : ∀ (a b c : String × α), decide (a.1 ≤ b.1) = true → decide (b.1 ≤ c.1) = true →
      decide (a.1 ≤ c.1) = true := by
    intro a b c h1 h2
    simp only [decide_eq_true_eq] at *
    exact le_trans h1 h2
  have hinj : ∀ a ∈ l, ∀ b ∈ l, a.1 = b.1 → a = b := by
    intro a ha b hb hab
    exact List.inj_on_of_nodup_map hn ha hb hab
  have h1 := List.pairwise_mergeSort htr htot l
  have h2 := List.pairwise_mergeSort htr htot l'
  have h3 : (sortNames l).Perm (sortNames l') :=
    (List.mergeSort_perm l _).trans (hp.trans (List.mergeSort_perm l' _).symm)
  refine List.Perm.eq_of_pairwise ?_ h1 h2 h3
  intro a b ha hb hab hba
  simp only [decide_eq_true_eq] at hab hba
  have ha' : a ∈ l := List.mem_mergeSort.mp ha
  have hb' : b ∈ l := hp.mem_iff.mpr (List.mem_mergeSort.mp hb)
  exact hinj a ha' b hb' (le_antisymm hab hba)

theorem visits_child (recursive : Bool) {n n' : Node} (hd : n.isDir = n'.isDir) (es1 es2 : List (String × Node))
    (name path : String)
    (h : ∀ p, visits recursive p n = visits recursive p n') :
    visits recursive path (.dir (es1 ++ (name, n) :: es2))
      = visits recursive path (.dir (es1 ++ (name, n') :: es2)) := by
  simp only [visits]
  have : ∀ m : Node, visitEntries recursive path (es1 ++ (name, m) :: es2)
      = visitEntries recursive path es1 ++ visitEntries recursive path [(name, m)] ++
        visitEntries recursive path es2 := by
    intro m
    rw [visitEntries_map recursive path (es1 ++ (name, m) :: es2),
      visitEntries_map recursive path es1, visitEntries_map recursive path es2]
    simp [visitEntries]
  rw [this n, this n']
  have h1 : visitEntries recursive path [(name, n)] = visitEntries recursive path [(name, n')] := by
    have hd : (n.isDir = true) = (n'.isDir = true) := by rw [hd]
    simp only [visitEntries, h]
    by_cases hcnd : (recursive = true ∧ n.isDir = true) ∨ HasExt name ".hpd"
    · have hcnd' := hcnd
      rw [hd] at hcnd'
      rw [if_pos hcnd, if_pos hcnd']
    · have hcnd' := hcnd
      rw [hd] at hcnd'
      rw [if_neg hcnd, if_neg hcnd']
  rw [h1]

theorem visits_listing (recursive : Bool) (n n' : Node) (h : ListingEq n n') :
    n.isDir = n'.isDir ∧ ∀ path, visits recursive path n = visits recursive path n' := by
  induction h with
  | refl => exact ⟨rfl, fun _ => rfl⟩
  | trans _ _ h1 h2 => exact ⟨h1.1.trans h2.1, fun path => (h1.2 path).trans (h2.2 path)⟩
  | @perm es es' hn hp =>
    refine ⟨rfl, fun path => ?_⟩
    simp only [visits]
    rw [visitEntries_map recursive path es, visitEntries_map recursive path es']
    rw [sortNames_perm (l' := es'.map fun p =>
      (p.1, (visitEntries recursive path [p]).flatMap Prod.snd)) _ (hp.map _)]
    rw [List.map_map]
    exact hn
  | @child es1 es2 name n n' hc ih =>
    exact ⟨rfl, fun path => visits_child recursive ih.1 es1 es2 name path ih.2⟩

theorem visits_suppressed (recursive : Bool) (n n' : Node) (h : SuppressedEq n n') :
    n.isDir = n'.isDir ∧ ∀ path, visits recursive path n = visits recursive path n' := by
  induction h with
  | refl => exact ⟨rfl, fun _ => rfl⟩
  | trans _ _ h1 h2 => exact ⟨h1.1.trans h2.1, fun path => (h1.2 path).trans (h2.2 path)⟩
  | @content es1 es2 name c c' hs =>
    refine ⟨rfl, fun path => ?_⟩
    simp only [visits]
    rw [visitEntries_map recursive path (es1 ++ (name, .file c) :: es2),
      visitEntries_map recursive path (es1 ++ (name, .file c') :: es2)]
    simp only [List.map_append, List.map_cons, visitEntries_sup recursive path name _ [] hs]
  | @child es1 es2 name n n' hc ih =>
    exact ⟨rfl, fun path => visits_child recursive ih.1 es1 es2 name path ih.2⟩

theorem allVisits_rel (recursive : Bool) {r : Node → Node → Prop} {fs fs' : Resolve} (h : FsRel r fs fs')
    (hr : ∀ n n', r n n' → ∀ path, visits recursive path n = visits recursive path n') (dirs : List String) :
    allVisits recursive fs dirs = allVisits recursive fs' dirs := by
  unfold allVisits
  congr 1
  funext d
  rcases h d with ⟨h1, h2⟩ | ⟨n, n', h1, h2, h3⟩
  · rw [h1, h2]
  · simp only [h1, h2]; exact hr n n' h3 d

/-- C21, determinism: the outcome of `load()` - the collection and the error - does not depend on the
order in which the operating system lists the directories. -/
theorem C21_listing_order_irrelevant (cfg : Cfg) (reg : Registry) (fs fs' : Resolve) (h : FsRel ListingEq fs fs')
    (dirs : List String) (data : Coll) : load cfg reg fs dirs data = load cfg reg fs' dirs data := by
  rw [load_eq, load_eq, allVisits_rel _ h (fun n n' hn => (visits_listing _ n n' hn).2)]

/-- C20, a suppressed file is not loaded: what is inside the files with extension `.hpd~` has no
influence on the outcome of `load()`, neither on the collection nor on the error. -/
theorem C20_suppressed_not_read (cfg : Cfg) (reg : Registry) (fs fs' : Resolve)
    (h : FsRel SuppressedEq fs fs') (dirs : List String) (data : Coll) :
    load cfg reg fs dirs data = load cfg reg fs' dirs data := by
  rw [load_eq, load_eq, allVisits_rel _ h (fun n n' hn => (visits_suppressed _ n n' hn).2)]

/-- Two file systems that differ inside a suppressed file, and in the order of a listing. -/
example : FsRel SuppressedEq
      (fun d => if d = "a" then some (.dir [("z.hpd~", .file .bad)]) else none)
      (fun d => if d = "a" then some (.dir [("z.hpd~", .file (.json (some "ig.Z") (some "ig") (some "") 7))]) else none) ∧
    FsRel ListingEq
      (fun d => if d = "a" then some (.dir [("z.hpd", .file .bad), ("y.hpd", .file .bad)]) else none)
      (fun d => if d = "a" then some (.dir [("y.hpd", .file .bad), ("z.hpd", .file .bad)]) else none) := by
  constructor
  · intro d
    by_cases hd : d = "a"
    · refine Or.inr ⟨_, _, if_pos hd, if_pos hd, ?_⟩
      exact .content (es1 := []) (es2 := []) ⟨"z", by decide, rfl⟩
    · exact Or.inl ⟨if_neg hd, if_neg hd⟩
  · intro d
    by_cases hd : d = "a"
    · refine Or.inr ⟨_, _, if_pos hd, if_pos hd, ?_⟩
      exact .perm (by decide) (List.Perm.swap _ _ _)
    · exact Or.inl ⟨if_neg hd, if_neg hd⟩

/-! ### a concrete tree for non-vacuity -/

/-- Two directories; `b` carries a second definition of `ig.X`. -/
def demoA : Node := .dir [("y.hpd", .file (.json (some "ig.Y") (some "ig") (some "") 1)),
  ("x.hpd", .file (.json (some "ig.X") (some "ig") (some "") 2)), ("junk.txt", .file .bad)]
/-- The second directory. -/
def demoB : Node := .dir [("x.hpd", .file (.json (some "ig.X") (some "ig") (some "") 3)),
  ("bad.hpd", .file .bad), ("z.hpd~", .file .bad)]
/-- The file system. -/
def demoFs : Resolve := fun p => if p = "a" then some demoA else if p = "b" then some demoB else none
/-- A registry with the class `ig`. -/
def demoReg : Registry := fun c => if c = "ig" then some (fun _ => none) else none

theorem hpd_name (stem : String) (h : stem ≠ "") : HasExt (stem ++ ".hpd") ".hpd" := ⟨stem, h, rfl⟩

theorem demo_allVisits : allVisits true demoFs ["a", "b"]
    = [.file "a/x.hpd" (.json (some "ig.X") (some "ig") (some "") 2),
       .file "a/y.hpd" (.json (some "ig.Y") (some "ig") (some "") 1),
       .file "b/bad.hpd" .bad,
       .file "b/x.hpd" (.json (some "ig.X") (some "ig") (some "") 3), .sup "b/z.hpd~"] := by
  have e1 : HasExt "y.hpd" ".hpd" := ⟨"y", by decide, rfl⟩
  have e2 : HasExt "x.hpd" ".hpd" := ⟨"x", by decide, rfl⟩
  have e3 : HasExt "bad.hpd" ".hpd" := ⟨"bad", by decide, rfl⟩
  have e4 : ¬ HasExt "junk.txt" ".hpd" := fun h => by
    have := (isHpd_iff _).mpr h; revert this; decide
  have e5 : ¬ HasExt "junk.txt" ".hpd~" := fun h => by
    have := (isSup_iff _).mpr h; revert this; decide
  have e6 : HasExt "z.hpd~" ".hpd~" := ⟨"z", by decide, rfl⟩
  have e7 : ¬ HasExt "z.hpd~" ".hpd" := fun h => hasExt_unique_char h e6
  have s1 : ∀ (a b c : List Visit), sortNames [("y.hpd", a), ("x.hpd", b), ("junk.txt", c)]
      = [("junk.txt", c), ("x.hpd", b), ("y.hpd", a)] := by
    intro a b c
    have l1 : ¬ "y.hpd" ≤ "x.hpd" := by decide
    have l2 : ¬ "x.hpd" ≤ "junk.txt" := by decide
    simp [sortNames, List.mergeSort, List.MergeSort.Internal.splitInTwo, List.merge, l1, l2]
  have s2 : ∀ (a b c : List Visit), sortNames [("x.hpd", a), ("bad.hpd", b), ("z.hpd~", c)]
      = [("bad.hpd", b), ("x.hpd", a), ("z.hpd~", c)] := by
    intro a b c
    have l1 : ¬ "x.hpd" ≤ "bad.hpd" := by decide
    have l2 : "bad.hpd" ≤ "z.hpd~" := by decide
    have l3 : "x.hpd" ≤ "z.hpd~" := by decide
    simp [sortNames, List.mergeSort, List.MergeSort.Internal.splitInTwo, List.merge, l1, l2, l3]
  simp [allVisits, demoFs, demoA, demoB, visits, visitEntries, Node.isDir, e1, e2, e3, e4, e5, e6,
    e7, s1, s2]

theorem demo_visits : records (allVisits true demoFs ["a", "b"])
    = [⟨"ig.X", "ig", "", 2, "a/x.hpd"⟩, ⟨"ig.Y", "ig", "", 1, "a/y.hpd"⟩,
       ⟨"ig.X", "ig", "", 3, "b/x.hpd"⟩] := by
  rw [demo_allVisits]; rfl

/-- C21 on the concrete tree: `b/x.hpd` wins with `dat_overwrite`, `a/x.hpd` without. -/
example : ((load ⟨false, true, true⟩ demoReg demoFs ["a", "b"] []).1.lookup "ig.X").map (·.rest)
      = some 3 ∧
    ((load ⟨false, false, true⟩ demoReg demoFs ["a", "b"] []).1.lookup "ig.X").map (·.rest)
      = some 2 ∧
    (load ⟨false, true, true⟩ demoReg demoFs ["a", "b"] []).2 = none := by
  simp only [load_eq]
  rw [demo_visits]
  refine ⟨rfl, rfl, rfl⟩

/-! ## C22 - fatal duplicates -/

theorem run_fatal (cfg : Cfg) (reg : Registry) (hf : cfg.fatal = true) (rs : List Rec)
    (hl : ∀ r ∈ rs, Loadable reg r) :
    ∀ data : Coll,
      ((rs.map Rec.id).Nodup ∧ (∀ r ∈ rs, data.lookup r.id = none) →
        (runActs (rs.map (recAct cfg reg)) data).2 = none) ∧
      (¬ ((rs.map Rec.id).Nodup ∧ (∀ r ∈ rs, data.lookup r.id = none)) →
        (runActs (rs.map (recAct cfg reg)) data).2 = some .data) := by
  induction rs with
  | nil => intro data; simp [runActs]
  | cons t rs ih =>
    intro data
    have hl' := fun r hr => hl r (List.mem_cons_of_mem _ hr)
    simp only [List.map_cons, runActs]
    rcases recAct_cases cfg reg t data with ⟨hs, -, hr⟩ | ⟨-, hf', -, -⟩ | ⟨hc, -, hr⟩ | ⟨-, hn, -⟩
    · rw [hr]
      refine ⟨fun h => ?_, fun _ => rfl⟩
      have := h.2 t (by simp)
      rw [this] at hs
      cases hs
    · rw [hf] at hf'; cases hf'
    · rw [hr]
      simp only
      have hnone : data.lookup t.id = none := by
        rcases hc with hc | hc
        · cases hd : data.lookup t.id with
          | none => rfl
          | some _ => rw [hd] at hc; cases hc
        · rw [hf] at hc; cases hc.1
      have hiff : ((rs.map Rec.id).Nodup ∧ (∀ r ∈ rs, (data.set t.id t).lookup r.id = none)) ↔
          ((t.id :: rs.map Rec.id).Nodup ∧ (∀ r ∈ t :: rs, data.lookup r.id = none)) := by
        simp only [lookup_set, List.nodup_cons, List.mem_map, not_exists, not_and, List.mem_cons,
          forall_eq_or_imp, hnone, true_and]
        constructor
        · rintro ⟨h1, h2⟩
          refine ⟨⟨fun r hr e => ?_, h1⟩, fun r hr => ?_⟩
          · have := h2 r hr
            rw [if_pos e] at this; cases this
          · have := h2 r hr
            split at this
            · cases this
            · exact this
        · rintro ⟨⟨h1, h2⟩, h3⟩
          refine ⟨h2, fun r hr => ?_⟩
          rw [if_neg (h1 r hr)]
          exact h3 r hr
      rw [← hiff]
      exact ih hl' _
    · exact absurd (hl t (by simp)) hn

/-- C22.  Provided every readable record has a usable class: with `dat_exist_fatal` the load
raises a data error exactly when two readable files share an identifier or a file's identifier
is already in the collection; without it no load raises. -/
theorem C22_exist_fatal (cfg : Cfg) (reg : Registry) (fs : Resolve) (dirs : List String)
    (data : Coll)
    (hl : ∀ r ∈ records (allVisits cfg.recursive fs dirs), Loadable reg r) :
    (cfg.fatal = true →
      ((load cfg reg fs dirs data).2 = some .data ↔
        ¬ (((records (allVisits cfg.recursive fs dirs)).map Rec.id).Nodup ∧
          ∀ r ∈ records (allVisits cfg.recursive fs dirs), data.lookup r.id = none)) ∧
      ((load cfg reg fs dirs data).2 = none ∨ (load cfg reg fs dirs data).2 = some .data)) ∧
    (cfg.fatal = false → (load cfg reg fs dirs data).2 = none) := by
  rw [load_eq]
  generalize records (allVisits cfg.recursive fs dirs) = rs at hl
  refine ⟨fun hf => ?_, fun hf => ?_⟩
  · have h := run_fatal cfg reg hf rs hl data
    by_cases hd : (rs.map Rec.id).Nodup ∧ ∀ r ∈ rs, data.lookup r.id = none
    · have h1 := h.1 hd
      refine ⟨⟨fun h2 => ?_, fun h2 => absurd hd h2⟩, Or.inl h1⟩
      rw [h1] at h2; cases h2
    · exact ⟨⟨fun _ => hd, fun _ => h.2 hd⟩, Or.inr (h.2 hd)⟩
  · induction rs generalizing data with
    | nil => rfl
    | cons t rs ih =>
      have hl' := fun r hr => hl r (List.mem_cons_of_mem _ hr)
      simp only [List.map_cons, runActs]
      rcases recAct_cases cfg reg t data with ⟨-, hf', -⟩ | ⟨-, -, -, hr⟩ | ⟨-, -, hr⟩ | ⟨-, hn, -⟩
      · rw [hf] at hf'; cases hf'
      · rw [hr]; exact ih data hl'
      · rw [hr]; exact ih _ hl'
      · exact absurd (hl t (by simp)) hn

example : (∀ r ∈ records (allVisits true demoFs ["a", "b"]), Loadable demoReg r) ∧
    ¬ ((records (allVisits true demoFs ["a", "b"])).map Rec.id).Nodup := by
  rw [demo_visits]
  constructor
  · intro r hr
    simp only [List.mem_cons, List.not_mem_nil, or_false] at hr
    rcases hr with rfl | rfl | rfl <;> exact ⟨fun _ => none, rfl, rfl⟩
  · decide

/-! ## C24 - what can be loaded -/

theorem run_origin (cfg : Cfg) (reg : Registry) (rs : List Rec) :
    ∀ (data : Coll) (k : String) (r : Rec),
      (runActs (rs.map (recAct cfg reg)) data).1.lookup k = some r →
      data.lookup k = some r ∨ (r ∈ rs ∧ r.id = k ∧ Loadable reg r) := by
  induction rs with
  | nil => intro data k r h; exact Or.inl h
  | cons t rs ih =>
    intro data k r h
    simp only [List.map_cons, runActs] at h
    rcases recAct_cases cfg reg t data with ⟨-, -, hr⟩ | ⟨-, -, -, hr⟩ | ⟨-, hld, hr⟩ | ⟨-, -, e, hr⟩
    · rw [hr] at h; exact Or.inl h
    · rw [hr] at h
      rcases ih data k r h with h | ⟨h1, h2⟩
      · exact Or.inl h
      · exact Or.inr ⟨List.mem_cons_of_mem _ h1, h2⟩
    · rw [hr] at h
      rcases ih _ k r h with h | ⟨h1, h2⟩
      · rw [lookup_set] at h
        by_cases hk : k = t.id
        · rw [if_pos hk] at h
          cases h
          exact Or.inr ⟨by simp, hk.symm, hld⟩
        · rw [if_neg hk] at h; exact Or.inl h
      · exact Or.inr ⟨List.mem_cons_of_mem _ h1, h2⟩
    · rw [hr] at h; exact Or.inl h

/-- Files met in a directory have the extension `.hpd`. -/
theorem visits_hpd (recursive : Bool) (n : Node) :
    ∀ path, n.isDir = true → ∀ p c, Visit.file p c ∈ visits recursive path n →
      HasExt p ".hpd" := by
  have hjoin : ∀ path name : String, HasExt name ".hpd" → HasExt (path ++ "/" ++ name) ".hpd" := by
    rintro path name ⟨stem, h1, rfl⟩
    refine ⟨path ++ "/" ++ stem, ?_, by simp only [String.append_assoc]⟩
    intro h
    have := congrArg (fun s => s.toList.length) h
    simp at this
  apply Node.rec
    (motive_1 := fun n => ∀ path, n.isDir = true → ∀ p c, Visit.file p c ∈ visits recursive path n →
      HasExt p ".hpd")
    (motive_2 := fun es => ∀ path p c nm vs, (nm, vs) ∈ visitEntries recursive path es →
      Visit.file p c ∈ vs → HasExt p ".hpd")
    (motive_3 := fun e => ∀ path, e.2.isDir = true → ∀ p c,
      Visit.file p c ∈ visits recursive path e.2 → HasExt p ".hpd")
  · intro c path h; cases h
  · intro es ih path _ p c hm
    simp only [visits, List.mem_flatMap] at hm
    obtain ⟨⟨nm, vs⟩, h1, h2⟩ := hm
    exact ih path p c nm vs (List.mem_mergeSort.mp h1) h2
  · intro path p c nm vs h; simp [visitEntries] at h
  · intro e es ih1 ih2 path p c nm vs h hv
    obtain ⟨name, n⟩ := e
    simp only [visitEntries, List.mem_cons, Prod.mk.injEq] at h
    rcases h with ⟨rfl, rfl⟩ | h
    · split at hv
      · rename_i hcond
        cases n with
        | dir es' => exact ih1 _ rfl p c hv
        | file c' =>
          simp only [visits, List.mem_singleton, Visit.file.injEq] at hv
          obtain ⟨rfl, -⟩ := hv
          rcases hcond with h | h
          · cases h.2
          · exact hjoin path nm h
      · split at hv
        · simp at hv
        · simp at hv
    · exact ih2 path p c nm vs h hv
  · intro name n ih path h p c hm; exact ih path h p c hm

/-- C24.  Every record in the collection after a load of directories - even one that raises half
way - was there before or comes from a visited file with extension `.hpd` that carries `id`,
`class` and `doc`, is stored under its own id, has a usable class and remembers its file. -/
theorem C24_origin (cfg : Cfg) (reg : Registry) (fs : Resolve) (dirs : List String) (data : Coll)
    (hdir : ∀ d ∈ dirs, ∀ n, fs d = some n → n.isDir = true)
    (k : String) (r : Rec) (h : (load cfg reg fs dirs data).1.lookup k = some r) :
    data.lookup k = some r ∨
    (r.id = k ∧ Loadable reg r ∧ HasExt r.fromfile ".hpd" ∧
      ∃ rest, Visit.file r.fromfile (.json (some k) (some r.cls) (some r.doc) rest) ∈
        allVisits cfg.recursive fs dirs) := by
  rw [load_eq] at h
  rcases run_origin cfg reg _ data k r h with h | ⟨h1, h2, h3⟩
  · exact Or.inl h
  · refine Or.inr ⟨h2, h3, ?_⟩
    simp only [records, List.mem_filterMap] at h1
    obtain ⟨v, hv, hr⟩ := h1
    cases v with
    | sup p => simp [Visit.record?] at hr
    | file p c =>
      cases c with
      | bad => simp [Visit.record?] at hr
      | json i cl d rest =>
        cases i with
        | none => simp [Visit.record?] at hr
        | some i =>
          cases cl with
          | none => simp [Visit.record?] at hr
          | some cl =>
            cases d with
            | none => simp [Visit.record?] at hr
            | some d =>
              simp only [Visit.record?, Option.some.injEq] at hr
              subst hr
              simp only at h2
              subst h2
              refine ⟨?_, rest, hv⟩
              simp only [allVisits, List.mem_flatMap] at hv
              obtain ⟨dd, hdd, hv⟩ := hv
              cases hfs : fs dd with
              | none => rw [hfs] at hv; simp at hv
              | some n =>
                rw [hfs] at hv
                exact visits_hpd cfg.recursive n dd (hdir dd hdd n hfs) p _ hv

/-- C24, malformed files do not matter: the outcome of a load is determined by the readable
records in order; unreadable, incomplete and suppressed files have no influence. -/
theorem C24_malformed_ignored (cfg : Cfg) (reg : Registry) (fs fs' : Resolve)
    (dirs dirs' : List String) (data : Coll)
    (h : records (allVisits cfg.recursive fs dirs) = records (allVisits cfg.recursive fs' dirs')) :
    load cfg reg fs dirs data = load cfg reg fs' dirs' data := by
  rw [load_eq, load_eq, h]

theorem visits_subdir (n n' : Node) (h : SubdirEq n n') (path : String) :
    visits false path n = visits false path n' := by
  induction h with
  | refl => rfl
  | trans _ _ h1 h2 => exact h1.trans h2
  | @inside es1 es2 name es es' h1 h2 =>
    simp only [visits]
    rw [visitEntries_map false path (es1 ++ (name, .dir es) :: es2),
      visitEntries_map false path (es1 ++ (name, .dir es') :: es2)]
    simp [visitEntries, h1, h2]

/-- C24 on recursion: without `dat_recursive` what is below ordinary sub-directories has no influence
on the outcome of `load()` ... -/
theorem C24_no_recursion_partial (cfg : Cfg) (hc : cfg.recursive = false) (reg : Registry) (fs fs' : Resolve)
    (h : FsRel SubdirEq fs fs') (dirs : List String) (data : Coll) :
    load cfg reg fs dirs data = load cfg reg fs' dirs data := by
  rw [load_eq, load_eq, hc, allVisits_rel false h (fun n n' hn path => visits_subdir n n' hn path)]

example : SubdirEq (.dir [("sub", .dir [])]) (.dir [("sub", .dir [("x.hpd", .file .bad)])]) :=
  .inside (es1 := []) (es2 := []) (fun h => by have := (isHpd_iff _).mpr h; revert this; decide)
    (fun h => by have := (isSup_iff _).mpr h; revert this; decide)

/-- **C24 disagreement.** ... but a sub-directory whose name ends in `.hpd` is entered even though
recursion is off: its file is loaded (`dat.py:145-153`). -/
theorem C24_recursion_defect :
    load ⟨false, false, false⟩ demoReg
      (fun p => if p = "d" then some (.dir [("sub.hpd",
        .dir [("x.hpd", .file (.json (some "ig.X") (some "ig") (some "") 0))])]) else none) ["d"] []
      = ([("ig.X", ⟨"ig.X", "ig", "", 0, "d/sub.hpd/x.hpd"⟩)], none) := by
  have e2 : HasExt "x.hpd" ".hpd" := ⟨"x", by decide, rfl⟩
  have e3 : HasExt "sub.hpd" ".hpd" := ⟨"sub", by decide, rfl⟩
  rw [load_eq]
  simp [allVisits, visits, visitEntries, e2, e3, sortNames, records, Visit.record?, runActs, recAct, demoReg,
    Coll.set, construct, St.store]

/-! ## C25 - get -/

/-- C25.  `get` returns the loaded record exactly for the identifiers of the collection and a
parameter error for every other name. -/
theorem C25_get (data : Coll) (k : String) :
    (∀ r, get data k = .ok r ↔ data.lookup k = some r) ∧
    (get data k = .error .param ↔ k ∉ data.map Prod.fst) := by
  have hmem : data.lookup k = none ↔ k ∉ data.map Prod.fst := by
    induction data with
    | nil => simp
    | cons p data ih =>
      obtain ⟨j, r⟩ := p
      by_cases hk : k = j
      · simp [List.lookup_cons, hk]
      · have : (k == j) = false := by simpa using hk
        rw [List.lookup_cons, this]
        simp only [ih, List.map_cons, List.mem_cons, hk, false_or]
  unfold get
  cases h : data.lookup k with
  | none => exact ⟨by simp, by simp only [true_iff]; exact hmem.mp h⟩
  | some r =>
    refine ⟨by simp, ?_⟩
    constructor
    · intro h'; cases h'
    · intro h'; rw [hmem.mpr h'] at h; cases h

/-- C25 after a load: `get` returns the record the precedence rule of C21 names. -/
theorem C25_get_after_load (cfg : Cfg) (reg : Registry) (fs : Resolve) (dirs : List String)
    (data data' : Coll) (h : load cfg reg fs dirs data = (data', none)) (k : String) (r : Rec) :
    get data' k = .ok r ↔ winner cfg.overwrite (data.lookup k)
      (withId k (records (allVisits cfg.recursive fs dirs))) = some r := by
  rw [(C25_get data' k).1 r, C21_precedence cfg reg fs dirs data data' h k]

/-! ## C62 - clear and new -/

/-- C62, `clear`: afterwards nothing can be got. -/
theorem C62_clear (data : Coll) (k : String) : get (clear data) k = .error .param := rfl

/-- C62, `new` with complete data (including a `fromfile` entry) and a usable class: the record
can be got under its id, other identifiers are untouched. -/
theorem C62_new_partial (reg : Registry) (data : Coll) (r : Rec) (hl : Loadable reg r) :
    let d : NewData := ⟨some r.id, some r.cls, some r.doc, some r.fromfile, r.rest⟩
    (new reg d data).2 = none ∧ get (new reg d data).1 r.id = .ok r ∧
    ∀ k, k ≠ r.id → get (new reg d data).1 k = get data k := by
  obtain ⟨mk, h1, h2⟩ := hl
  have h3 : new reg ⟨some r.id, some r.cls, some r.doc, some r.fromfile, r.rest⟩ data
      = (data.set r.id r, none) := by
    simp [new, h1, mkNew, h2]
  refine ⟨by simp [h3], by simp [h3, get, lookup_set], fun k hk => by simp [h3, get, lookup_set, hk]⟩

/-- C62, any other data is rejected and the collection is unchanged. -/
theorem C62_new_rejected (reg : Registry) (data : Coll) (d : NewData)
    (h : (new reg d data).2 ≠ none) : (new reg d data).1 = data := by
  unfold new at *
  split at h
  · split at h
    · simp_all
    · split at h
      · simp_all
      · split at h <;> simp_all
  · simp_all

/-- Disagreement with the documentation of `new` (`dat.py:334-344`: the minimum elements are
`id`, `class` and `doc`, and `new` adds `fromfile`): data without `fromfile` is always rejected
with a data error. -/
theorem C62_new_fromfile_defect (reg : Registry) (data : Coll) (i c o : String) (rest : Payload)
    (h : (reg c).isSome) : new reg ⟨some i, some c, some o, none, rest⟩ data = (data, some .data) := by
  obtain ⟨mk, hm⟩ := Option.isSome_iff_exists.mp h
  simp [new, hm, mkNew]

end PyroMat.Data.Props
