import Verif.Data.Spec

set_option linter.unusedSimpArgs false

namespace PyroMat.Data

open PyroMat PyroMat.Data.Spec

/-! ## names -/

theorem ofList_append_toList (a b : List Char) : String.ofList (a ++ b) = String.ofList a ++ String.ofList b := by
  simp

theorem lastChars_eq_iff (n : Nat) (s : String) (ext : String) (he : ext.toList.length = n) :
    (n < s.toList.length ∧ lastChars n s = ext.toList) ↔ HasExt s ext := by
  constructor
  · rintro ⟨h1, h2⟩
    refine ⟨String.ofList (s.toList.take (s.toList.length - n)), ?_, ?_⟩
    · intro h
      have h' : (s.toList.take (s.toList.length - n)).length = 0 := by
        have := congrArg String.toList h
        rw [String.toList_ofList] at this
        rw [this]; rfl
      rw [List.length_take] at h'
      omega
    · apply String.toList_injective
      simp only [String.toList_append, String.toList_ofList]
      rw [← h2, lastChars, List.take_append_drop]
  · rintro ⟨stem, h1, rfl⟩
    have hpos : 0 < stem.toList.length := by
      rcases Nat.eq_zero_or_pos stem.toList.length with h | h
      · exfalso; apply h1; apply String.toList_injective; simpa using List.eq_nil_of_length_eq_zero h
      · exact h
    simp only [lastChars, String.toList_append, List.length_append]
    refine ⟨by omega, ?_⟩
    have : stem.toList.length + ext.toList.length - n = stem.toList.length := by omega
    rw [this, List.drop_left]

theorem isHpd_iff (s : String) : isHpd s = true ↔ HasExt s ".hpd" := by
  rw [← lastChars_eq_iff 4 s ".hpd" rfl]
  simp [isHpd]

theorem isSup_iff (s : String) : isSup s = true ↔ HasExt s ".hpd~" := by
  rw [← lastChars_eq_iff 5 s ".hpd~" rfl]
  simp [isSup]

/-! ## statements in sequence -/

variable {σ : Type}

theorem runActs_append (as bs : List (Act σ)) (s : σ) :
    runActs (as ++ bs) s =
      match runActs as s with
      | (s', none) => runActs bs s'
      | (s', some e) => (s', some e) := by
  induction as generalizing s with
  | nil => rfl
  | cons a as ih =>
    simp only [List.cons_append, runActs]
    cases h : a s with
    | mk s' o =>
      cases o with
      | none => simp only [ih]
      | some e => rfl

theorem runActs_singleton (a : Act σ) : runActs [a] = a := by
  funext s
  simp only [runActs]
  cases h : a s with
  | mk s' o => cases o <;> rfl

theorem runActs_flatMap {α : Type} (f : α → List (Act σ)) (l : List α) :
    runActs (l.flatMap f) = runActs (l.map fun x => runActs (f x)) := by
  induction l with
  | nil => rfl
  | cons x l ih =>
    funext s
    rw [List.flatMap_cons, runActs_append, List.map_cons, runActs]
    cases h : runActs (f x) s with
    | mk s' o =>
      cases o with
      | none => simp only [ih]
      | some e => rfl

/-- The statement executed for a visit. -/
def Spec.Visit.act (onFile : String → Content → Act σ) (onSup : String → Act σ) : Visit → Act σ
  | .file p c => onFile p c
  | .sup p => onSup p

theorem sortNames_map {α β : Type} (f : α → β) (l : List (String × α)) :
    sortNames (l.map fun p => (p.1, f p.2)) = (sortNames l).map fun p => (p.1, f p.2) := by
  unfold sortNames
  rw [List.map_mergeSort]
  intros; rfl

mutual
theorem loadNode_eq (recursive : Bool) (onFile : String → Content → Act σ)
    (onSup : String → Act σ) (path : String) (n : Node) :
    loadNode recursive onFile onSup path n
      = runActs ((visits recursive path n).map (Visit.act onFile onSup)) := by
  match n with
  | .file c => simp [loadNode, visits, Visit.act, runActs_singleton]
  | .dir entries =>
    simp only [loadNode, visits, entryActs_eq recursive onFile onSup path entries]
    rw [sortNames_map (fun vs : List Visit => runActs (vs.map (Visit.act onFile onSup))),
      List.map_map, List.map_flatMap, runActs_flatMap]
    rfl
theorem entryActs_eq (recursive : Bool) (onFile : String → Content → Act σ)
    (onSup : String → Act σ) (path : String) (es : List (String × Node)) :
    entryActs recursive onFile onSup path es
      = (visitEntries recursive path es).map fun p =>
        (p.1, runActs (p.2.map (Visit.act onFile onSup))) := by
  match es with
  | [] => rfl
  | (name, n) :: rest =>
    simp only [entryActs, visitEntries, List.map_cons,
      entryActs_eq recursive onFile onSup path rest]
    congr 1
    congr 1
    unfold entryAct
    rw [loadNode_eq recursive onFile onSup (join path name) n]
    by_cases h1 : (recursive && n.isDir) = true
    · rw [if_pos h1, if_pos (Or.inl (by simpa using h1))]
      rfl
    · rw [if_neg h1]
      by_cases h2 : isHpd name = true
      · rw [if_pos h2, if_pos (Or.inr ((isHpd_iff name).mp h2))]
        rfl
      · have hn : ¬ ((recursive = true ∧ n.isDir = true) ∨ HasExt name ".hpd") := by
          rintro (h | h)
          · exact h1 (by simpa using h)
          · exact h2 ((isHpd_iff name).mpr h)
        rw [if_neg h2, if_neg hn]
        by_cases h3 : isSup name = true
        · rw [if_pos h3, if_pos ((isSup_iff name).mp h3)]
          simp [Visit.act, runActs_singleton, join]
        · rw [if_neg h3, if_neg (fun h => h3 ((isSup_iff name).mpr h))]
          rfl
end

theorem loadDirs_eq (cfg : Cfg) (reg : Registry) (fs : Resolve) (dirs : List String) :
    runActs (dirs.map (loadPath cfg reg fs))
      = runActs ((allVisits cfg.recursive fs dirs).map (Visit.act (fileAct cfg reg) supAct)) := by
  unfold allVisits
  rw [List.map_flatMap, runActs_flatMap]
  congr 1
  apply List.map_congr_left
  intro d _
  unfold loadPath
  cases fs d with
  | none => rfl
  | some n => simp only [loadNode_eq]

/-! ## collections -/

theorem lookup_set (c : Coll) (k j : String) (r : Rec) :
    (c.set k r).lookup j = if j = k then some r else c.lookup j := by
  induction c with
  | nil =>
    by_cases h : j = k
    · simp [Coll.set, List.lookup_cons, h]
    · have h' : (j == k) = false := by simpa using h
      simp [Coll.set, List.lookup_cons, h, h']
  | cons p c ih =>
    obtain ⟨k', r'⟩ := p
    unfold Coll.set
    by_cases hk : k' = k
    · subst hk
      by_cases h : j = k'
      · simp [List.lookup_cons, h]
      · have h' : (j == k') = false := by simpa using h
        simp [List.lookup_cons, h, h']
    · simp only [hk, if_false, List.lookup_cons]
      by_cases h : j = k'
      · subst h
        simp [hk]
      · have : (j == k') = false := by simpa using h
        simp only [this]
        exact ih

theorem record?_eq (p : String) (c : Content) : Visit.record? (.file p c) = loadFile p c := by
  cases c with
  | bad => rfl
  | json i cl d r => cases i <;> cases cl <;> cases d <;> rfl

/-- A file action in normal mode, in terms of the record read. -/
theorem fileAct_normal (cfg : Cfg) (reg : Registry) (p : String) (c : Content) (data : Coll) :
    fileAct cfg reg p c ⟨data, none⟩ =
      match Visit.record? (.file p c) with
      | none => (⟨data, none⟩, none)
      | some t =>
        if (data.lookup t.id).isSome ∧ cfg.fatal = true then (⟨data, none⟩, some .data)
        else if (data.lookup t.id).isSome ∧ cfg.overwrite = false then (⟨data, none⟩, none)
        else construct reg ⟨data, none⟩ t := by
  rw [record?_eq, fileAct]
  cases hl : loadFile p c with
  | none => rfl
  | some t =>
    simp only [St.loadto]
    cases hd : data.lookup t.id with
    | none => simp
    | some old =>
      cases hf : cfg.fatal <;> cases ho : cfg.overwrite <;> simp

theorem supAct_normal (p : String) (data : Coll) : supAct p ⟨data, none⟩ = (⟨data, none⟩, none) := rfl

theorem construct_normal (reg : Registry) (data : Coll) (t : Rec) :
    (construct reg ⟨data, none⟩ t = (⟨data.set t.id t, none⟩, none) ∧ Loadable reg t) ∨
    (∃ e, construct reg ⟨data, none⟩ t = (⟨data, none⟩, some e) ∧ ¬ Loadable reg t) := by
  unfold construct
  cases h : reg t.cls with
  | none => exact Or.inr ⟨.data, rfl, by rintro ⟨mk, h1, -⟩; rw [h] at h1; cases h1⟩
  | some mk =>
    cases h2 : mk t with
    | none => exact Or.inl ⟨by simp [h2, St.store], mk, h, h2⟩
    | some e =>
      refine Or.inr ⟨e, by simp [h2], ?_⟩
      rintro ⟨mk', h3, h4⟩
      rw [h] at h3; cases h3
      rw [h2] at h4; cases h4

/-- In normal mode, visiting is the same as processing the readable records only. -/
def recAct (cfg : Cfg) (reg : Registry) (t : Rec) : Act Coll := fun data =>
  if (data.lookup t.id).isSome ∧ cfg.fatal = true then (data, some .data)
  else if (data.lookup t.id).isSome ∧ cfg.overwrite = false then (data, none)
  else
    match construct reg ⟨data, none⟩ t with
    | (s, e) => (s.data, e)

theorem load_eq_records (cfg : Cfg) (reg : Registry) (vs : List Visit) (data : Coll) :
    runActs (vs.map (Visit.act (fileAct cfg reg) supAct)) ⟨data, none⟩
      = ((⟨(runActs ((records vs).map (recAct cfg reg)) data).1, none⟩ : St),
         (runActs ((records vs).map (recAct cfg reg)) data).2) := by
  induction vs generalizing data with
  | nil => rfl
  | cons v vs ih =>
    cases v with
    | sup p =>
      simp only [List.map_cons, runActs, Visit.act, supAct_normal, ih]
      rfl
    | file p c =>
      simp only [List.map_cons, runActs, Visit.act, fileAct_normal]
      cases hr : Visit.record? (.file p c) with
      | none =>
        simp only [ih]
        have : records (.file p c :: vs) = records vs := by simp [records, hr]
        rw [this]
      | some t =>
        have : records (.file p c :: vs) = t :: records vs := by simp [records, hr]
        rw [this]
        simp only [List.map_cons, runActs, recAct]
        by_cases h1 : (data.lookup t.id).isSome ∧ cfg.fatal = true
        · simp only [if_pos h1]
        · by_cases h2 : (data.lookup t.id).isSome ∧ cfg.overwrite = false
          · simp only [if_neg h1, if_pos h2, ih]
          · simp only [if_neg h1, if_neg h2]
            rcases construct_normal reg data t with ⟨h, -⟩ | ⟨e, h, -⟩
            · simp only [h, ih]
            · simp only [h]

end PyroMat.Data
