import Verif.Registry.PropsSummary

set_option linter.unusedSimpArgs false

/-! # Examples for C92 and C93 -/

namespace PyroMat.Registry.Info

open PyroMat PyroMat.Registry PyroMat.Registry.Info.Spec PyroMat.Registry.Props

/-- Ethanol, a nitrogen ion and a mixture. -/
def ethanol : Subst :=
  ⟨0, "ig.C2H6O".toList, "ig2", some "64-17-5", none, some ["Ethanol".toList, "EtOH".toList], []⟩

/-- A doubly ionized atom. -/
def ion : Subst := ⟨1, "ig.N+2".toList, "ig", none, none, none, []⟩

/-- A mixture. -/
def air : Subst := ⟨2, "ig.air".toList, "igmix", none, none, some [], []⟩

/-- The sheets of the three. -/
def sheets (ss : Subst) : Sheet :=
  if ss.oid = 0 then
    ⟨"/d/C2H6O.hpd".toList, "From a book.".toList,
      .ok [("C".toList, .int 2), ("H".toList, .int 6), ("O".toList, .int 1)], .ok "46.07".toList,
      fun p => p != "X".toList⟩
  else if ss.oid = 1 then
    ⟨"/d/N.hpd".toList, "Ion.".toList, .ok [("N".toList, .int 1), ("e".toList, .int (-2))],
      .ok "14.0".toList, fun p => p == "h".toList || p == "cp".toList⟩
  else ⟨[], "Mixture.".toList, .ok [("N".toList, .real (3/2)), ("O".toList, .real (1/2))],
      .ok "28.9".toList, fun _ => true⟩

/-- A world for the examples. -/
def world : World :=
  ⟨sheets, fun f => if f = [] then none else some ⟨9, 5, 1, 2, 2022⟩, "2.2.6".toList,
    fun _ => "x".toList, fun x => if x = 3/2 then "1.500".toList else "0.500".toList,
    PyroMat.Text.Props.pyWs, fun _ => "{}".toList⟩

theorem three_objects : Objects [ethanol, ion, air] := by
  intro a ha b hb
  simp only [List.mem_cons, List.not_mem_nil, or_false] at ha hb
  rcases ha with rfl | rfl | rfl <;> rcases hb with rfl | rfl | rfl <;> decide

/-- The hypotheses of `C92_table`, `C92_order` and `C92_aligned`: three substances out of order. -/
example : IsTable world [ion, ethanol, air]
    (received .target (info id world [] (.set [ion, ethanol, air]) {}).wrote) ∧
    (info id world [] (.set [ion, ethanol, air]) {}).wrote =
      (info id world [] (.list [air, ethanol, ion]) {}).wrote := by
  refine ⟨(C92_table id world [] [ion, ethanol, air] {} _ (Or.inl rfl) (by decide)
    (by decide)).2.2.2, ?_⟩
  exact C92_order id world [] [ion, ethanol, air] [air, ethanol, ion] {} _ _ (Or.inl rfl)
    (Or.inr (Or.inl rfl)) (by decide) (by decide) (by decide)

/-- The rows of the example, as they are printed. -/
example : pyLe ethanol.id ion.id = true ∧ pyLe ion.id air.id = true ∧ pyLe air.id ion.id = false ∧
    rowText world 8 7 ethanol =
      " ig.C2H6O :  ig2  : Ethanol : T p d v cp cv gam e h s mw R   Y\n".toList ∧
    rowText world 8 7 ion =
      " ig.N+2   :  ig   :         :         cp          h           \n".toList := by
  decide

/-- The hypotheses of `C92_search`: two of three substances satisfy a criterion. -/
example : ∃ l : List Subst, (∀ c, c ∈ l ↔ c ∈ [ethanol, ion, air] ∧
      Registry.Spec.Satisfies id { collection := some "ig".toList } c) ∧
    IsTable world l (received .target
      (info id world [ethanol, ion, air] .none { collection := some "ig".toList }).wrote) := by
  have hs : ∀ c, c ∈ [ethanol, ion, air] →
      Registry.Spec.Satisfies id { collection := some "ig".toList } c := by
    intro c hc
    apply (candidate_iff id _ c).mp
    simp only [List.mem_cons, List.not_mem_nil, or_false] at hc
    rcases hc with rfl | rfl | rfl <;> decide
  obtain ⟨-, l, -, h1, h2⟩ := C92_search id world [ethanol, ion, air]
    { collection := some "ig".toList } three_objects (by decide) ethanol ion (by simp) (by simp)
    (by decide) (hs _ (by simp)) (hs _ (by simp))
  exact ⟨l, h1, h2⟩

/-- The hypotheses of `C92_nothing`: no substance has the class asked for. -/
example : info id world [ethanol, ion, air] .none { pmclass := some "mp1" } =
    ⟨[(.target, nothing world { pmclass := some "mp1" })], .none, none⟩ := by
  apply C92_nothing id world _ _ three_objects
  intro c hc hsat
  have := hsat.pmclass "mp1" rfl
  simp only [List.mem_cons, List.not_mem_nil, or_false] at hc
  rcases hc with rfl | rfl | rfl <;> exact absurd this (by decide)

/-- The hypotheses of `C93_summary` and `C93_stream_defect` for the ion, asked for by name. -/
example : (info id world [ethanol, ion, air] (.ident "ig.N+2".toList) {}).err = none ∧
    received .stdout (info id world [ethanol, ion, air] (.ident "ig.N+2".toList) {}).wrote ≠ [] := by
  have hr : Refers id [ethanol, ion, air] {} (.ident "ig.N+2".toList) ion :=
    Or.inr (Or.inl ⟨rfl, by simp⟩)
  exact ⟨(C93_summary id world _ {} _ ion three_objects (by decide) hr
      [("N".toList, .int 1), ("e".toList, .int (-2))] "14.0".toList ⟨9, 5, 1, 2, 2022⟩ rfl rfl rfl
      (by decide) (by decide) (by decide) rfl rfl).1,
    C93_stream_defect id world _ {} _ ion three_objects (by decide) hr
      [("N".toList, .int 1), ("e".toList, .int (-2))] "14.0".toList ⟨9, 5, 1, 2, 2022⟩ rfl rfl rfl
      (by decide) (by decide) (by decide) rfl rfl ⟨'I', by decide, by decide⟩⟩

/-- The two lines of the formula of ethanol, the charge of the ion and
the time of the file. -/
example : (atomLines world [("C".toList, .int 2), ("H".toList, .int 6), ("O".toList, .int 1)]).aline
      = "    C H O".toList ∧
    (atomLines world [("C".toList, .int 2), ("H".toList, .int 6), ("O".toList, .int 1)]).nline
      = "     2 6 ".toList ∧
    (atomLines world [("N".toList, .int 1), ("e".toList, .int (-2))]).charge = "+2".toList ∧
    clock ⟨9, 5, 1, 2, 2022⟩ = "9:05 March 1, 2022".toList := by decide

/-- The hypotheses of `C93_same`: the same summary by object and by identifier. -/
example : (info id world [ethanol, ion, air] (.ident "ig.C2H6O".toList) {}).wrote =
    (info id world [ethanol, ion, air] (.instance ethanol) {}).wrote :=
  (C93_same id world [ethanol, ion, air] {} {} _ _ ethanol three_objects (by decide)
    (Or.inr (Or.inl ⟨rfl, by simp⟩)) (Or.inl rfl)).1

/-- The hypotheses of `C93_unknown`. -/
example : (info id world [ethanol, ion, air] (.ident "mp.H2O".toList) {}).err = some .param :=
  (C93_unknown id world [ethanol, ion, air] {} _ (by decide)).1

/-- The hypotheses of `C93_no_file_defect`: the mixture was not read from a file. -/
example : (info id world [ethanol, ion, air] (.set [air]) {}).err = some .exception :=
  (C93_no_file_defect id world [ethanol, ion, air] {} _ air three_objects (by decide)
    (Or.inr (Or.inr (Or.inl rfl))) [("N".toList, .real (3/2)), ("O".toList, .real (1/2))]
    "28.9".toList rfl rfl rfl).1

/-- The hypotheses of `C93_atoms_fail`: a world in which no substance knows its atoms. -/
example : (info id { world with sheet := fun ss => { sheets ss with amounts := .error .data } }
    [ethanol] (.instance ethanol) {}).err = some .data :=
  (C93_atoms_fail id { world with sheet := fun ss => { sheets ss with amounts := .error .data } }
    [ethanol] {} _ ethanol (fun a ha b hb _ => by
      rw [List.mem_singleton] at ha hb; rw [ha, hb]) (by decide) (Or.inl rfl) .data rfl).1

end PyroMat.Registry.Info
