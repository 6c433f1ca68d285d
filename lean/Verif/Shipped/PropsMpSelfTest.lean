import Verif.Mp.PropsSelfTest
import Verif.Shipped.MpData

/-!
# C109 on the shipped data
-/

namespace PyroMat.Shipped.Props

open PyroMat PyroMat.Gas PyroMat.Mp PyroMat.Mp.Props PyroMat.Shipped PyroMat.Shipped.Data

/-- A number as read from the file. -/
noncomputable def Dec.doc (d : Dec) : Doc := .num d.val

/-- A group as read from the file. -/
noncomputable def G1.doc (g : G1) : Doc :=
  .list (Dec.doc g.pre :: Dec.doc g.post :: g.terms.map fun t => .list [.int t.1, Dec.doc t.2])

/-- A group as read from the file. -/
noncomputable def G2.doc (g : G2) : Doc :=
  .list (.list [Dec.doc g.prex, Dec.doc g.prey] :: .list [Dec.doc g.postx, Dec.doc g.posty] ::
    g.terms.map fun t => .list [.int t.1, .int t.2.1, Dec.doc t.2.2])

/-- The entry `AOgroup` as read from the file. -/
noncomputable def AoFile.doc (a : AoFile) : Obj :=
  [("Tscale", Dec.doc a.Tscale), ("dscale", Dec.doc a.dscale)] ++ (a.logt.map fun d => ("logt", Dec.doc d)).toList ++
    (a.coef0.map fun c => ("coef0", Doc.list (c.map G1.doc))).toList ++
    [("coef1", .list (a.coef1.map fun r => .list [Dec.doc r.1, Dec.doc r.2]))]

/-- The entry `ARgroup` as read from the file. -/
noncomputable def ArFile.doc (a : ArFile) : Obj :=
  [("Tscale", Dec.doc a.Tscale), ("dscale", Dec.doc a.dscale), ("coef0", .list (a.coef0.map fun c => .list (c.map G2.doc))),
    ("coef1", .list (a.coef1.map fun r => .list (r.map Dec.doc))), ("coef2", .list (a.coef2.map fun r => .list (r.map Dec.doc)))]

/-- Positive scales and tables of the right widths. -/
def shaped (f : MpFile) : Bool :=
  decide (0 < f.ao.Tscale.m) && decide (0 < f.ao.dscale.m) && (f.ar.coef1.all fun r => r.length == 7) &&
    f.ar.coef2.all fun r => r.length == 8

theorem fluids_shaped : (shippedMp.all shaped) = true := by decide +kernel

theorem doc_scalar (d : Dec) : IsScalar (Dec.doc d) := Or.inr ⟨_, rfl⟩

theorem doc_pos {d : Dec} (h : 0 < d.m) : IsPositive (Dec.doc d) :=
  Or.inr ⟨_, div_pos (by exact_mod_cast h) (by positivity), rfl⟩

/-- C109, shipped data.  Every shipped multi-phase file has its coefficients in the documented form, and passes the
integrity checks of the self-test. -/
theorem C109_shipped (f : MpFile) (hf : f ∈ shippedMp) (sat rest : Except Err Unit) (trials : List Trial) :
    Documented (AoFile.doc f.ao) (ArFile.doc f.ar) ∧
    mpTest (AoFile.doc f.ao) (ArFile.doc f.ar) true sat trials rest = .ok true := by
  have hs := List.all_eq_true.mp fluids_shaped f hf
  simp only [shaped, Bool.and_eq_true, decide_eq_true_eq, List.all_eq_true, beq_iff_eq] at hs
  obtain ⟨⟨⟨h1, h2⟩, h3⟩, h4⟩ := hs
  have hD : Documented (AoFile.doc f.ao) (ArFile.doc f.ar) := by
    refine ⟨⟨_, rfl, doc_pos h1⟩, ⟨_, rfl, doc_pos h2⟩, ?_, ?_, ?_, ⟨_, rfl⟩, ⟨_, rfl⟩, ?_, ?_, ?_⟩
    · intro d hd
      cases hl : f.ao.logt <;> cases hc : f.ao.coef0 <;> simp [AoFile.doc, hl, hc, List.lookup] at hd
      all_goals (subst hd; exact doc_scalar _)
    · intro d hd
      cases hl : f.ao.logt <;> cases hc : f.ao.coef0 <;> simp [AoFile.doc, hl, hc, List.lookup] at hd
      all_goals
        subst hd
        refine ⟨_, fun g hg => ?_, rfl⟩
        simp only [List.mem_map] at hg
        obtain ⟨g, -, rfl⟩ := hg
        refine ⟨_, _, _, doc_scalar _, doc_scalar _, fun t ht => ?_, rfl⟩
        simp only [List.mem_map] at ht
        obtain ⟨t, -, rfl⟩ := ht
        exact ⟨t.1, _, doc_scalar _, rfl⟩
    · intro d hd
      cases hl : f.ao.logt <;> cases hc : f.ao.coef0 <;> simp [AoFile.doc, hl, hc, List.lookup] at hd
      all_goals
        subst hd
        refine ⟨_, fun g hg => ?_, rfl⟩
        simp only [List.mem_map] at hg
        obtain ⟨g, -, rfl⟩ := hg
        exact ⟨_, rfl, rfl⟩
    · intro d hd
      simp [ArFile.doc, List.lookup] at hd
      subst hd
      refine ⟨_, fun g hg => ?_, rfl⟩
      simp only [List.mem_map] at hg
      obtain ⟨c, -, rfl⟩ := hg
      refine ⟨_, fun g hg => ?_, rfl⟩
      simp only [List.mem_map] at hg
      obtain ⟨g, -, rfl⟩ := hg
      refine ⟨_, _, _, ⟨_, _, doc_scalar _, doc_scalar _, rfl⟩, ⟨_, _, doc_scalar _, doc_scalar _, rfl⟩, fun t ht => ?_, rfl⟩
      simp only [List.mem_map] at ht
      obtain ⟨t, -, rfl⟩ := ht
      exact ⟨t.1, t.2.1, _, doc_scalar _, rfl⟩
    · intro d hd
      simp [ArFile.doc, List.lookup] at hd
      subst hd
      refine ⟨_, fun g hg => ?_, rfl⟩
      simp only [List.mem_map] at hg
      obtain ⟨r, hr, rfl⟩ := hg
      exact ⟨_, by simpa using h3 r hr, rfl⟩
    · intro d hd
      simp [ArFile.doc, List.lookup] at hd
      subst hd
      refine ⟨_, fun g hg => ?_, rfl⟩
      simp only [List.mem_map] at hg
      obtain ⟨r, hr, rfl⟩ := hg
      exact ⟨_, by simpa using h4 r hr, rfl⟩
  exact ⟨hD, C109_accepts _ _ hD sat rest trials⟩

end PyroMat.Shipped.Props
