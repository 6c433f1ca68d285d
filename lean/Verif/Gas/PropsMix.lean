import Verif.Gas.MixSpec
import Verif.Gas.PropsMore

/-!
# C38: ideal-gas mixtures
-/

set_option linter.unusedSimpArgs false

namespace PyroMat.Gas.Props

open PyroMat PyroMat.Units PyroMat.Units.Spec PyroMat.Units.Props PyroMat.Gas PyroMat.Gas.Spec
open PyroMat.Gas.Mix PyroMat.Config.Defaults Filter Topology

/-! ## The set-up -/

/-- All passes of the first loop. -/
noncomputable def steps (b : Bool) (cs : List Comp) (t : Tally) : Tally :=
  cs.foldl (fun t c => step b c.name c.qty c.gas t) t

theorem loop_steps (coll : Coll) (b : Bool) (cs : List Comp)
    (h : ∀ c ∈ cs, ∃ as, coll c.name = some (.gas c.gas as)) (t : Tally) :
    loop coll b (cs.map (fun c => (c.name, c.qty))) t = (steps b cs t, none) := by
  induction cs generalizing t with
  | nil => rfl
  | cons c cs ih =>
    obtain ⟨as, ha⟩ := h c (by simp)
    simp only [List.map_cons, loop, ha]
    rw [ih (fun c hc => h c (by simp [hc]))]
    rfl

theorem steps_tally (b : Bool) (cs : List Comp) (t : Tally) :
    (steps b cs t).tx = t.tx + (cs.map (moles b)).sum ∧
    (steps b cs t).ty = t.ty + (cs.map (grams b)).sum ∧
    (steps b cs t).o.x = t.o.x ++ cs.map (fun c => (c.name, moles b c)) ∧
    (steps b cs t).o.y = t.o.y ++ cs.map (fun c => (c.name, grams b c)) ∧
    (steps b cs t).o.mw = t.o.mw + (cs.map (fun c => c.gas.mw * moles b c)).sum ∧
    (steps b cs t).o.pref = t.o.pref + (cs.map (fun c => Real.log c.gas.pref * moles b c)).sum ∧
    (steps b cs t).o.bs = t.o.bs ∧ (steps b cs t).o.smix = t.o.smix := by
  induction cs generalizing t with
  | nil => simp [steps]
  | cons c cs ih =>
    obtain ⟨h1, h2, h3, h4, h5, h6, h7, h8⟩ := ih (step b c.name c.qty c.gas t)
    refine ⟨h1.trans ?_, h2.trans ?_, h3.trans ?_, h4.trans ?_, h5.trans ?_, h6.trans ?_, h7, h8⟩
    · simp [step, moles]; ring
    · simp [step, grams]; ring
    · simp [step, moles]
    · simp [step, grams]
    · simp [step, moles]; ring
    · simp [step, moles]; ring

theorem steps_lo (b : Bool) (cs : List Comp) (t : Tally) (l : ℝ) (hl : t.o.lo = some l) :
    ∃ L, (steps b cs t).o.lo = some L ∧ l ≤ L ∧ (∀ c ∈ cs, c.gas.Tlo ≤ L) ∧
      (L = l ∨ ∃ c ∈ cs, L = c.gas.Tlo) := by
  induction cs generalizing t l with
  | nil => exact ⟨l, hl, le_refl _, by simp, .inl rfl⟩
  | cons c cs ih =>
    obtain ⟨L, h1, h2, h3, h4⟩ := ih (step b c.name c.qty c.gas t) (max c.gas.Tlo l)
      (by simp [step, maxLo, hl])
    refine ⟨L, h1, (le_max_right _ _).trans h2, ?_, ?_⟩
    · intro d hd
      rcases List.mem_cons.mp hd with rfl | hd
      · exact (le_max_left _ _).trans h2
      · exact h3 d hd
    · rcases h4 with h4 | ⟨d, hd, h4⟩
      · rcases max_choice c.gas.Tlo l with hm | hm
        · exact .inr ⟨c, by simp, h4.trans hm⟩
        · exact .inl (h4.trans hm)
      · exact .inr ⟨d, by simp [hd], h4⟩

theorem steps_hi (b : Bool) (cs : List Comp) (t : Tally) (l : ℝ) (hl : t.o.hi = some l) :
    ∃ L, (steps b cs t).o.hi = some L ∧ L ≤ l ∧ (∀ c ∈ cs, L ≤ c.gas.Thi) ∧
      (L = l ∨ ∃ c ∈ cs, L = c.gas.Thi) := by
  induction cs generalizing t l with
  | nil => exact ⟨l, hl, le_refl _, by simp, .inl rfl⟩
  | cons c cs ih =>
    obtain ⟨L, h1, h2, h3, h4⟩ := ih (step b c.name c.qty c.gas t) (min c.gas.Thi l)
      (by simp [step, minHi, hl])
    refine ⟨L, h1, h2.trans (min_le_right _ _), ?_, ?_⟩
    · intro d hd
      rcases List.mem_cons.mp hd with rfl | hd
      · exact h2.trans (min_le_left _ _)
      · exact h3 d hd
    · rcases h4 with h4 | ⟨d, hd, h4⟩
      · rcases min_choice c.gas.Thi l with hm | hm
        · exact .inr ⟨c, by simp, h4.trans hm⟩
        · exact .inl (h4.trans hm)
      · exact .inr ⟨d, by simp [hd], h4⟩

theorem steps_limits (b : Bool) (cs : List Comp) (hne : cs ≠ []) (t : Tally) (h1 : t.o.lo = none)
    (h2 : t.o.hi = none) : ∃ L H, (steps b cs t).o.lo = some L ∧ (steps b cs t).o.hi = some H ∧
      (∀ c ∈ cs, c.gas.Tlo ≤ L) ∧ (∃ c ∈ cs, L = c.gas.Tlo) ∧
      (∀ c ∈ cs, H ≤ c.gas.Thi) ∧ (∃ c ∈ cs, H = c.gas.Thi) := by
  cases cs with
  | nil => exact absurd rfl hne
  | cons c cs =>
    obtain ⟨L, l1, l2, l3, l4⟩ := steps_lo b cs (step b c.name c.qty c.gas t) c.gas.Tlo
      (by simp [step, maxLo, h1])
    obtain ⟨H, k1, k2, k3, k4⟩ := steps_hi b cs (step b c.name c.qty c.gas t) c.gas.Thi
      (by simp [step, minHi, h2])
    refine ⟨L, H, l1, k1, ?_, ?_, ?_, ?_⟩
    · intro d hd
      rcases List.mem_cons.mp hd with rfl | hd
      · exact l2
      · exact l3 d hd
    · rcases l4 with l4 | ⟨d, hd, l4⟩
      · exact ⟨c, by simp, l4⟩
      · exact ⟨d, by simp [hd], l4⟩
    · intro d hd
      rcases List.mem_cons.mp hd with rfl | hd
      · exact k2
      · exact k3 d hd
    · rcases k4 with k4 | ⟨d, hd, k4⟩
      · exact ⟨c, by simp, k4⟩
      · exact ⟨d, by simp [hd], k4⟩

theorem sum_pos_of {cs : List Comp} (hne : cs ≠ []) (f : Comp → ℝ) (h : ∀ c ∈ cs, 0 < f c) :
    0 < (cs.map f).sum := by
  induction cs with
  | nil => exact absurd rfl hne
  | cons c cs ih =>
    simp only [List.map_cons, List.sum_cons]
    by_cases hc : cs = []
    · subst hc; simpa using h c (by simp)
    · exact add_pos (h c (by simp)) (ih hc (fun d hd => h d (by simp [hd])))

section
variable {coll : Coll} {D : Entry} {cs : List Comp}

theorem moles_pos (hS : Sound coll D cs) : ∀ c ∈ cs, 0 < moles D.bymass c := by
  intro c hc
  unfold moles
  split
  · exact div_pos (hS.qty c hc) (hS.mw c hc)
  · exact hS.qty c hc

theorem grams_eq (hS : Sound coll D cs) : ∀ c ∈ cs, grams D.bymass c = c.gas.mw * moles D.bymass c := by
  intro c hc
  have := (hS.mw c hc).ne'
  unfold moles grams
  split
  · field_simp
  · ring

theorem grams_pos (hS : Sound coll D cs) : ∀ c ∈ cs, 0 < grams D.bymass c := by
  intro c hc
  rw [grams_eq hS c hc]
  exact mul_pos (hS.mw c hc) (moles_pos hS c hc)

theorem tot_pos (hS : Sound coll D cs) : 0 < (cs.map (moles D.bymass)).sum :=
  sum_pos_of hS.nonempty _ (moles_pos hS)

theorem totg_pos (hS : Sound coll D cs) : 0 < (cs.map (grams D.bymass)).sum :=
  sum_pos_of hS.nonempty _ (grams_pos hS)

theorem sum_div (cs : List Comp) (f : Comp → ℝ) (k : ℝ) :
    (cs.map (fun c => f c / k)).sum = (cs.map f).sum / k := by
  induction cs with
  | nil => simp
  | cons c cs ih => simp only [List.map_cons, List.sum_cons, ih]; ring

theorem sum_mul (cs : List Comp) (f : Comp → ℝ) (k : ℝ) :
    (cs.map (fun c => f c * k)).sum = (cs.map f).sum * k := by
  induction cs with
  | nil => simp
  | cons c cs ih => simp only [List.map_cons, List.sum_cons, ih]; ring

theorem sum_add (cs : List Comp) (f g : Comp → ℝ) :
    (cs.map (fun c => f c + g c)).sum = (cs.map f).sum + (cs.map g).sum := by
  induction cs with
  | nil => simp
  | cons c cs ih => simp only [List.map_cons, List.sum_cons, ih]; ring

theorem sum_congr {cs : List Comp} {f g : Comp → ℝ} (h : ∀ c ∈ cs, f c = g c) :
    (cs.map f).sum = (cs.map g).sum := by
  rw [List.map_congr_left h]

theorem sum_le {cs : List Comp} {f g : Comp → ℝ} (h : ∀ c ∈ cs, f c ≤ g c) :
    (cs.map f).sum ≤ (cs.map g).sum := by
  induction cs with
  | nil => simp
  | cons c cs ih =>
    simp only [List.map_cons, List.sum_cons]
    exact add_le_add (h c (by simp)) (ih (fun d hd => h d (by simp [hd])))

theorem moleFrac_sum (hS : Sound coll D cs) : (cs.map (moleFrac D.bymass cs)).sum = 1 := by
  unfold moleFrac
  rw [sum_div, div_self (tot_pos hS).ne']

theorem massFrac_sum (hS : Sound coll D cs) : (cs.map (massFrac D.bymass cs)).sum = 1 := by
  unfold massFrac
  rw [sum_div, div_self (totg_pos hS).ne']

theorem moleFrac_pos (hS : Sound coll D cs) : ∀ c ∈ cs, 0 < moleFrac D.bymass cs c :=
  fun c hc => div_pos (moles_pos hS c hc) (tot_pos hS)

theorem massFrac_pos (hS : Sound coll D cs) : ∀ c ∈ cs, 0 < massFrac D.bymass cs c :=
  fun c hc => div_pos (grams_pos hS c hc) (totg_pos hS)

theorem moleFrac_le (hS : Sound coll D cs) : ∀ c ∈ cs, moleFrac D.bymass cs c ≤ 1 := by
  intro c hc
  rw [← moleFrac_sum hS]
  exact List.single_le_sum (by
    intro x hx
    obtain ⟨d, hd, rfl⟩ := List.mem_map.mp hx
    exact (moleFrac_pos hS d hd).le) _ (List.mem_map_of_mem hc)

/-- Entropy of mixing per mole, over `Ru`. -/
noncomputable def mixing (b : Bool) (cs : List Comp) : ℝ :=
  - (cs.map (fun c => moleFrac b cs c * Real.log (moleFrac b cs c))).sum

theorem foldl_xlogx (l : List (String × ℝ)) (h : ∀ q ∈ l, 0 < q.2) (a : ℝ) :
    l.foldl (fun a q => nan2 (· - ·) a (xlogx q.2)) (some a)
      = some (a - (l.map (fun q => q.2 * Real.log q.2)).sum) := by
  induction l generalizing a with
  | nil => simp
  | cons q l ih =>
    have hq : xlogx q.2 = some (q.2 * Real.log q.2) := if_pos (h q (by simp))
    simp only [List.foldl_cons, hq, List.map_cons, List.sum_cons]
    have : nan2 (· - ·) (some a) (some (q.2 * Real.log q.2)) = some (a - q.2 * Real.log q.2) := rfl
    rw [this, ih (fun r hr => h r (by simp [hr]))]
    congr 1; ring

/-- The mixture as a gas. -/
noncomputable def mixGas (b : Bool) (cs : List Comp) (lo hi : ℝ) : Gas where
  Tlo := lo
  Thi := hi
  mw := (cs.map (fun c => moleFrac b cs c * c.gas.mw)).sum
  pref := Real.exp (cs.map (fun c => moleFrac b cs c * Real.log c.gas.pref)).sum
  cp := sumCp (cs.map (fun c => (moleFrac b cs c, c.gas)))
  h := hM (cs.map (fun c => (moleFrac b cs c, c.gas)))
  s := sM (cs.map (fun c => (moleFrac b cs c, c.gas))) (some (mixing b cs * Ru))
  g := gM (cs.map (fun c => (moleFrac b cs c, c.gas))) (some (mixing b cs * Ru))

theorem listed_of_sound (hS : Sound coll D cs) : Listed coll D cs where
  listed := hS.listed
  found := hS.found
  qty := fun c hc => (hS.qty c hc).le
  positive := by
    obtain ⟨c, hc⟩ := List.exists_mem_of_ne_nil _ hS.nonempty
    exact ⟨c, hc, hS.qty c hc⟩
  mw := hS.mw

theorem sum_pos_some {l : List Comp} (f : Comp → ℝ) (h : ∀ c ∈ l, 0 ≤ f c) (hp : ∃ c ∈ l, 0 < f c) :
    0 < (l.map f).sum := by
  obtain ⟨c, hc, hpos⟩ := hp
  exact hpos.trans_le (List.single_le_sum (by
    intro x hx
    obtain ⟨d, hd, rfl⟩ := List.mem_map.mp hx
    exact h d hd) _ (List.mem_map_of_mem hc))

theorem listed_moles (hL : Listed coll D cs) : (∀ c ∈ cs, 0 ≤ moles D.bymass c) ∧
    0 < (cs.map (moles D.bymass)).sum ∧ 0 < (cs.map (grams D.bymass)).sum := by
  have h0 : ∀ c ∈ cs, 0 ≤ moles D.bymass c := by
    intro c hc
    have h1 := hL.qty c hc
    have h2 := (hL.mw c hc).le
    unfold moles; split
    · positivity
    · exact h1
  obtain ⟨c, hc, hp⟩ := hL.positive
  have hm := hL.mw c hc
  refine ⟨h0, sum_pos_some _ h0 ⟨c, hc, ?_⟩, sum_pos_some _ ?_ ⟨c, hc, ?_⟩⟩
  · unfold moles; split <;> positivity
  · intro c hc
    have h1 := hL.qty c hc
    have h2 := (hL.mw c hc).le
    unfold grams; split
    · exact h1
    · positivity
  · unfold grams; split <;> positivity

theorem bootstrap_listed (hS : Listed coll D cs) : ∃ O L H, bootstrap coll D {} = (.ok (), O) ∧
    O.bs = true ∧ O.x = cs.map (fun c => (c.name, moleFrac D.bymass cs c)) ∧
    O.y = cs.map (fun c => (c.name, massFrac D.bymass cs c)) ∧
    O.lo = some L ∧ O.hi = some H ∧
    O.smix = some (smixOf (cs.map (fun c => (c.name, moleFrac D.bymass cs c)))) ∧
    O.mw = (cs.map (fun c => moleFrac D.bymass cs c * c.gas.mw)).sum ∧
    O.pref = Real.exp (cs.map (fun c => moleFrac D.bymass cs c * Real.log c.gas.pref)).sum ∧
    (∀ c ∈ cs, c.gas.Tlo ≤ L) ∧ (∃ c ∈ cs, L = c.gas.Tlo) ∧
    (∀ c ∈ cs, H ≤ c.gas.Thi) ∧ (∃ c ∈ cs, H = c.gas.Thi) := by
  have hne : cs ≠ [] := by
    rintro rfl
    obtain ⟨c, hc, -⟩ := hS.positive
    simp at hc
  obtain ⟨-, p1, p2⟩ := listed_moles hS
  set t0 : Tally := ⟨0, 0, { ({} : Obj) with bs := true, x := [], y := [], mw := 0, pref := 0, lo := none, hi := none }⟩ with ht0
  obtain ⟨L, H, l1, l2, l3, l4, l5, l6⟩ := steps_limits D.bymass cs hne t0 rfl rfl
  obtain ⟨h1, h2, h3, h4, h5, h6, h7, h8⟩ := steps_tally D.bymass cs t0
  have hb : bootstrap coll D {} = finish (steps D.bymass cs t0) := by
    unfold bootstrap
    simp only [Bool.false_eq_true, if_false]
    rw [hS.listed, loop_steps coll D.bymass cs hS.found]
  have e1 : (steps D.bymass cs t0).tx = (cs.map (moles D.bymass)).sum := by rw [h1]; simp [ht0]
  have e2 : (steps D.bymass cs t0).ty = (cs.map (grams D.bymass)).sum := by rw [h2]; simp [ht0]
  have hn : ¬ ((steps D.bymass cs t0).tx = 0 ∨ (steps D.bymass cs t0).ty = 0) := by
    rw [e1, e2]
    exact not_or.mpr ⟨p1.ne', p2.ne'⟩
  rw [hb]
  unfold finish
  rw [if_neg hn]
  have ex : (steps D.bymass cs t0).o.x.map (fun q => (q.1, q.2 / (steps D.bymass cs t0).tx))
      = cs.map (fun c => (c.name, moleFrac D.bymass cs c)) := by
    rw [h3, e1]; simp [ht0, moleFrac, Function.comp_def]
  have ey : (steps D.bymass cs t0).o.y.map (fun q => (q.1, q.2 / (steps D.bymass cs t0).ty))
      = cs.map (fun c => (c.name, massFrac D.bymass cs c)) := by
    rw [h4, e2]; simp [ht0, massFrac, Function.comp_def]
  refine ⟨_, L, H, rfl, h7, ex, ey, l1, l2, ?_, ?_, ?_, l3, l4, l5, l6⟩
  · simp only
    rw [ex]
  · show (steps D.bymass cs t0).o.mw / (steps D.bymass cs t0).tx = _
    have e5 : t0.o.mw = 0 := rfl
    rw [h5, e1, e5, zero_add, ← sum_div]
    exact sum_congr (fun c _ => by unfold moleFrac; ring)
  · show Real.exp ((steps D.bymass cs t0).o.pref / (steps D.bymass cs t0).tx) = _
    have e6 : t0.o.pref = 0 := rfl
    rw [h6, e1, e6, zero_add, ← sum_div]
    congr 1
    exact sum_congr (fun c _ => by unfold moleFrac; ring)

theorem bootstrap_new (hS : Sound coll D cs) : ∃ O L H, bootstrap coll D {} = (.ok (), O) ∧
    O.bs = true ∧ O.x = cs.map (fun c => (c.name, moleFrac D.bymass cs c)) ∧
    O.y = cs.map (fun c => (c.name, massFrac D.bymass cs c)) ∧
    O.lo = some L ∧ O.hi = some H ∧ O.smix = some (some (mixing D.bymass cs * Ru)) ∧
    O.mw = (cs.map (fun c => moleFrac D.bymass cs c * c.gas.mw)).sum ∧
    O.pref = Real.exp (cs.map (fun c => moleFrac D.bymass cs c * Real.log c.gas.pref)).sum ∧
    (∀ c ∈ cs, c.gas.Tlo ≤ L) ∧ (∃ c ∈ cs, L = c.gas.Tlo) ∧
    (∀ c ∈ cs, H ≤ c.gas.Thi) ∧ (∃ c ∈ cs, H = c.gas.Thi) := by
  obtain ⟨O, L, H, h1, h2, h3, h4, h5, h6, h7, h8⟩ := bootstrap_listed (listed_of_sound hS)
  refine ⟨O, L, H, h1, h2, h3, h4, h5, h6, ?_, h8⟩
  rw [h7]
  unfold smixOf
  rw [foldl_xlogx]
  · simp [mixing, Function.comp_def]
  · intro q hq
    obtain ⟨c, hc, rfl⟩ := List.mem_map.mp hq
    exact moleFrac_pos hS c hc

theorem bootstrap_done {o : Obj} (h : o.bs = true) : bootstrap coll D o = (.ok (), o) := by
  unfold bootstrap; rw [if_pos h]

theorem call_snd {α : Type} (o : Obj) (u : Bool) (f : Gas → Except Err α) :
    (call coll D o u f).2 = (bootstrap coll D o).2 := by
  unfold call
  rcases bootstrap coll D o with ⟨_ | _, o'⟩
  · rfl
  · simp only; split <;> rfl

theorem used_cases (hS : Listed coll D cs) {o : Obj} (h : Used coll D o) :
    o = {} ∨ o = (bootstrap coll D {}).2 := by
  obtain ⟨O, L, H, hO, hbs, -⟩ := bootstrap_listed hS
  have key : ∀ o : Obj, (o = {} ∨ o = (bootstrap coll D {}).2) →
      (bootstrap coll D o).2 = (bootstrap coll D {}).2 := by
    rintro o (rfl | rfl)
    · rfl
    · rw [hO, bootstrap_done hbs]
  induction h with
  | new => exact .inl rfl
  | call o α u f _ ih => right; rw [call_snd]; exact key o ih
  | X o _ ih =>
    right; rw [← key o ih]; unfold mX
    rcases bootstrap coll D o with ⟨_ | _, o'⟩ <;> rfl
  | Y o _ ih =>
    right; rw [← key o ih]; unfold mY
    rcases bootstrap coll D o with ⟨_ | _, o'⟩ <;> rfl
  | atoms o _ ih =>
    right; rw [← key o ih]; unfold mAtoms
    rcases bootstrap coll D o with ⟨_ | _, o'⟩ <;> rfl

theorem bootstrap_used (hS : Listed coll D cs) {o : Obj} (h : Used coll D o) :
    bootstrap coll D o = bootstrap coll D {} := by
  obtain ⟨O, L, H, hO, hbs, -⟩ := bootstrap_listed hS
  rcases used_cases hS h with rfl | rfl
  · rfl
  · rw [hO]; exact bootstrap_done hbs

theorem species_eq (hS : ∀ c ∈ cs, ∃ as, coll c.name = some (.gas c.gas as)) (f : Comp → ℝ) :
    species coll (cs.map (fun c => (c.name, f c))) = some (cs.map (fun c => (f c, c.gas))) := by
  have : ∀ l : List Comp, (∀ c ∈ l, ∃ as, coll c.name = some (.gas c.gas as)) →
      species coll (l.map (fun c => (c.name, f c))) = some (l.map (fun c => (f c, c.gas))) := by
    intro l
    induction l with
    | nil => intro _; rfl
    | cons c l ih =>
      intro h
      obtain ⟨as, ha⟩ := h c (by simp)
      have := ih (fun d hd => h d (by simp [hd]))
      unfold species at this ⊢
      simp [List.mapM_cons, ha, this]
  exact this cs hS

/-- The mixture as a gas, and its limits. -/
theorem mixture_exists (hS : Sound coll D cs) : ∃ L H, IsMixture coll D (mixGas D.bymass cs L H) ∧
    (∀ c ∈ cs, c.gas.Tlo ≤ L) ∧ (∃ c ∈ cs, L = c.gas.Tlo) ∧
    (∀ c ∈ cs, H ≤ c.gas.Thi) ∧ (∃ c ∈ cs, H = c.gas.Thi) := by
  obtain ⟨O, L, H, hO, hbs, hx, hy, hlo, hhi, hm, hmw, hp, hl⟩ := bootstrap_new hS
  refine ⟨L, H, ?_, hl⟩
  intro o ho α u f
  unfold call
  rw [bootstrap_used (listed_of_sound hS) ho, hO]
  simp only [hm, Option.isNone_some, Bool.and_false, Bool.false_eq_true, if_false]
  unfold toGas
  rw [hx, species_eq hS.found, hlo, hhi, hm]
  simp [mixGas, hmw, hp]

theorem mixture_unique {M M' : Gas} (h : IsMixture coll D M) (h' : IsMixture coll D M') : M = M' := by
  have h1 := h {} .new Gas false (fun G => .ok G)
  have h2 := h' {} .new Gas false (fun G => .ok G)
  rw [h1] at h2
  simpa using h2

theorem mixture_eq (hS : Sound coll D cs) {M : Gas} (hM : IsMixture coll D M) :
    M = mixGas D.bymass cs M.Tlo M.Thi ∧
    (∀ c ∈ cs, c.gas.Tlo ≤ M.Tlo) ∧ (∃ c ∈ cs, M.Tlo = c.gas.Tlo) ∧
    (∀ c ∈ cs, M.Thi ≤ c.gas.Thi) ∧ (∃ c ∈ cs, M.Thi = c.gas.Thi) := by
  obtain ⟨L, H, h, hl⟩ := mixture_exists hS
  have := mixture_unique hM h
  subst this
  exact ⟨rfl, hl⟩

/-! ## Inner sums -/

theorem sumCp_eq (l : List Comp) (x : Comp → ℝ) (T : ℝ) (v : Comp → ℝ)
    (h : ∀ c ∈ l, c.gas.cp T = some (v c)) :
    sumCp (l.map (fun c => (x c, c.gas))) T = some (l.map (fun c => x c * v c)).sum := by
  have : ∀ a, (l.map (fun c => (x c, c.gas))).foldl
      (fun a c => nan2 (· + ·) a ((c.2.cp T).map (c.1 * ·))) (some a)
      = some (a + (l.map (fun c => x c * v c)).sum) := by
    induction l with
    | nil => simp
    | cons c l ih =>
      intro a
      simp only [List.map_cons, List.foldl_cons, h c (by simp), Option.map_some]
      have e : nan2 (· + ·) (some a) (some (x c * v c)) = some (a + x c * v c) := rfl
      rw [e, ih (fun d hd => h d (by simp [hd]))]
      simp [add_assoc]
  unfold sumCp
  rw [this]; simp

theorem sumPair_eq (f : Gas → ℝ → Option (ℝ × ℝ)) (l : List Comp) (x : Comp → ℝ) (T : ℝ)
    (v w : Comp → ℝ) (h : ∀ c ∈ l, f c.gas T = some (v c, w c)) :
    sumPair f (l.map (fun c => (x c, c.gas))) T
      = some ((l.map (fun c => x c * v c)).sum, (l.map (fun c => x c * w c)).sum) := by
  have : ∀ a b, (l.map (fun c => (x c, c.gas))).foldl
      (fun a c => a.bind (fun a => (f c.2 T).map (fun r => (a.1 + c.1 * r.1, a.2 + c.1 * r.2))))
      (some (a, b)) = some (a + (l.map (fun c => x c * v c)).sum, b + (l.map (fun c => x c * w c)).sum) := by
    induction l with
    | nil => simp
    | cons c l ih =>
      intro a b
      simp only [List.map_cons, List.foldl_cons, h c (by simp), Option.map_some, Option.bind_some]
      rw [ih (fun d hd => h d (by simp [hd]))]
      simp [add_assoc]
  unfold sumPair
  rw [this]; simp

theorem sumPair_none (f : Gas → ℝ → Option (ℝ × ℝ)) (l : List (ℝ × Gas)) (T : ℝ)
    (h : ∃ c ∈ l, f c.2 T = none) : sumPair f l T = none := by
  have hn : ∀ l : List (ℝ × Gas), l.foldl (fun a c => a.bind (fun a => (f c.2 T).map (fun r => (a.1 + c.1 * r.1, a.2 + c.1 * r.2))))
      none = none := by
    intro l; induction l with
    | nil => rfl
    | cons c l ih => simpa using ih
  have : ∀ a, l.foldl (fun a c => a.bind (fun a => (f c.2 T).map (fun r => (a.1 + c.1 * r.1, a.2 + c.1 * r.2))))
      a = none := by
    induction l with
    | nil => simp at h
    | cons c l ih =>
      intro a
      simp only [List.foldl_cons]
      obtain ⟨d, hd, he⟩ := h
      rcases List.mem_cons.mp hd with rfl | hd
      · rw [he]; cases a <;> exact hn l
      · exact ih ⟨d, hd, he⟩ _
  exact this _

theorem sum_sub (cs : List Comp) (f g : Comp → ℝ) :
    (cs.map (fun c => f c - g c)).sum = (cs.map f).sum - (cs.map g).sum := by
  induction cs with
  | nil => simp
  | cons c cs ih => simp only [List.map_cons, List.sum_cons, ih]; ring

/-- The inner routines of a mixture of coherent gases, within the limits. -/
theorem mix_inner (hS : Sound coll D cs) {M : Gas} (hM : IsMixture coll D M) {T : ℝ}
    {h s cp sT gT : Comp → ℝ}
    (hc : ∀ c ∈ cs, c.gas.h T = some (h c, cp c) ∧ c.gas.cp T = some (cp c) ∧
      c.gas.s T = some (s c, sT c) ∧ c.gas.g T = some (h c - T * s c, gT c)) :
    M.h T = some ((cs.map (fun c => moleFrac D.bymass cs c * h c)).sum,
      (cs.map (fun c => moleFrac D.bymass cs c * cp c)).sum) ∧
    M.cp T = some (cs.map (fun c => moleFrac D.bymass cs c * cp c)).sum ∧
    M.s T = some ((cs.map (fun c => moleFrac D.bymass cs c * s c)).sum + mixing D.bymass cs * Ru,
      (cs.map (fun c => moleFrac D.bymass cs c * sT c)).sum) ∧
    M.g T = some ((cs.map (fun c => moleFrac D.bymass cs c * h c)).sum
        - T * ((cs.map (fun c => moleFrac D.bymass cs c * s c)).sum + mixing D.bymass cs * Ru),
      (cs.map (fun c => moleFrac D.bymass cs c * gT c)).sum) := by
  rw [(mixture_eq hS hM).1]
  refine ⟨?_, ?_, ?_, ?_⟩
  · exact sumPair_eq Gas.h cs _ T h cp (fun c hcs => (hc c hcs).1)
  · exact sumCp_eq cs _ T cp (fun c hcs => (hc c hcs).2.1)
  · simp only [mixGas, sM]
    rw [sumPair_eq Gas.s cs _ T s sT (fun c hcs => (hc c hcs).2.2.1)]
    rfl
  · simp only [mixGas, gM]
    rw [sumPair_eq Gas.g cs _ T (fun c => h c - T * s c) gT (fun c hcs => (hc c hcs).2.2.2)]
    simp only [Option.bind_some, Option.map_some, Option.some.injEq, Prod.mk.injEq, and_true]
    have : (cs.map (fun c => moleFrac D.bymass cs c * (h c - T * s c))).sum
        = (cs.map (fun c => moleFrac D.bymass cs c * h c)).sum
          - T * (cs.map (fun c => moleFrac D.bymass cs c * s c)).sum := by
      rw [mul_comm T, ← sum_mul, ← sum_sub]
      exact sum_congr (fun c _ => by ring)
    rw [this]; ring

/-- `_f` of the text agrees with the Helmholtz routine of the shared code. -/
theorem mix_f (hS : Sound coll D cs) {M : Gas} (hM : IsMixture coll D M) {T : ℝ} {g gT : Comp → ℝ}
    (hc : ∀ c ∈ cs, c.gas.g T = some (g c, gT c)) :
    fM (cs.map (fun c => (moleFrac D.bymass cs c, c.gas))) (some (mixing D.bymass cs * Ru)) T
      = M.f T := by
  have hx := moleFrac_sum hS
  rw [(mixture_eq hS hM).1]
  unfold fM Gas.f
  simp only [mixGas, gM]
  rw [sumPair_eq Gas.g cs _ T g gT hc,
    sumPair_eq (fun G T => (G.g T).map (fun r => (r.1 - Ru * T, r.2 - Ru))) cs _ T
      (fun c => g c - Ru * T) (fun c => gT c - Ru) (fun c h => by rw [hc c h]; rfl)]
  simp only [Option.bind_some, Option.map_some, Option.some.injEq, Prod.mk.injEq]
  have e : ∀ (v : Comp → ℝ) (k : ℝ), (cs.map (fun c => moleFrac D.bymass cs c * (v c - k))).sum
      = (cs.map (fun c => moleFrac D.bymass cs c * v c)).sum - k := by
    intro v k
    have : (cs.map (fun c => moleFrac D.bymass cs c * (v c - k))).sum
        = (cs.map (fun c => moleFrac D.bymass cs c * v c)).sum
          - (cs.map (moleFrac D.bymass cs)).sum * k := by
      rw [← sum_mul, ← sum_sub]
      exact sum_congr (fun c _ => by ring)
    rw [this, hx, one_mul]
  constructor
  · rw [e g]; ring
  · rw [e gT]

theorem coherent_mix (hS : Sound coll D cs) {M : Gas} (hM : IsMixture coll D M)
    (hc : ∀ c ∈ cs, Coherent c.gas) : Coherent M := by
  intro T h1 h2
  obtain ⟨-, l1, -, l2, -⟩ := mixture_eq hS hM
  have : ∀ c : Comp, ∃ r : ℝ × ℝ × ℝ × ℝ × ℝ, c ∈ cs → c.gas.h T = some (r.1, r.2.2.1) ∧
      c.gas.cp T = some r.2.2.1 ∧ c.gas.s T = some (r.2.1, r.2.2.2.1) ∧
      c.gas.g T = some (r.1 - T * r.2.1, r.2.2.2.2) := by
    intro c
    by_cases hcs : c ∈ cs
    · obtain ⟨h, s, cp, sT, gT, k⟩ := hc c hcs T ((l1 c hcs).trans h1) (h2.trans (l2 c hcs))
      exact ⟨(h, s, cp, sT, gT), fun _ => k⟩
    · exact ⟨(0, 0, 0, 0, 0), fun h => absurd h hcs⟩
  choose r hr using this
  obtain ⟨k1, k2, k3, k4⟩ := mix_inner hS hM (fun c hcs => hr c hcs)
  exact ⟨_, _, _, _, _, k1, k2, k3, k4⟩

theorem bounded_mix (hS : Sound coll D cs) {M : Gas} (hM : IsMixture coll D M)
    (hc : ∀ c ∈ cs, Bounded c.gas) : Bounded M := by
  intro T hT
  obtain ⟨e, -, ⟨c1, h1, e1⟩, -, ⟨c2, h2, e2⟩⟩ := mixture_eq hS hM
  have key : ∃ c ∈ cs, c.gas.s T = none := by
    rcases hT with hT | hT
    · exact ⟨c1, h1, hc c1 h1 T (.inl (e1 ▸ hT))⟩
    · exact ⟨c2, h2, hc c2 h2 T (.inr (e2 ▸ hT))⟩
  obtain ⟨c, hcs, hn⟩ := key
  rw [e]
  simp only [mixGas, sM]
  rw [sumPair_none Gas.s _ T ⟨(_, c.gas), List.mem_map.mpr ⟨c, hcs, rfl⟩, hn⟩]
  rfl

theorem mix_mw_pos (hS : Sound coll D cs) {M : Gas} (hM : IsMixture coll D M) : 0 < M.mw := by
  rw [(mixture_eq hS hM).1]
  exact sum_pos_of hS.nonempty _ (fun c hc => mul_pos (moleFrac_pos hS c hc) (hS.mw c hc))

theorem ev_all {l : List Comp} {F : Filter ℝ} {P : Comp → ℝ → Prop} (h : ∀ c ∈ l, ∀ᶠ x in F, P c x) :
    ∀ᶠ x in F, ∀ c ∈ l, P c x := by
  induction l with
  | nil => simp
  | cons c l ih =>
    filter_upwards [h c (by simp), ih (fun d hd => h d (by simp [hd]))] with x h1 h2 d hd
    rcases List.mem_cons.mp hd with rfl | hd
    · exact h1
    · exact h2 d hd

theorem deriv_sum {l : List Comp} (w : Comp → ℝ) {f : Comp → ℝ → ℝ} {f' : Comp → ℝ} {T : ℝ}
    (h : ∀ c ∈ l, HasDerivAt (f c) (f' c) T) :
    HasDerivAt (fun x => (l.map (fun c => w c * f c x)).sum) (l.map (fun c => w c * f' c)).sum T := by
  induction l with
  | nil => simpa using hasDerivAt_const T (0 : ℝ)
  | cons c l ih =>
    simp only [List.map_cons, List.sum_cons]
    exact ((h c (by simp)).const_mul (w c)).add (ih (fun d hd => h d (by simp [hd])))

theorem smooth_mix (hS : Sound coll D cs) {M : Gas} (hM : IsMixture coll D M) {T : ℝ}
    (hc : ∀ c ∈ cs, Smooth c.gas T) : Smooth M T := by
  have : ∀ c : Comp, ∃ r : (ℝ → ℝ) × (ℝ → ℝ) × (ℝ → ℝ), c ∈ cs →
      (∀ᶠ x in 𝓝 T, c.gas.h x = some (r.1 x, r.2.2 x) ∧ c.gas.cp x = some (r.2.2 x) ∧
        c.gas.s x = some (r.2.1 x, r.2.2 x / x) ∧
        (c.gas.g x).map (·.1) = some (r.1 x - x * r.2.1 x)) ∧
      HasDerivAt r.1 (r.2.2 T) T ∧ HasDerivAt r.2.1 (r.2.2 T / T) T := by
    intro c
    by_cases hcs : c ∈ cs
    · obtain ⟨h, s, cp, k⟩ := hc c hcs
      exact ⟨(h, s, cp), fun _ => k⟩
    · exact ⟨(0, 0, 0), fun h => absurd h hcs⟩
  choose r hr using this
  refine ⟨fun x => (cs.map (fun c => moleFrac D.bymass cs c * (r c).1 x)).sum,
    fun x => (cs.map (fun c => moleFrac D.bymass cs c * (r c).2.1 x)).sum + mixing D.bymass cs * Ru,
    fun x => (cs.map (fun c => moleFrac D.bymass cs c * (r c).2.2 x)).sum, ?_, ?_, ?_⟩
  · filter_upwards [ev_all (fun c hcs => (hr c hcs).1)] with x hx
    have hg : ∀ c : Comp, ∃ gT, c ∈ cs → c.gas.g x = some ((r c).1 x - x * (r c).2.1 x, gT) := by
      intro c
      by_cases hcs : c ∈ cs
      · have := (hx c hcs).2.2.2
        cases hgx : c.gas.g x with
        | none => rw [hgx] at this; simp at this
        | some q =>
          rw [hgx] at this
          simp only [Option.map_some, Option.some.injEq] at this
          exact ⟨q.2, fun _ => by rw [← this]⟩
      · exact ⟨0, fun h => absurd h hcs⟩
    choose gT hgT using hg
    obtain ⟨k1, k2, k3, k4⟩ := mix_inner hS hM (T := x) (h := fun c => (r c).1 x)
      (s := fun c => (r c).2.1 x) (cp := fun c => (r c).2.2 x) (sT := fun c => (r c).2.2 x / x) (gT := gT)
      (fun c hcs => ⟨(hx c hcs).1, (hx c hcs).2.1, (hx c hcs).2.2.1, hgT c hcs⟩)
    refine ⟨k1, k2, ?_, ?_⟩
    · rw [k3, ← sum_div]
      congr 3
      exact List.map_congr_left (fun c _ => (mul_div_assoc _ _ _).symm)
    · rw [k4]; rfl
  · exact deriv_sum _ (fun c hcs => (hr c hcs).2.1)
  · refine ((deriv_sum (moleFrac D.bymass cs) (fun c hcs => (hr c hcs).2.2)).add_const _).congr_deriv ?_
    rw [← sum_div]
    exact sum_congr (fun c _ => by ring)

/-! ## Units -/

theorem massFrac_eq (hS : Sound coll D cs) : ∀ c ∈ cs, massFrac D.bymass cs c
    = moleFrac D.bymass cs c * c.gas.mw / (cs.map (fun c => moleFrac D.bymass cs c * c.gas.mw)).sum := by
  intro c hc
  have h1 := (tot_pos hS).ne'
  have e : (cs.map (fun c => moleFrac D.bymass cs c * c.gas.mw)).sum
      = (cs.map (grams D.bymass)).sum / (cs.map (moles D.bymass)).sum := by
    rw [← sum_div]
    exact sum_congr (fun c hc => by rw [grams_eq hS c hc]; unfold moleFrac; ring)
  have h2 := (totg_pos hS).ne'
  rw [e]
  unfold massFrac moleFrac
  rw [grams_eq hS c hc]
  field_simp

/-- A mole-weighted mean of molar values, in working units, is the mean of the values in working
units with the weights of the working unit of matter. -/
theorem inUnits_mean (hS : Sound coll D cs) {M : Gas} (hM : IsMixture coll D M) {E : Env} {S : Sys}
    (hU : Uses E S) {k : Kind} (hk : k = .energy ∨ k = .entropy) (v : Comp → ℝ) :
    inUnits E.a S M.mw k (cs.map (fun c => moleFrac D.bymass cs c * v c)).sum
      = (cs.map (fun c => weight E.a S D.bymass cs c * inUnits E.a S c.gas.mw k (v c))).sum := by
  have hmw := mix_mw_pos hS hM
  have emw : M.mw = (cs.map (fun c => moleFrac D.bymass cs c * c.gas.mw)).sum := by
    conv_lhs => rw [(mixture_eq hS hM).1]
    rfl
  have key : ∃ A, ∀ mw x, inUnits E.a S mw k x = x * A * msize E.a mw S.m := by
    rcases hk with rfl | rfl
    · exact ⟨_, fun mw x => rfl⟩
    · refine ⟨1000 / size Units.energy S.e * (size Units.temperature S.T.name / 1.8), fun mw x => ?_⟩
      simp only [inUnits]; ring
  obtain ⟨A, hA⟩ := key
  simp only [hA]
  unfold weight
  by_cases hm : (mass E.a).contains S.m = true
  · obtain ⟨y, hy⟩ := contains_iff.mp hm
    have e : ∀ mw, msize E.a mw S.m = y / mw := by
      intro mw; unfold msize matterScale; rw [hy]; rfl
    simp only [e, hm, if_true]
    rw [mul_assoc, ← sum_mul]
    refine sum_congr (fun c hc => ?_)
    have h1 := (hS.mw c hc).ne'
    have h2 := hmw.ne'
    rw [massFrac_eq hS c hc, ← emw]
    field_simp
  · have e : ∀ mw, msize E.a mw S.m = msize E.a 1 S.m := by
      intro mw; unfold msize matterScale
      cases hl : (mass E.a).table.lookup S.m with
      | none => rfl
      | some y => exact absurd (contains_iff.mpr ⟨y, hl⟩) hm
    simp only [e M.mw, hm]
    rw [mul_assoc, ← sum_mul]
    refine sum_congr (fun c hc => ?_)
    rw [e c.gas.mw]
    simp
    ring

end

end PyroMat.Gas.Props
