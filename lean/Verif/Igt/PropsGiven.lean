import Verif.Igt.ThermoState
import Verif.Igt.PropsSums

/-!
# C83: a dynamic mixture reports the properties it was given
-/

set_option linter.unusedSectionVars false
set_option linter.unusedSimpArgs false

namespace PyroMat.Igt.Props

open PyroMat PyroMat.Gas PyroMat.Igt PyroMat.Igt.Spec PyroMat.Config.Defaults
open PyroMat.Units PyroMat.Units.Spec PyroMat.Units.Props PyroMat.Gas.Spec PyroMat.Gas.Props

variable {σ : Type} [DecidableEq σ]

theorem lookup_first {a b : String} {va vb : Arr} :
    ([(a, va), (b, vb)] : KwM).lookup a = some va := by simp [List.lookup_cons]

theorem lookup_neither {a b n : String} {va vb : Arr} (h1 : n ≠ a) (h2 : n ≠ b) :
    ([(a, va), (b, vb)] : KwM).lookup n = none := by
  have e1 : (n == a) = false := by simpa using h1
  have e2 : (n == b) = false := by simpa using h2
  simp [List.lookup_cons, e1, e2]

theorem ok_ne {a b : String} (h : Admissible [a, b]) : a ≠ b := by simpa using h.distinct

theorem with_T {b n : String} (h : Admissible ["T", b]) (hn : n = "e" ∨ n = "h") : n ≠ b := by
  rintro rfl
  have := h.one_of_Teh "T" (by simp) n (by simp) (by simp) (by rcases hn with rfl | rfl <;> simp)
  exact ok_ne h this

/-- A given temperature, after conversion. -/
theorem converted_T {E : Env} {S : Sys} (hU : Uses E S) {L : Lib σ} {m : Mix σ} {lo hi : ℝ} {b : String}
    {ta vb : Arr} {k : StdM} (hc : Converted E L m lo hi [("T", ta), (b, vb)] k)
    (ha : Admissible ["T", b]) :
    ∃ T, k.T = some (T, false) ∧ (k.s = none ∨ k.p = none) ∧
      ∀ i, T.get i = some (toKelvin S.T.name (entry ta i)) := by
  obtain ⟨T, h, e, h1, h2, h3, h4⟩ := hc.T
  obtain ⟨y, hy, rfl⟩ := argM_some lookup_first h1
  rw [argE_none (lookup_neither (by decide) (with_T ha (Or.inr rfl))) h2,
    argE_none (lookup_neither (by decide) (with_T ha (Or.inl rfl))) h3] at h4
  rw [conv_ok (does_in_T hU)] at hy
  cases hy
  refine ⟨_, h4, ?_, fun i => ?_⟩
  · by_cases hb : b = "p"
    · subst hb
      exact Or.inl (argM_none (lookup_neither (by decide) (by decide)) hc.s)
    · exact Or.inr (argM_none (lookup_neither (by decide) (Ne.symm hb)) hc.p)
  · rw [conv_get, atleast1_get]; rfl

/-- **C83.** A given temperature is the temperature reported, at every position, whatever it is
combined with. -/
theorem C83_given_temperature (E : Env) (S : Sys) (hU : Uses E S) (L : Lib σ) (m : Mix σ)
    (varg : List Arr) (kw : KwM) (ta : Arr) (b : String) (vb : Arr)
    (hs : SuppliesM varg kw "T" ta b vb) (A : NArr) (hA : iT E L m varg kw = .ok A) (i : List Nat)
    (hi : Within i A.shape) : A.val i = some (entry ta i) := by
  unfold iT at hA
  obtain ⟨st, hst, hA⟩ := exbind_inv hA
  obtain ⟨lim, k, st0, -, hc, h1, h2⟩ := stages hs hst
  obtain ⟨T, t1, t2, t3⟩ := converted_T hU hc hs.ok
  obtain ⟨r1, -, -, r3⟩ := solveM_T h1 t1 t2
  obtain ⟨-, -, -, -, -, -, q⟩ := rangeM_inv h2
  rw [conv_ok (does_out_T hU)] at hA
  cases hA
  dsimp only at hi ⊢
  rw [q r1] at hi ⊢
  rw [r3 i (within_length hi), t3]
  simp [from_to]

/-- A given pressure, after conversion. -/
theorem converted_p {E : Env} {S : Sys} (hU : Uses E S) {L : Lib σ} {m : Mix σ} {lo hi : ℝ} {b : String}
    {pa vb : Arr} {k : StdM} (hc : Converted E L m lo hi [("p", pa), (b, vb)] k) :
    ∃ P, k.p = some P ∧ ∀ i, P.get i = some (entry pa i * size (Units.pressure E.a) S.p) := by
  obtain ⟨y, hy, hk⟩ := argM_some lookup_first hc.p
  rw [conv_ok (does_in_p hU)] at hy
  cases hy
  exact ⟨_, hk, fun i => by rw [conv_get, atleast1_get]; rfl⟩

/-- **C83.** A given pressure is the pressure reported. -/
theorem C83_given_pressure (E : Env) (S : Sys) (hU : Uses E S) (L : Lib σ) (m : Mix σ)
    (varg : List Arr) (kw : KwM) (pa : Arr) (b : String) (vb : Arr)
    (hs : SuppliesM varg kw "p" pa b vb) (A : NArr) (hA : iP E L m varg kw = .ok A) (i : List Nat)
    (hi : Within i A.shape) : A.val i = some (entry pa i) := by
  unfold iP at hA
  obtain ⟨st, hst, hA⟩ := exbind_inv hA
  obtain ⟨lim, k, st0, -, hc, h1, h2⟩ := stages hs hst
  obtain ⟨P, t1, t2⟩ := converted_p hU hc
  obtain ⟨Q, r1, r2⟩ := solveM_p h1 t1
  obtain ⟨q, -⟩ := rangeM_inv h2
  obtain ⟨Z, z1, hA⟩ := exbind_inv hA
  unfold MixState.pressure at z1
  rw [q, r1] at z1
  cases z1
  rw [conv_ok (does_out_p hU)] at hA
  cases hA
  dsimp only at hi ⊢
  rw [r2 i (within_length hi), t2]
  simp [mul_div_cancel_right₀ _ (ps_ne hU)]

/-! ## Matter units -/

theorem mwI_mean (L : Lib σ) (m : Mix σ) (i : List Nat) : mwI L m (m.at i) = meanMw L m i := by
  unfold mwI meanMw
  rw [kmols_total, weigh_rows]
  rfl

theorem at_at (m : Mix σ) (i : List Nat) : m.at (m.at i) = m.at i := by
  have hl : (m.at i).length ≤ m.shape.length := by
    unfold Mix.at
    rw [clip_eq_src]
    unfold src
    rw [List.length_zipWith]
    omega
  have : m.at (m.at i) = clip m.shape ((m.at i).drop ((m.at i).length - m.shape.length)) := rfl
  rw [this, Nat.sub_eq_zero_of_le hl, List.drop_zero]
  unfold Mix.at
  rw [clip_eq_src, clip_eq_src, src_self]

/-- Size of a matter unit that is not a unit of mass. -/
theorem msize_molar {a : SetupArgs ℝ} {u : String} (h : (Units.mass a).contains u = false) (x y : ℝ) :
    msize a x u = msize a y u := by
  unfold msize matterScale
  have : (Units.mass a).table.lookup u = none := by
    cases hl : (Units.mass a).table.lookup u with
    | none => rfl
    | some z => rw [contains_iff.mpr ⟨z, hl⟩] at h; cases h
  rw [this]

theorem scalarOf_ok {r : Except Err (Res ℝ)} {q : Res ℝ} {x : ℝ} (h1 : r = .ok q)
    (h2 : q.ret = .scalar x) : scalarOf r = .ok x := by
  rw [h1]; unfold scalarOf; rw [exbind_ok, h2]

theorem scalarOf_matter2 {E : Env} {S : Sys} (hU : Uses E S) {mw : ℝ} (hmw : mw ≠ 0) {f t : String}
    {u w : ℝ} (hf : matterScale E.a mw f = some u) (ht : matterScale E.a mw t = some w) (y : ℝ)
    (x : Option ℤ) :
    scalarOf (matter E.a E.c.str (.scalar y) mw (some f) (some t) x false) =
      .ok (y * powS (u / w) x) := by
  obtain ⟨r, h1, h2⟩ := matter_ret E.a hU.pos mw hmw f t _ _ hf ht E.c.str (.scalar y) x false
  exact scalarOf_ok h1 h2

theorem kmol_scale (a : SetupArgs ℝ) (mw : ℝ) : matterScale a mw "kmol" = some 1 := rfl

theorem disjoint_units (a : SetupArgs ℝ) (u : String) (h1 : (Units.mass a).contains u = true)
    (h2 : (Units.molar a).contains u = true) : False := by
  obtain ⟨x, hx⟩ := contains_iff.mp h1
  obtain ⟨y, hy⟩ := contains_iff.mp h2
  have k1 : u ∈ ["kg", "g", "mg", "lbm", "lb", "oz", "slug", "u", "amu"] :=
    (lookup_isSome_iff (Units.mass a).table u).mp (by rw [hx]; rfl)
  have k2 : u ∈ ["kmol", "mol", "lbmol", "n", "Nm3", "Ncum", "NL", "Ncc", "scf", "sci"] :=
    (lookup_isSome_iff (Units.molar a).table u).mp (by rw [hy]; rfl)
  simp only [List.mem_cons, List.not_mem_nil, or_false] at k1
  rcases k1 with rfl | rfl | rfl | rfl | rfl | rfl | rfl | rfl | rfl <;> exact absurd k2 (by decide)

theorem crosses_in {E : Env} {S : Sys} (hU : Uses E S) :
    crosses E.a S.m "kmol" = (Units.mass E.a).contains S.m := by
  have k1 : (Units.mass E.a).contains "kmol" = false := rfl
  have k2 : (Units.molar E.a).contains "kmol" = true := rfl
  unfold crosses
  cases h : (Units.mass E.a).contains S.m with
  | false => simp [k2]
  | true =>
    have : S.m ≠ "kmol" := by rintro he; rw [he] at h; cases h
    simp [k1, this]

theorem crosses_out {E : Env} {S : Sys} (hU : Uses E S) :
    crosses E.a "kmol" S.m = (Units.mass E.a).contains S.m := by
  have k1 : (Units.mass E.a).contains "kmol" = false := rfl
  have k2 : (Units.molar E.a).contains "kmol" = true := rfl
  unfold crosses
  rw [k1]
  cases h : (Units.mass E.a).contains S.m with
  | false =>
    have := hU.valid.m
    rcases this with h' | h'
    · rw [h] at h'; cases h'
    · simp [h']
  | true =>
    have hne : "kmol" ≠ S.m := by rintro he; rw [← he] at h; cases h
    have : (Units.molar E.a).contains S.m = false := by
      by_contra hc
      have hc' : (Units.molar E.a).contains S.m = true := by simpa using hc
      have := disjoint_units E.a S.m h hc'
      exact this
    simp [hne, this]

/-- Conversion of matter to kmol. -/
theorem matterMix_in {E : Env} {S : Sys} (hU : Uses E S) {L : Lib σ} {m : Mix σ} {a B : NArr}
    {x : Option ℤ} (h : matterMix E L m a none (some "kmol") x = .ok B) :
    ∀ i, B.shape.length ≤ i.length → meanMw L m i ≠ 0 →
      B.get i = (a.get i).map (· * powS (msize E.a (meanMw L m i) S.m) x) := by
  unfold matterMix at h
  obtain ⟨-, -, h⟩ := exbind_inv h
  simp only [hU.m, exbind_ok, crosses_in hU] at h
  intro i hi hmw
  split at h
  · obtain ⟨sh, hsh, h⟩ := exbind_inv h
    obtain ⟨-, -, h⟩ := exbind_inv h
    cases h
    obtain ⟨f1, f2⟩ := npShape_inv hsh
    dsimp only at hi
    have e1 : a.get (rd sh i) = a.get i := get_get f1 hi
    have e2 : m.at (rd sh i) = m.at i := rd_rd f2 hi
    rw [get_rd]
    dsimp only
    rw [e1, e2, mwI_mean]
    cases a.get i with
    | none => rfl
    | some y =>
      simp only [Option.bind_some, Option.map_some]
      rw [scalarOf_matter2 hU hmw (msize_lookup hU _) (kmol_scale _ _)]
      simp [Except.toOption]
  · rename_i hc
    have hd : Does (fun v => matter E.a E.c.str v 1 (some S.m) (some "kmol") x false)
        (· * powS (msize E.a 1 S.m) x) := by
      intro y
      rw [scalarOf_matter2 hU one_ne_zero (msize_lookup hU _) (kmol_scale _ _)]
      simp
    rw [conv_ok hd] at h
    cases h
    rw [conv_get, msize_molar (by simpa using hc) 1 (meanMw L m i)]

/-- Conversion of a number per kmol. -/
theorem matterMix_out {E : Env} {S : Sys} (hU : Uses E S) {L : Lib σ} {m : Mix σ} {r : ℝ} {B : NArr}
    {x : Option ℤ} (h : matterMix E L m ⟨[], fun _ => some r⟩ (some "kmol") none x = .ok B) :
    ∀ i, B.shape.length ≤ i.length → meanMw L m i ≠ 0 →
      B.get i = some (r * powS (1 / msize E.a (meanMw L m i) S.m) x) := by
  unfold matterMix at h
  obtain ⟨-, -, h⟩ := exbind_inv h
  simp only [hU.m, exbind_ok, crosses_out hU] at h
  intro i hi hmw
  split at h
  · obtain ⟨sh, hsh, h⟩ := exbind_inv h
    obtain ⟨-, -, h⟩ := exbind_inv h
    cases h
    obtain ⟨f1, f2⟩ := npShape_inv hsh
    dsimp only at hi
    have e2 : m.at (rd sh i) = m.at i := rd_rd f2 hi
    rw [get_rd]
    dsimp only
    rw [e2, mwI_mean]
    have : NArr.get ⟨[], fun _ => some r⟩ (rd sh i) = some r := rfl
    rw [this, Option.bind_some, scalarOf_matter2 hU hmw (kmol_scale _ _) (msize_lookup hU _)]
    rfl
  · rename_i hc
    have hd : Does (fun v => matter E.a E.c.str v 1 (some "kmol") (some S.m) x false)
        (· * powS (1 / msize E.a 1 S.m) x) := by
      intro y
      rw [scalarOf_matter2 hU one_ne_zero (kmol_scale _ _) (msize_lookup hU _)]
    rw [conv_ok hd] at h
    cases h
    rw [conv_get, msize_molar (by simpa using hc) 1 (meanMw L m i)]
    rfl

/-! ## Density and specific volume -/

section
variable {E : Env} {S : Sys} (hU : Uses E S)
include hU

theorem does_in_v (e : Option ℤ) : Does (fun v => (volume : Conv ℝ).call E.c.str v none (some "m3") e false)
    (· * powS (size volume S.v) e) := Does.of_acts (acts_v hU e)

theorem does_out_v :
    Does (fun v => (volume : Conv ℝ).call E.c.str v (some "m3") none (some (-1)) false)
      (· * size volume S.v) := by
  intro x
  rw [scalarOf_call hU (nz_volume hU) (k := "unit_volume") rfl hU.v hU.valid.v (y := 1 ^ 3) rfl]
  simp [powS]

/-- The density a call reports. -/
theorem density_shown {L : Lib σ} {m : Mix σ} {varg : List Arr} {kw : KwM} {A : NArr}
    (hA : iD E L m varg kw = .ok A) :
    ∃ st D, argparseM E L m varg kw = .ok st ∧ st.density = .ok D ∧ A.shape = D.shape ∧
      ∀ i, Within i A.shape → meanMw L m i ≠ 0 →
        A.val i = (D.val i).map (inUnits E.a S (meanMw L m i) .density) := by
  unfold iD at hA
  obtain ⟨st, hst, hA⟩ := exbind_inv hA
  obtain ⟨D, hD, hA⟩ := exbind_inv hA
  obtain ⟨k, hk, hA⟩ := exbind_inv hA
  rw [conv_ok (does_out_v hU), exbind_ok] at hA
  obtain ⟨r, hr, hA⟩ := exbind_inv hA
  split at hA
  · cases hA
  · rename_i hsh
    cases hA
    have hsh' : A.shape = D.shape := by simpa using hsh
    refine ⟨st, D, hst, hD, hsh', fun i hi hmw => ?_⟩
    unfold NArr.zip at hr
    obtain ⟨sh, h1, hr⟩ := exbind_inv hr
    cases hr
    dsimp only at hi hsh' ⊢
    subst hsh'
    obtain ⟨-, f2⟩ := npShape_inv h1
    rw [get_same hi, conv_get, matterMix_out hU hk i (by rw [within_length hi]; exact f2.1) hmw]
    cases D.val i with
    | none => rfl
    | some d =>
      simp only [nan2, Option.bind_some, Option.map_some, Option.some.injEq, inUnits, powS]
      ring

end

theorem powS_none' (x : ℝ) : powS x none = x := rfl

theorem powS_inv' (x : ℝ) : powS x (some (-1)) = x⁻¹ := by simp [powS]

/-- A given density, after conversion. -/
theorem converted_d {E : Env} {S : Sys} (hU : Uses E S) {L : Lib σ} {m : Mix σ} {lo hi : ℝ} {b : String}
    {da vb : Arr} {k : StdM} (hc : Converted E L m lo hi [("d", da), (b, vb)] k)
    (hb : Admissible ["d", b]) :
    ∃ D, k.d = some D ∧ ∀ i, D.shape.length ≤ i.length → meanMw L m i ≠ 0 →
      D.get i = some (internal E.a S (meanMw L m i) .density (entry da i)) := by
  obtain ⟨d, v, h1, h2, h3⟩ := hc.d
  have hv : "v" ≠ b := by
    rintro rfl; exact hb.not_dv (by simp)
  rw [argM_none (lookup_neither (by decide) hv) h2] at h3
  obtain ⟨y, hy, rfl⟩ := argM_some lookup_first h1
  refine ⟨y, h3, fun i hi hmw => ?_⟩
  unfold densM at hy
  rw [conv_ok (does_in_v hU _), exbind_ok] at hy
  rw [matterMix_in hU hy i hi hmw, conv_get, atleast1_get]
  simp only [Option.map_some, Option.some.injEq, internal, powS_none', powS_inv']
  ring

theorem converted_v {E : Env} {S : Sys} (hU : Uses E S) {L : Lib σ} {m : Mix σ} {lo hi : ℝ} {b : String}
    {va vb : Arr} {k : StdM} (hc : Converted E L m lo hi [("v", va), (b, vb)] k) :
    ∃ D, k.d = some D ∧ ∀ i, D.shape.length ≤ i.length → meanMw L m i ≠ 0 →
      D.get i = some (1 / internal E.a S (meanMw L m i) .volume (entry va i)) := by
  obtain ⟨d, v, h1, h2, h3⟩ := hc.d
  obtain ⟨y, hy, rfl⟩ := argM_some lookup_first h2
  refine ⟨y, by rw [h3]; rfl, fun i hi hmw => ?_⟩
  unfold volM at hy
  rw [conv_ok (does_in_v hU _), exbind_ok] at hy
  obtain ⟨w, hw, hy⟩ := exbind_inv hy
  cases hy
  rw [conv_get, matterMix_in hU hw i hi hmw, conv_get, atleast1_get]
  simp only [Option.map_some, Option.some.injEq, internal, powS_none', powS_inv']
  ring

/-- Entropy cannot be combined with density, nor a temperature with both. -/
theorem solveM_only_d {E : Env} {L : Lib σ} {m : Mix σ} {lo hi : ℝ} {a b : String} {va vb : Arr}
    {k : StdM} {st : MixState} (hc : Converted E L m lo hi [(a, va), (b, vb)] k)
    (ha : a = "d" ∨ a = "v")
    (h : solveM L m lo hi (KwM.has [(a, va), (b, vb)] "d") k = .ok st) :
    k.s = none ∧ (k.T = none ∨ k.p = none) := by
  have hT : b ≠ "T" → b ≠ "h" → b ≠ "e" → k.T = none := by
    intro n1 n2 n3
    obtain ⟨T, x, e, h1, h2, h3, h4⟩ := hc.T
    rw [h4, argM_none (lookup_neither (by rcases ha with rfl | rfl <;> decide) n1.symm) h1,
      argE_none (lookup_neither (by rcases ha with rfl | rfl <;> decide) n2.symm) h2,
      argE_none (lookup_neither (by rcases ha with rfl | rfl <;> decide) n3.symm) h3]
    rfl
  have hp : b ≠ "p" → k.p = none := fun n =>
    argM_none (lookup_neither (by rcases ha with rfl | rfl <;> decide) n.symm) hc.p
  have hs : b ≠ "s" → k.s = none := fun n =>
    argM_none (lookup_neither (by rcases ha with rfl | rfl <;> decide) n.symm) hc.s
  by_cases hbs : b = "s"
  · subst hbs
    exfalso
    have e1 := hT (by decide) (by decide) (by decide)
    have e2 := hp (by decide)
    unfold solveM at h
    rw [e1, e2] at h
    obtain ⟨y, -, hk⟩ := argM_some (name := "s") (a := vb) (by
      rcases ha with rfl | rfl <;> simp [List.lookup_cons]) hc.s
    rw [hk] at h
    dsimp only at h
    split at h <;> cases h
  · refine ⟨hs hbs, ?_⟩
    by_cases hbp : b = "p"
    · subst hbp; exact Or.inl (hT (by decide) (by decide) (by decide))
    · exact Or.inr (hp hbp)

/-- **C84 disagreement.** Entropy with density, or with specific volume, follows the documented rule
(two of T, p, d, v, e, h, s, at most one of T, e, h and not both d and v) but is never answered
(`igtools.py:776-779`). -/
theorem C84_entropy_density_defect (E : Env) (L : Lib σ) (m : Mix σ) (varg : List Arr) (kw : KwM)
    (b : String) (hb : b = "d" ∨ b = "v") (sa vb : Arr) (hs : SuppliesM varg kw "s" sa b vb) :
    ∀ st, argparseM E L m varg kw ≠ .ok st := by
  intro st hst
  obtain ⟨lim, k, st0, -, hc, h1, -⟩ := stages (suppliesM_symm hs) hst
  obtain ⟨h2, -⟩ := solveM_only_d hc hb h1
  obtain ⟨y, -, hk⟩ := argM_some (name := "s") (a := sa) (by
      rcases hb with rfl | rfl <;> simp [List.lookup_cons]) hc.s
  rw [hk] at h2; cases h2

/-- **C83.** A given density is the density reported, wherever the mean molecular weight is not
zero. -/
theorem C83_given_density (E : Env) (S : Sys) (hU : Uses E S) (L : Lib σ) (m : Mix σ)
    (varg : List Arr) (kw : KwM) (da : Arr) (b : String) (vb : Arr)
    (hs : SuppliesM varg kw "d" da b vb) (A : NArr) (hA : iD E L m varg kw = .ok A) (i : List Nat)
    (hi : Within i A.shape) (hmw : meanMw L m i ≠ 0) : A.val i = some (entry da i) := by
  obtain ⟨st, D, hst, hD, hsh, hv⟩ := density_shown hU hA
  obtain ⟨lim, k, st0, -, hc, h1, h2⟩ := stages hs hst
  obtain ⟨D0, t1, t2⟩ := converted_d hU hc hs.ok
  obtain ⟨s1, s2⟩ := solveM_only_d hc (Or.inl rfl) h1
  obtain ⟨D1, d1, d2, d3, d4⟩ := solveM_d h1 t1 s1 s2
  obtain ⟨-, q, -⟩ := rangeM_inv h2
  unfold MixState.density at hD
  rw [q, d1] at hD
  cases hD
  rw [hv i hi hmw, d4 i (by rw [← hsh]; exact within_length hi),
    t2 i (by rw [within_length hi, hsh]; exact d3.1) hmw]
  simp [inUnits_internal hU hmw]

/-- **C83.** A given specific volume is the specific volume reported. -/
theorem C83_given_volume (E : Env) (S : Sys) (hU : Uses E S) (L : Lib σ) (m : Mix σ)
    (varg : List Arr) (kw : KwM) (va : Arr) (b : String) (vb : Arr)
    (hs : SuppliesM varg kw "v" va b vb) (A : NArr) (hA : iV E L m varg kw = .ok A) (i : List Nat)
    (hi : Within i A.shape) (hmw : meanMw L m i ≠ 0) (h0 : entry va i ≠ 0) :
    A.val i = some (entry va i) := by
  unfold iV at hA
  obtain ⟨B, hB, hA⟩ := exbind_inv hA
  cases hA
  dsimp only at hi ⊢
  obtain ⟨st, D, hst, hD, hsh, hv⟩ := density_shown hU hB
  obtain ⟨lim, k, st0, -, hc, h1, h2⟩ := stages hs hst
  obtain ⟨D0, t1, t2⟩ := converted_v hU hc
  obtain ⟨s1, s2⟩ := solveM_only_d hc (Or.inr rfl) h1
  obtain ⟨D1, d1, d2, d3, d4⟩ := solveM_d h1 t1 s1 s2
  obtain ⟨-, q, -⟩ := rangeM_inv h2
  unfold MixState.density at hD
  rw [q, d1] at hD
  cases hD
  rw [hv i hi hmw, d4 i (by rw [← hsh]; exact within_length hi),
    t2 i (by rw [within_length hi, hsh]; exact d3.1) hmw]
  simp only [Option.map_some, Option.some.injEq, inUnits, internal]
  have h1 := vs_ne hU
  have h2 := ms_ne hU hmw
  field_simp

/-- **C83.** The specific volume is the reciprocal of the density, at every position. -/
theorem C83_reciprocal (E : Env) (L : Lib σ) (m : Mix σ) (varg : List Arr) (kw : KwM) (i : List Nat)
    (d : ℝ) (h : Shows (iD E L m varg kw) i d) : Shows (iV E L m varg kw) i (1 / d) := by
  obtain ⟨A, h1, h2⟩ := h
  refine ⟨⟨A.shape, fun i => (A.val i).map (fun x => 1 / x)⟩, by unfold iV; rw [h1, exbind_ok], ?_⟩
  dsimp only
  rw [h2]; rfl

theorem zip_inv {f : ℝ → ℝ → ℝ} {a b c : NArr} (h : a.zip f b = .ok c) (i : List Nat) :
    c.val i = nan2 f (a.get i) (b.get i) := by
  unfold NArr.zip at h
  obtain ⟨sh, -, h⟩ := exbind_inv h
  cases h; rfl

/-- **C83.** Ideal gas law.  Whatever a call supplies, the pressure `p`, the density `d` and the
temperature `t` that it reports at a position obey `p = d R T` (in Pa, kmol/m3, K and with the
universal gas constant in kJ/kmol/K). -/
theorem C83_ideal_gas_law (E : Env) (S : Sys) (hU : Uses E S) (L : Lib σ) (m : Mix σ)
    (varg : List Arr) (kw : KwM) (i : List Nat) (p d t : ℝ)
    (pp : Position (iP E L m varg kw) i) (pd : Position (iD E L m varg kw) i)
    (hp : Shows (iP E L m varg kw) i p) (hd : Shows (iD E L m varg kw) i d)
    (ht : Shows (iT E L m varg kw) i t) (hmw : meanMw L m i ≠ 0)
    (h0 : toKelvin S.T.name t ≠ 0) (hd0 : d ≠ 0) :
    internal E.a S (meanMw L m i) .pressure p =
      internal E.a S (meanMw L m i) .density d * (1000 * Ru * toKelvin S.T.name t) := by
  obtain ⟨P, p1, p2, p3⟩ := shows_at pp hp
  obtain ⟨D, d1, d2, d3⟩ := shows_at pd hd
  obtain ⟨st, t1, t2⟩ := shows_T hU ht
  obtain ⟨st', D', e1, e2, e3, e4⟩ := density_shown hU d1
  rw [t1] at e1; cases e1
  unfold iP at p1
  rw [t1, exbind_ok] at p1
  obtain ⟨P', q1, p1⟩ := exbind_inv p1
  rw [conv_ok (does_out_p hU)] at p1
  cases p1
  dsimp only at p2 p3
  rw [e4 i d2 hmw] at d3
  -- values in internal units
  have hPx : P'.val i = some (internal E.a S (meanMw L m i) .pressure p) := by
    cases hx : P'.val i with
    | none => rw [hx] at p3; cases p3
    | some x =>
      rw [hx] at p3
      simp only [Option.map_some, Option.some.injEq] at p3
      rw [← p3]
      simp only [internal, div_mul_cancel₀ _ (ps_ne hU)]
  have hDx : D'.val i = some (internal E.a S (meanMw L m i) .density d) := by
    cases hx : D'.val i with
    | none => rw [hx] at d3; cases d3
    | some x =>
      rw [hx] at d3
      simp only [Option.map_some, Option.some.injEq] at d3
      rw [← d3, internal_inUnits hU hmw]
  have hdi : internal E.a S (meanMw L m i) .density d ≠ 0 := by
    simp only [internal]
    exact div_ne_zero (mul_ne_zero hd0 (ms_ne hU hmw)) (vs_ne hU)
  have hRu : (1000 * Ru : ℝ) ≠ 0 := mul_ne_zero (by norm_num) Ru_pos.ne'
  rw [e3] at d2
  obtain ⟨lim, kw', k, st0, -, -, hsol, hrange⟩ := stages' t1
  obtain ⟨r1, r2, -, -, r5, r6, -⟩ := rangeM_inv hrange
  have law := solveM_law hsol
  unfold MixState.pressure at q1
  unfold MixState.density at e2
  cases hp0 : st.p with
  | some x =>
    cases hd0 : st.d with
    | some y =>
      rw [hp0] at q1; rw [hd0] at e2
      cases q1; cases e2
      obtain ⟨l1, l2, l3⟩ := law.both _ _ (r1 ▸ hp0) (r2 ▸ hd0)
      rw [get_same (by rw [r5, ← l1]; exact p2)] at t2
      obtain ⟨x, y, x1, x2, x3⟩ := l3 i _ (r6 i _ t2)
      rw [hPx] at x1; rw [hDx] at x2
      cases x1; cases x2
      have hRu' := Ru_pos.ne'
      rw [x3]
      field_simp
    | none =>
      rw [hp0] at q1; rw [hp0, hd0] at e2
      cases q1
      dsimp only at e2
      have := zip_inv e2 i
      rw [get_same p2, hPx, t2, hDx] at this
      simp only [nan2, Option.bind_some, Option.map_some, Option.some.injEq] at this
      have hRu' := Ru_pos.ne'
      rw [this]
      field_simp
  | none =>
    cases hd0 : st.d with
    | none => rw [hp0, hd0] at q1; cases q1
    | some y =>
      rw [hp0, hd0] at q1; rw [hd0] at e2
      cases e2
      dsimp only at q1
      have := zip_inv q1 i
      rw [get_same d2, hPx, t2, hDx] at this
      simp only [nan2, Option.bind_some, Option.map_some, Option.some.injEq] at this
      exact this

end PyroMat.Igt.Props
