import Verif.Igt.PropsAnswered

/-!
# C82: thermodynamic identities of dynamic mixtures
-/

set_option linter.unusedSectionVars false
set_option linter.unusedSimpArgs false

namespace PyroMat.Igt.Props

open PyroMat PyroMat.Gas PyroMat.Igt PyroMat.Igt.Spec
open PyroMat.Units PyroMat.Units.Spec PyroMat.Units.Props PyroMat.Gas.Spec PyroMat.Gas.Props
open scoped BigOperators

variable {σ : Type} [DecidableEq σ]

section
variable {E : Env} {S : Sys} (hU : Uses E S) {L : Lib σ} {m : Mix σ} {varg : List Arr} {kw : KwM}
include hU

/-- A property that is a sum, after a step `g` in internal units: what it shows. -/
theorem sum_shown {f : Gas → ℝ → Nan} {out : NArr → Except Err NArr} {k : ℝ}
    (hout : ∀ a : NArr, out a = .ok ⟨a.shape, fun i => (a.val i).map (· * k)⟩)
    {g : List Nat → ℝ → ℝ} {r : Except Err NArr}
    (hr : r = (do
      let st ← argparseM E L m varg kw
      let x ← propeval L m f st.T
      out ⟨x.shape, fun i => (x.val i).map (g i)⟩)) {i : List Nat} {x t : ℝ} (hp : Position r i)
    (hx : Shows r i x) (ht : Shows (iT E L m varg kw) i t) :
    m.shape.length ≤ i.length ∧
    ∃ y : σ → ℝ, (∀ s ∈ m.c, f (L.gas s) (toKelvin S.T.name t) = some (y s)) ∧
      x = g i (weigh y m (place m i)) * k := by
  obtain ⟨A, h1, h2, h3⟩ := shows_at hp hx
  obtain ⟨st, h4, h5⟩ := shows_T hU ht
  rw [hr, h4, exbind_ok] at h1
  unfold propeval at h1
  obtain ⟨X, hX, h1⟩ := exbind_inv h1
  obtain ⟨sh, hs, hX⟩ := exbind_inv hX
  cases hX
  rw [hout] at h1
  cases h1
  dsimp only at h2 h3
  refine ⟨by rw [within_length h2]; exact (npShape_inv hs).1.1, ?_⟩
  rw [h5, Option.bind_some] at h3
  cases hM : mixSum (fun s => f (L.gas s) (toKelvin S.T.name t)) (rowsAt m (m.at i)) with
  | none => rw [hM] at h3; cases h3
  | some z =>
    obtain ⟨y, y1, y2⟩ := mixSum_get hM
    rw [hM] at h3
    simp only [Option.map_some, Option.some.injEq] at h3
    refine ⟨y, y1, ?_⟩
    rw [← h3, y2]
    rfl

theorem map_id_eq (a : NArr) : (⟨a.shape, fun i => (a.val i).map (fun x => x)⟩ : NArr) = a := by
  cases a with
  | mk s v => simp

end

theorem outS_scaled {E : Env} {S : Sys} (hU : Uses E S) (a : NArr) : outS E a = .ok ⟨a.shape,
    fun i => (a.val i).map (· * (1000 / size energy S.e * (size temperature S.T.name / 1.8)))⟩ := by
  rw [outS_ok hU]
  simp only [mul_assoc]

/-- The size of a unit of matter for molecular weight `mw`. -/
theorem msize_cases (a : SetupArgs ℝ) (u : String) :
    (∃ c, ∀ mw, msize a mw u = c / mw) ∨ ∃ c, ∀ mw, msize a mw u = c := by
  cases h : (Units.mass a).table.lookup u with
  | some c => exact Or.inl ⟨c, fun mw => by unfold msize matterScale; rw [h]; rfl⟩
  | none => exact Or.inr ⟨msize a 0 u, fun mw => by unfold msize matterScale; rw [h]⟩

/-- The matter at a position, in the working unit of matter. -/
theorem matter_held (E : Env) (S : Sys) (L : Lib σ) (m : Mix σ) (i : List Nat)
    (hn : kmols m i ≠ 0) :
    ∑ s ∈ m.c.toFinset, holds E S L m s i = kmols m i / msize E.a (meanMw L m i) S.m := by
  unfold holds
  rcases msize_cases E.a S.m with ⟨c, hc⟩ | ⟨c, hc⟩
  · simp only [hc]
    have e : kmols m i / (c / meanMw L m i) = kmols m i * meanMw L m i / c := by
      rw [div_div_eq_mul_div]
    have e2 : kmols m i * meanMw L m i = weigh (fun s => (L.gas s).mw) m (place m i) := by
      unfold meanMw
      rw [mul_comm, div_mul_cancel₀ _ hn]
    rw [e, e2]
    unfold weigh
    rw [Finset.sum_div]
    refine Finset.sum_congr rfl fun s _ => ?_
    rw [div_div_eq_mul_div, mul_comm]
  · simp only [hc]
    unfold kmols
    rw [Finset.sum_div]

theorem matterMix_rank {E : Env} {S : Sys} (hU : Uses E S) {L : Lib σ} {m : Mix σ} {r : ℝ} {B : NArr}
    {x : Option ℤ} (h : matterMix E L m ⟨[], fun _ => some r⟩ (some "kmol") none x = .ok B) :
    B.shape.length ≤ m.shape.length := by
  unfold matterMix at h
  obtain ⟨-, -, h⟩ := exbind_inv h
  simp only [hU.m, exbind_ok] at h
  split at h
  · rw [(FitsR.nil m.shape).np, exbind_ok] at h
    obtain ⟨-, -, h⟩ := exbind_inv h
    cases h
    exact le_refl _
  · unfold NArr.conv at h
    obtain ⟨-, -, h⟩ := exbind_inv h
    cases h
    exact Nat.zero_le _

/-- The gas constant a mixture reports. -/
theorem shows_R {E : Env} {S : Sys} (hU : Uses E S) {L : Lib σ} {m : Mix σ} {i : List Nat} {R : ℝ}
    (hR : Shows (iR E L m) i R) (hl : m.shape.length ≤ i.length) (hmw : meanMw L m i ≠ 0) :
    R = Ru * (1000 / size energy S.e * (size temperature S.T.name / 1.8)) *
      msize E.a (meanMw L m i) S.m := by
  obtain ⟨A, h1, h2⟩ := hR
  unfold iR at h1
  rw [scalarOf_call hU (nz_energy hU) (k := "unit_energy") rfl hU.e hU.valid.e (y := 1000) rfl,
    exbind_ok, scalarOf_call hU (nz_temperature hU) (k := "unit_temperature") rfl hU.T (tcontains hU)
    (y := 1.8) rfl, powS_neg_one, exbind_ok, powS_none', inv_div] at h1
  have := matterMix_out hU h1 i ((matterMix_rank hU h1).trans hl) hmw
  change A.get i = some R at h2
  rw [h2, powS_inv', one_div, inv_inv] at this
  rw [Option.some.inj this]
  ring

/-- **C82.** Heat capacities and energies.  At every position, for one and the same call: `cp - cv` is
the matter held there times the gas constant the mixture reports, `gam` is `cp / cv`, and the
internal energy is the enthalpy less matter times gas constant times absolute temperature. -/
theorem C82_identities (E : Env) (S : Sys) (hU : Uses E S) (L : Lib σ) (m : Mix σ)
    (varg : List Arr) (kw : KwM) (i : List Nat) (hn : kmols m i ≠ 0) (hmw : meanMw L m i ≠ 0)
    (t R cp cv gam h e : ℝ) (ht : Shows (iT E L m varg kw) i t) (hR : Shows (iR E L m) i R)
    (hcp : Shows (iCp E L m varg kw) i cp) (hcv : Shows (iCv E L m varg kw) i cv)
    (hgam : Shows (iGam E L m varg kw) i gam) (hh : Shows (iH E L m varg kw) i h)
    (he : Shows (iE E L m varg kw) i e) (pcp : Position (iCp E L m varg kw) i)
    (pcv : Position (iCv E L m varg kw) i) (pgam : Position (iGam E L m varg kw) i)
    (ph : Position (iH E L m varg kw) i) (pe : Position (iE E L m varg kw) i) :
    cp - cv = (∑ s ∈ m.c.toFinset, holds E S L m s i) * R ∧ (cv ≠ 0 → gam = cp / cv) ∧
      e = h - (∑ s ∈ m.c.toFinset, holds E S L m s i) * R * absolute S t := by
  obtain ⟨hl, y1, a1, b1⟩ := sum_shown hU (r := iCp E L m varg kw) (f := Gas.cp)
    (g := fun _ x => x) (outS_scaled hU) (by simp only [map_id_eq hU]; rfl) pcp hcp ht
  obtain ⟨-, y2, a2, b2⟩ := sum_shown hU (r := iCv E L m varg kw) (f := Gas.cp)
    (g := fun i x => x - Ru * total m (m.at i)) (outS_scaled hU) rfl pcv hcv ht
  obtain ⟨-, y3, a3, b3⟩ := sum_shown hU (r := iGam E L m varg kw) (f := Gas.cp) (k := 1)
    (out := fun a => .ok ⟨a.shape, fun i => (a.val i).map (· * 1)⟩)
    (g := fun i x => x / total m (m.at i) / (x / total m (m.at i) - Ru)) (fun _ => rfl)
    (by simp only [mul_one, Option.map_id']; rfl) pgam hgam ht
  obtain ⟨-, y4, a4, b4⟩ := sum_shown hU (r := iH E L m varg kw)
    (f := fun G t => (G.h t).map (fun r => r.1))
    (g := fun _ x => x) (outE_ok hU) (by simp only [map_id_eq hU]; rfl) ph hh ht
  obtain ⟨-, y5, a5, b5⟩ := sum_shown hU (r := iE E L m varg kw)
    (f := fun G t => (G.e t).map (fun r => r.1))
    (g := fun _ x => x) (outE_ok hU) (by simp only [map_id_eq hU]; rfl) pe he ht
  have e2 : weigh y2 m (place m i) = weigh y1 m (place m i) := by
    refine Finset.sum_congr rfl fun s hs => ?_
    have hs' : s ∈ m.c := by simpa using hs
    rw [Option.some.inj ((a2 s hs').symm.trans (a1 s hs'))]
  have e3 : weigh y3 m (place m i) = weigh y1 m (place m i) := by
    refine Finset.sum_congr rfl fun s hs => ?_
    have hs' : s ∈ m.c := by simpa using hs
    rw [Option.some.inj ((a3 s hs').symm.trans (a1 s hs'))]
  have e5 : weigh y5 m (place m i) = weigh y4 m (place m i) - Ru * toKelvin S.T.name t * kmols m i := by
    unfold weigh kmols
    rw [Finset.mul_sum, ← Finset.sum_sub_distrib]
    refine Finset.sum_congr rfl fun s hs => ?_
    have hs' : s ∈ m.c := by simpa using hs
    have h4 := a4 s hs'
    have h5 := a5 s hs'
    unfold Gas.e at h5
    cases hg : (L.gas s).h (toKelvin S.T.name t) with
    | none => rw [hg] at h4; cases h4
    | some z =>
      rw [hg] at h4 h5
      simp only [Option.map_some, Option.some.injEq] at h4 h5
      rw [← h4, ← h5]
      ring
  have hu := ms_ne hU hmw
  have hs := es_ne hU
  have hts := ts_ne hU
  have hRR := shows_R hU hR hl hmw
  rw [e2] at b2
  rw [e3] at b3
  rw [e5] at b5
  rw [← kmols_total] at b2 b3
  have hHR : (∑ s ∈ m.c.toFinset, holds E S L m s i) * R =
      kmols m i * Ru * (1000 / size energy S.e * (size temperature S.T.name / 1.8)) := by
    rw [matter_held E S L m i hn, hRR]
    field_simp
  refine ⟨?_, fun hne => ?_, ?_⟩
  · rw [hHR, b1, b2]; ring
  · rw [b3, b1, b2, mul_one]
    have hK : 1000 / size energy S.e * (size temperature S.T.name / 1.8) ≠ 0 := by
      rw [b2] at hne
      exact (mul_ne_zero_iff.mp hne).2
    rw [mul_div_mul_right _ _ hK]
    have hd : weigh y1 m (place m i) / kmols m i - Ru =
        (weigh y1 m (place m i) - Ru * kmols m i) / kmols m i := by
      field_simp
    rw [hd, div_div_div_cancel_right₀ hn]
  · rw [hHR, b5, b4]
    unfold absolute
    field_simp

/-- **C81.** Heat capacity at constant volume: the sum over the constituents of amount times the
constituent's own value. -/
theorem C81_heat_capacity_volume (E : Env) (S : Sys) (hU : Uses E S) (L : Lib σ) (m : Mix σ)
    (hm : Weighs L m) (varg : List Arr) (kw : KwM) (i : List Nat) (x t p : ℝ) (y : σ → ℝ)
    (hp : Position (iCv E L m varg kw) i) (hx : Shows (iCv E L m varg kw) i x)
    (ht : Shows (iT E L m varg kw) i t) (hv : ValidAt S L m t)
    (hy : ∀ s ∈ m.c, mCv E (L.gas s) [.scalar t, .scalar p] [] = .ok [some (y s)]) :
    x = ∑ s ∈ m.c.toFinset, holds E S L m s i * y s := by
  obtain ⟨-, z, a, b⟩ := sum_shown hU (r := iCv E L m varg kw) (f := Gas.cp)
    (g := fun i x => x - Ru * total m (m.at i)) (outS_scaled hU) rfl hp hx ht
  rw [b, ← kmols_total]
  have : weigh z m (place m i) - Ru * kmols m i = weigh (fun s => z s - Ru) m (place m i) := by
    unfold weigh kmols
    rw [Finset.mul_sum, ← Finset.sum_sub_distrib]
    exact Finset.sum_congr rfl fun s _ => by ring
  rw [this]
  refine sum_amounts E S L m i _ y _ fun s hs => ?_
  have := own_value hU (hm s hs) (hv s hs).1 (hv s hs).2 (q := .cv) (hy s hs)
  simp only [value, Gas.cvI, Option.bind_some, a s hs, Option.map_some, Option.some.injEq,
    inUnits] at this
  rw [← this]
  have := ms_ne hU (hm s hs).ne'
  field_simp

/-- **C82, partial.** Free energies.  For constituents of the two classes that `igtools` accepts, at
every position and for one and the same call, the Gibbs energy is `h - T s` and the Helmholtz energy
`e - T s`.  Missing: calls in which the shape of the arguments differs from that of the mixture, see
`C81_shape_defect`. -/
theorem C82_free_energies_partial (E : Env) (S : Sys) (hU : Uses E S) (L : Lib σ) (m : Mix σ)
    (hn : m.c.Nodup) (hco : ∀ s ∈ m.c, Coherent (L.gas s)) (varg : List Arr) (kw : KwM)
    (i : List Nat) (hi : Within i m.shape) (t p h e s g f : ℝ)
    (sT : HasShape (iT E L m varg kw) m.shape) (sP : HasShape (iP E L m varg kw) m.shape)
    (ht : Shows (iT E L m varg kw) i t) (hp : Shows (iP E L m varg kw) i p) (hv : ValidAt S L m t)
    (hh : Shows (iH E L m varg kw) i h) (he : Shows (iE E L m varg kw) i e)
    (ph : Position (iH E L m varg kw) i) (pe : Position (iE E L m varg kw) i)
    (hs : Shows (iS E L m varg kw) i s) (hg : Shows (iG E L m varg kw) i g)
    (hf : Shows (iF E L m varg kw) i f) :
    g = h - absolute S t * s ∧ f = e - absolute S t * s := by
  obtain ⟨-, y4, a4, b4⟩ := sum_shown hU (r := iH E L m varg kw)
    (f := fun G t => (G.h t).map (fun r => r.1))
    (g := fun _ x => x) (outE_ok hU) (by simp only [map_id_eq hU]; rfl) ph hh ht
  obtain ⟨-, y5, a5, b5⟩ := sum_shown hU (r := iE E L m varg kw)
    (f := fun G t => (G.e t).map (fun r => r.1))
    (g := fun _ x => x) (outE_ok hU) (by simp only [map_id_eq hU]; rfl) pe he ht
  obtain ⟨ys, as, bs⟩ := entropy_internal hU hn hi sT sP hs ht hp
  obtain ⟨yg, ag, bg⟩ := free_internal hU hn hi sT sP (r := iG E L m varg kw)
    (φ := fun G t => (G.g t).map (fun r => r.1)) rfl hg ht hp
  obtain ⟨yf, af, bf⟩ := free_internal hU hn hi sT sP (r := iF E L m varg kw)
    (φ := fun G t => (G.f t).map (fun r => r.1)) rfl hf ht hp
  have key : ∀ s ∈ m.c, yg s = y4 s - toKelvin S.T.name t * ys s ∧
      yf s = y5 s - toKelvin S.T.name t * ys s := by
    intro s hs
    obtain ⟨h0, s0, cp0, sT0, gT0, q1, -, q3, q4⟩ := hco s hs _ (hv s hs).1 (hv s hs).2
    have k4 := a4 s hs
    have k5 := a5 s hs
    have ks := as s hs
    have kg := ag s hs
    have kf := af s hs
    unfold Gas.e at k5
    unfold Gas.f at kf
    rw [q1] at k4 k5
    rw [q3] at ks
    rw [q4] at kg kf
    simp only [Option.map_some, Option.some.injEq] at k4 k5 ks kg kf
    rw [← k4, ← k5, ← ks, ← kg, ← kf]
    exact ⟨rfl, by ring⟩
  have hts := ts_ne hU
  rw [place_within hi] at b4 b5
  constructor
  · rw [bg, b4, bs]
    unfold absolute weigh
    rw [Finset.sum_mul, Finset.sum_mul, Finset.sum_mul, Finset.mul_sum, ← Finset.sum_sub_distrib]
    refine Finset.sum_congr rfl fun s hs => ?_
    rw [(key s (by simpa using hs)).1]
    field_simp
    ring
  · rw [bf, b5, bs]
    unfold absolute weigh
    rw [Finset.sum_mul, Finset.sum_mul, Finset.sum_mul, Finset.mul_sum, ← Finset.sum_sub_distrib]
    refine Finset.sum_congr rfl fun s hs => ?_
    rw [(key s (by simpa using hs)).2]
    field_simp
    ring

/-- A property that is a sum is a number where the constituents' functions are. -/
theorem sum_number {E : Env} {S : Sys} (hU : Uses E S) {L : Lib σ} {m : Mix σ} {varg : List Arr}
    {kw : KwM} {f : Gas → ℝ → Nan} {out : NArr → Except Err NArr} {k : ℝ}
    (hout : ∀ a : NArr, out a = .ok ⟨a.shape, fun i => (a.val i).map (· * k)⟩)
    {g : List Nat → ℝ → ℝ} {r : Except Err NArr}
    (hr : r = (do
      let st ← argparseM E L m varg kw
      let x ← propeval L m f st.T
      out ⟨x.shape, fun i => (x.val i).map (g i)⟩)) {i sh : List Nat} (hs : HasShape r sh)
    (hi : Within i sh) {t : ℝ} (ht : Shows (iT E L m varg kw) i t)
    (hg : ∀ s ∈ m.c, ∃ y, f (L.gas s) (toKelvin S.T.name t) = some y) :
    Position r i ∧ ∃ x, Shows r i x := by
  obtain ⟨A, h1, h2⟩ := hs
  subst h2
  refine ⟨⟨A, h1, hi⟩, ?_⟩
  have h1' := h1
  obtain ⟨st, h4, h5⟩ := shows_T hU ht
  rw [hr, h4, exbind_ok] at h1'
  unfold propeval at h1'
  obtain ⟨X, hX, h1'⟩ := exbind_inv h1'
  obtain ⟨q, -, hX⟩ := exbind_inv hX
  cases hX
  rw [hout] at h1'
  cases h1'
  choose! y hy using hg
  refine ⟨g i (weigh y m (place m i)) * k, shows_of hU h1 hi ?_⟩
  dsimp only
  rw [h5, Option.bind_some, mixSum_weigh hy]
  rfl

theorem meanMw_pos {L : Lib σ} {m : Mix σ} (hW : Weighs L m) {i : List Nat}
    (hq : ∀ s ∈ m.c, 0 ≤ amount m s (place m i)) (hn : 0 < kmols m i) : 0 < meanMw L m i := by
  refine div_pos ?_ hn
  have h0 : ∃ s ∈ m.c.toFinset, 0 < amount m s (place m i) := by
    by_contra hcon
    push Not at hcon
    exact absurd hn (not_lt.mpr (Finset.sum_nonpos hcon))
  obtain ⟨s, hs, h⟩ := h0
  unfold weigh
  refine Finset.sum_pos' (fun s hs => ?_) ⟨s, hs, ?_⟩
  · exact mul_nonneg (hW s (by simpa using hs)).le (hq s (by simpa using hs))
  · exact mul_pos (hW s (by simpa using hs)) h

/-- **C82.** Answers with numbers.  For a call with temperature and pressure (see `C84_answered` for
the shapes), wherever the temperature given is valid for every constituent and the position holds
some matter, all of these properties are reported and satisfy the identities. -/
theorem C82_answers (E : Env) (S : Sys) (hU : Uses E S) (L : Lib σ) (m : Mix σ) (hW : Weighs L m)
    (hne : m.c ≠ []) (hco : ∀ s ∈ m.c, Coherent (L.gas s)) (hcl : ∀ s ∈ m.c, L.cls s ≠ .igmix)
    (varg : List Arr) (kw : KwM) (ta pa : Arr)
    (hs : SuppliesM varg kw "T" ta "p" pa) (sh : List Nat) (h0 : sh ≠ []) (hp : ∀ n ∈ sh, n ≠ 0)
    (hT : Suits ta.shape sh) (hP : Suits pa.shape sh) (hm : Suits m.shape sh) (hmn : m.shape ≠ [])
    (hsh : ta.shape = sh ∨ pa.shape = sh ∨ m.shape = sh) (hv : InLimits S L m ta)
    (i : List Nat) (hi : Within i sh) (hva : ValidAt S L m (entry ta i))
    (hq : ∀ s ∈ m.c, 0 ≤ amount m s (place m i)) (hn : 0 < kmols m i) :
    ∃ R cp cv gam h e, Shows (iR E L m) i R ∧ Shows (iCp E L m varg kw) i cp ∧
      Shows (iCv E L m varg kw) i cv ∧ Shows (iGam E L m varg kw) i gam ∧
      Shows (iH E L m varg kw) i h ∧ Shows (iE E L m varg kw) i e ∧
      cp - cv = (∑ s ∈ m.c.toFinset, holds E S L m s i) * R ∧ (cv ≠ 0 → gam = cp / cv) ∧
      e = h - (∑ s ∈ m.c.toFinset, holds E S L m s i) * R * absolute S (entry ta i) := by
  obtain ⟨r, hr, ⟨AT, aT, sT⟩, -, hCp, hCv, hGam, hH, hE, -⟩ :=
    C84_answered E S hU L m hne varg kw ta pa hs sh h0 hp hT hP hm hmn hv
  obtain rfl := hr hsh
  have ht : Shows (iT E L m varg kw) i (entry ta i) := shows_of hU aT (by rw [sT]; exact hi)
    (C83_given_temperature E S hU L m varg kw ta "p" pa hs AT aT i (by rw [sT]; exact hi))
  have hmw := (meanMw_pos hW hq hn).ne'
  have ex : ∀ s ∈ m.c, (∃ y, (L.gas s).cp (toKelvin S.T.name (entry ta i)) = some y) ∧
      (∃ y, ((L.gas s).h (toKelvin S.T.name (entry ta i))).map (fun r => r.1) = some y) ∧
      ∃ y, ((L.gas s).e (toKelvin S.T.name (entry ta i))).map (fun r => r.1) = some y := by
    intro s hs
    obtain ⟨h0, s0, cp0, sT0, gT0, q1, q2, -⟩ := hco s hs _ (hva s hs).1 (hva s hs).2
    unfold Gas.e
    rw [q1, q2]
    exact ⟨⟨_, rfl⟩, ⟨_, rfl⟩, ⟨_, rfl⟩⟩
  obtain ⟨p1, cp, x1⟩ := sum_number hU (r := iCp E L m varg kw) (f := Gas.cp)
    (g := fun _ x => x) (outS_scaled hU) (by simp only [map_id_eq hU]; rfl) hCp hi ht
    (fun s hs => (ex s hs).1)
  obtain ⟨p2, cv, x2⟩ := sum_number hU (r := iCv E L m varg kw) (f := Gas.cp)
    (g := fun i x => x - Ru * total m (m.at i)) (outS_scaled hU) rfl hCv hi ht
    (fun s hs => (ex s hs).1)
  obtain ⟨p3, gam, x3⟩ := sum_number hU (r := iGam E L m varg kw) (f := Gas.cp) (k := 1)
    (out := fun a => .ok ⟨a.shape, fun i => (a.val i).map (· * 1)⟩)
    (g := fun i x => x / total m (m.at i) / (x / total m (m.at i) - Ru)) (fun _ => rfl)
    (by simp only [mul_one, Option.map_id']; rfl) hGam hi ht (fun s hs => (ex s hs).1)
  obtain ⟨p4, h, x4⟩ := sum_number hU (r := iH E L m varg kw)
    (f := fun G t => (G.h t).map (fun r => r.1))
    (g := fun _ x => x) (outE_ok hU) (by simp only [map_id_eq hU]; rfl) hH hi ht
    (fun s hs => (ex s hs).2.1)
  obtain ⟨p5, e, x5⟩ := sum_number hU (r := iE E L m varg kw)
    (f := fun G t => (G.e t).map (fun r => r.1))
    (g := fun _ x => x) (outE_ok hU) (by simp only [map_id_eq hU]; rfl) hE hi ht
    (fun s hs => (ex s hs).2.2)
  have hl := (sum_shown hU (r := iCp E L m varg kw) (f := Gas.cp)
    (g := fun _ x => x) (outS_scaled hU) (by simp only [map_id_eq hU]; rfl) p1 x1 ht).1
  have hR : ∃ R, Shows (iR E L m) i R := by
    obtain ⟨B, b1, -⟩ := matterMix_out_ok hU hcl
      (Ru * (1000 / size energy S.e) * (size temperature S.T.name / 1.8)) (some (-1))
    refine ⟨_, B, ?_, matterMix_out hU b1 i ((matterMix_rank hU b1).trans hl) hmw⟩
    unfold iR
    rw [scalarOf_call hU (nz_energy hU) (k := "unit_energy") rfl hU.e hU.valid.e (y := 1000) rfl,
      exbind_ok, scalarOf_call hU (nz_temperature hU) (k := "unit_temperature") rfl hU.T (tcontains hU)
      (y := 1.8) rfl, powS_neg_one, exbind_ok, powS_none', inv_div]
    exact b1
  obtain ⟨R, hR⟩ := hR
  exact ⟨R, cp, cv, gam, h, e, hR, x1, x2, x3, x4, x5,
    C82_identities E S hU L m varg kw i hn.ne' hmw _ R cp cv gam h e ht hR x1 x2 x3 x4 x5 p1 p2 p3 p4 p5⟩

end PyroMat.Igt.Props
