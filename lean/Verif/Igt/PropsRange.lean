import Verif.Igt.PropsReturns
import Verif.Igt.SpecStatic

/-!
# C86: elements outside the temperature limits of a dynamic mixture
-/

set_option linter.unusedSectionVars false
set_option linter.unusedSimpArgs false

namespace PyroMat.Igt.Spec

open PyroMat PyroMat.Gas PyroMat.Igt PyroMat.Units PyroMat.Units.Spec PyroMat.Gas.Spec

variable {σ : Type} [DecidableEq σ]

/-- `t` (in kelvin) is below the range of every constituent or above the range of every constituent. -/
def OutOfRange (L : Lib σ) (m : Mix σ) (t : ℝ) : Prop :=
  (∀ s ∈ m.c, t < (L.gas s).Tlo) ∨ ∀ s ∈ m.c, (L.gas s).Thi < t

/-- Absolute temperature by the ideal gas law, of pressure and density readings in working units. -/
noncomputable def gasTemperature (E : Env) (S : Sys) (mw p d : ℝ) : ℝ :=
  internal E.a S mw .pressure p / (1000 * Ru * internal E.a S mw .density d)

/-- The absolute temperature at pressure `p` and specific volume `v`. -/
noncomputable def volumeTemperature (E : Env) (S : Sys) (mw p v : ℝ) : ℝ :=
  internal E.a S mw .pressure p * internal E.a S mw .volume v / (1000 * Ru)

end PyroMat.Igt.Spec

namespace PyroMat.Igt.Props

open PyroMat PyroMat.Gas PyroMat.Igt PyroMat.Igt.Spec PyroMat.Config.Defaults
open PyroMat.Units PyroMat.Units.Spec PyroMat.Units.Props PyroMat.Gas.Spec PyroMat.Gas.Props

variable {σ : Type} [DecidableEq σ]

/-- Every method raises what `_argparse` raises. -/
theorem dynamic_error {E : Env} {L : Lib σ} {m : Mix σ} {varg : List Arr} {kw : KwM} {e : Err}
    (h : argparseM E L m varg kw = .error e) (q : Quantity) : dynamic q E L m varg kw = .error e := by
  cases q <;> simp only [dynamic, iT, iP, iD, iV, iH, iE, iS, iG, iF, iCp, iCv, iGam, h, exbind_err]

theorem oob_iff {E : Env} {S : Sys} (hU : Uses E S) {L : Lib σ} {m : Mix σ} {lo hi : ℝ}
    (hl : limsM E L m = .ok (lo, hi)) (hne : m.c ≠ []) (t : ℝ) :
    oobM lo hi (some t) = true ↔ OutOfRange L m t := by
  obtain ⟨lo', hi', e, h1, ⟨a, ha, h2⟩, ⟨b, hb, h3⟩⟩ := lims_eq hU L m hne
  rw [hl] at e; cases e
  simp only [oobM, decide_eq_true_eq]
  constructor
  · rintro (h | h)
    · exact Or.inl fun s hs => lt_of_lt_of_le h (h1 s hs).1
    · exact Or.inr fun s hs => lt_of_le_of_lt (h1 s hs).2 h
  · rintro (h | h)
    · exact Or.inl (by rw [h2]; exact h a ha)
    · exact Or.inr (by rw [h3]; exact h b hb)

/-- The state of a call with a temperature and a pressure, density or volume, up to the range test. -/
theorem state_T {E : Env} {S : Sys} (hU : Uses E S) {L : Lib σ} {m : Mix σ} (hne : m.c ≠ [])
    (hk : ∀ s ∈ m.c, L.cls s ≠ .igmix) {varg : List Arr} {kw : KwM} {ta b : Arr} {n : String}
    (hn : n = "p" ∨ n = "d" ∨ n = "v") (hs : SuppliesM varg kw "T" ta n b) {sh : List Nat}
    (h0 : sh ≠ []) (hT : Suits ta.shape sh) (hb : Suits b.shape sh) (hm : Suits m.shape sh)
    (hmn : m.shape ≠ []) (hone : ta.shape = sh ∨ b.shape = sh ∨ m.shape = sh) :
    ∃ lo hi st, limsM E L m = .ok (lo, hi) ∧ argparseM E L m varg kw = rangeM lo hi st ∧
      st.ro = true ∧ st.T.shape = sh ∧
      ∀ i, Within i sh → st.T.val i = some (toKelvin S.T.name (entry ta i)) := by
  obtain ⟨lo, hi, hl, -⟩ := lims_eq hU L m hne
  have hm' := mix_near hm hmn
  have hval : ∀ i, NArr.get ⟨ta.atleast1.shape, fun i => some (toKelvin S.T.name (ta.atleast1.val i))⟩ i =
      some (toKelvin S.T.name (entry ta i)) := by
    intro i
    have := atleast1_get ta i
    unfold NArr.get Arr.nan at this
    unfold NArr.get
    dsimp only at this ⊢
    rw [Option.some.inj this]
  by_cases hp : n = "p"
  · subst hp
    obtain ⟨x, y, h1, h2, h3, h4⟩ := jointM_ok (m := m)
      (a := ⟨ta.atleast1.shape, fun i => some (toKelvin S.T.name (ta.atleast1.val i))⟩)
      (b := ⟨b.atleast1.shape, fun i => some (b.atleast1.val i * size (pressure E.a) S.p)⟩) h0
      (suits_near hT) (suits_near hb) hm'
    obtain ⟨e1, e2, e3, e4⟩ := jointM_inv h1
    have hx : x.shape = sh := h4 (hone.imp (atleast1_shape h0) (Or.imp_left (atleast1_shape h0)))
    refine ⟨lo, hi, ⟨x, some y, none, true, false⟩, hl, ?_, rfl, hx, fun i hi => ?_⟩
    · rw [argparseM_pair hs, hl, exbind_ok]
      unfold afterM
      rw [convertM_Tp hU, exbind_ok, solveM_Tp_eq, h1]
      rfl
    · dsimp only
      rw [(e4 i (by rw [hx]; exact within_length hi)).1]
      exact hval i
  · have hn' : n = "d" ∨ n = "v" := by tauto
    obtain ⟨D, c1, c2, c3⟩ := convertM_Td (lo := lo) (hi := hi) hU hk h0 hm' hn' ta (suits_near hb)
    obtain ⟨x, y, h1, h2, h3, h4⟩ := jointM_ok (m := m)
      (a := ⟨ta.atleast1.shape, fun i => some (toKelvin S.T.name (ta.atleast1.val i))⟩)
      (b := D) h0 (suits_near hT) c2 hm'
    obtain ⟨e1, e2, e3, e4⟩ := jointM_inv h1
    have hx : x.shape = sh := h4 (hone.imp (atleast1_shape h0)
      (Or.imp_left (fun h => c3 (atleast1_shape h0 h))))
    refine ⟨lo, hi, ⟨x, none, some y, true, false⟩, hl, ?_, rfl, hx, fun i hi => ?_⟩
    · rw [argparseM_pair hs, hl, exbind_ok]
      unfold afterM
      rw [c1, exbind_ok]
      unfold solveM
      dsimp only
      rw [h1]
      rfl
    · dsimp only
      rw [(e4 i (by rw [hx]; exact within_length hi)).1]
      exact hval i

/-- **C86.** When every temperature given is outside the limits of the mixture, every property method
raises `PMParamError`. -/
theorem C86_refused (E : Env) (S : Sys) (hU : Uses E S) (L : Lib σ) (m : Mix σ) (hne : m.c ≠ [])
    (hk : ∀ s ∈ m.c, L.cls s ≠ .igmix) (varg : List Arr) (kw : KwM) (ta b : Arr) (n : String)
    (hn : n = "p" ∨ n = "d" ∨ n = "v") (hs : SuppliesM varg kw "T" ta n b) (sh : List Nat)
    (h0 : sh ≠ []) (hT : Suits ta.shape sh) (hb : Suits b.shape sh) (hm : Suits m.shape sh)
    (hmn : m.shape ≠ []) (hone : ta.shape = sh ∨ b.shape = sh ∨ m.shape = sh)
    (hv : ∀ i, Within i sh → OutOfRange L m (toKelvin S.T.name (entry ta i))) (q : Quantity) :
    dynamic q E L m varg kw = .error .param := by
  obtain ⟨lo, hi, st, hl, e, -, hsh, hval⟩ := state_T hU hne hk hn hs h0 hT hb hm hmn hone
  refine dynamic_error ?_ q
  rw [e]
  unfold rangeM
  rw [if_pos]
  rw [List.all_eq_true]
  intro i hi
  rw [hsh, mem_indices] at hi
  rw [hval i hi]
  exact (oob_iff hU hl hne _).mpr (hv i hi)

/-- **C86 disagreement.** When some of the temperatures given are outside the limits of the mixture and
some are not, the elements outside are meant to be set to `config['def_oob']` with a warning
(`igtools.py:859-862`), but every property method raises `ValueError`: the array written to came from
`np.broadcast_to` and is read-only. -/
theorem C86_mixed_defect (E : Env) (S : Sys) (hU : Uses E S) (L : Lib σ) (m : Mix σ) (hne : m.c ≠ [])
    (hk : ∀ s ∈ m.c, L.cls s ≠ .igmix) (varg : List Arr) (kw : KwM) (ta b : Arr) (n : String)
    (hn : n = "p" ∨ n = "d" ∨ n = "v") (hs : SuppliesM varg kw "T" ta n b) (sh : List Nat)
    (h0 : sh ≠ []) (hT : Suits ta.shape sh) (hb : Suits b.shape sh) (hm : Suits m.shape sh)
    (hmn : m.shape ≠ []) (hone : ta.shape = sh ∨ b.shape = sh ∨ m.shape = sh)
    (hin : ∃ i, Within i sh ∧ ¬ OutOfRange L m (toKelvin S.T.name (entry ta i)))
    (hout : ∃ i, Within i sh ∧ OutOfRange L m (toKelvin S.T.name (entry ta i))) (q : Quantity) :
    dynamic q E L m varg kw = .error .value := by
  obtain ⟨lo, hi, st, hl, e, hro, hsh, hval⟩ := state_T hU hne hk hn hs h0 hT hb hm hmn hone
  refine dynamic_error ?_ q
  rw [e]
  unfold rangeM
  rw [if_neg, if_pos, if_pos hro]
  · rw [List.any_eq_true]
    obtain ⟨i, h1, h2⟩ := hout
    refine ⟨i, by rw [hsh, mem_indices]; exact h1, ?_⟩
    rw [hval i h1]
    exact (oob_iff hU hl hne _).mpr h2
  · rw [List.all_eq_true]
    intro hall
    obtain ⟨i, h1, h2⟩ := hin
    have := hall i (by rw [hsh, mem_indices]; exact h1)
    rw [hval i h1] at this
    exact h2 ((oob_iff hU hl hne _).mp this)

/-- **C86.** No call reports a temperature outside the limits of the mixture, whatever it was given. -/
theorem C86_within (E : Env) (S : Sys) (hU : Uses E S) (L : Lib σ) (m : Mix σ) (hne : m.c ≠ [])
    (varg : List Arr) (kw : KwM) (A : NArr) (hA : iT E L m varg kw = .ok A) (i : List Nat)
    (hi : Within i A.shape) (t : ℝ) (ht : A.val i = some t) :
    ¬ OutOfRange L m (toKelvin S.T.name t) := by
  unfold iT at hA
  obtain ⟨st, hst, hA⟩ := exbind_inv hA
  rw [conv_ok (does_out_T hU)] at hA
  cases hA
  dsimp only at hi ht
  obtain ⟨lo, hi', hl, -⟩ := lims_eq hU L m hne
  obtain ⟨lim, kw', k, st0, hl', -, -, h2⟩ := stages' hst
  rw [hl] at hl'; cases hl'
  cases hv : st.T.val i with
  | none => rw [hv] at ht; cases ht
  | some x =>
    rw [hv] at ht
    simp only [Option.map_some, Option.some.injEq] at ht
    subst ht
    rw [to_from, ← oob_iff hU hl hne]
    unfold rangeM at h2
    split at h2
    · cases h2
    · split at h2
      · split at h2
        · cases h2
        · cases h2
          dsimp only at hv
          split at hv
          · cases hv
          · rename_i h
            rw [hv] at h
            exact h
      · rename_i h
        cases h2
        rw [← hv]
        intro hx
        refine h (List.any_eq_true.mpr ⟨i, mem_indices.mpr hi, hx⟩)

theorem convertM_pd {E : Env} {S : Sys} (hU : Uses E S) {L : Lib σ} {m : Mix σ}
    (hk : ∀ s ∈ m.c, L.cls s ≠ .igmix) {sh : List Nat} (h0 : sh ≠ []) (hm : Near m.shape sh)
    {lo hi : ℝ} {n : String} (hn : n = "d" ∨ n = "v") (pa : Arr) {da : Arr} (hd : Near da.atleast1.shape sh) :
    ∃ D, convertM E L m lo hi [(n, da), ("p", pa)] = .ok
      ⟨none, some ⟨pa.atleast1.shape, fun i => some (pa.atleast1.val i * size (pressure E.a) S.p)⟩,
       some D, none⟩ ∧ Near D.shape sh ∧ (da.atleast1.shape = sh → D.shape = sh) := by
  rcases hn with rfl | rfl
  · have : ∃ D, densM E L m da.atleast1.nan = .ok D ∧ Near D.shape sh ∧
        (da.atleast1.shape = sh → D.shape = sh) := by
      unfold densM
      rw [conv_ok (does_in_v hU _), exbind_ok]
      exact matterMix_in_ok hU hk h0 (by exact hd) hm none
    obtain ⟨D, d1, d2, d3⟩ := this
    refine ⟨D, ?_, d2, d3⟩
    unfold Arr.nan at d1
    unfold convertM argM argE
    simp [List.lookup_cons, conv_ok (does_in_p hU), d1, exbind_ok, Except.map, Arr.nan]
  · have : ∃ D, volM E L m da.atleast1.nan = .ok D ∧ Near D.shape sh ∧
        (da.atleast1.shape = sh → D.shape = sh) := by
      unfold volM
      rw [conv_ok (does_in_v hU _), exbind_ok]
      obtain ⟨B, b1, b2, b3⟩ := matterMix_in_ok hU hk h0 (a := ⟨da.atleast1.nan.shape,
        fun i => (da.atleast1.nan.val i).map (· * powS (size volume S.v) none)⟩) (by exact hd) hm (some (-1))
      rw [b1, exbind_ok]
      exact ⟨_, rfl, b2, b3⟩
    obtain ⟨D, d1, d2, d3⟩ := this
    refine ⟨D, ?_, d2, d3⟩
    unfold Arr.nan at d1
    unfold convertM argM argE
    simp [List.lookup_cons, conv_ok (does_in_p hU), d1, exbind_ok, Except.map, Arr.nan]

/-- A call with pressure and density or volume, where `τ` is the temperature of the ideal gas law. -/
theorem answered_pd {E : Env} {S : Sys} (hU : Uses E S) {L : Lib σ} {m : Mix σ} (hne : m.c ≠ [])
    (hk : ∀ s ∈ m.c, L.cls s ≠ .igmix) {varg : List Arr} {kw : KwM} {pa da : Arr} {n : String}
    (hn : n = "d" ∨ n = "v") (hs : SuppliesM varg kw n da "p" pa) {sh : List Nat}
    (h0 : sh ≠ []) (hP : Suits pa.shape sh) (hd : Suits da.shape sh) (hm : Suits m.shape sh)
    (hmn : m.shape ≠ []) (hone : pa.shape = sh ∨ da.shape = sh ∨ m.shape = sh)
    {ρ τ : List Nat → ℝ} (hρ : ∀ i, Within i sh → ∀ k lo hi, Converted E L m lo hi [(n, da), ("p", pa)] k →
      ∃ D, k.d = some D ∧ (D.shape.length ≤ i.length → D.get i = some (ρ i)))
    (hτ : ∀ i, τ i = entry pa i * size (pressure E.a) S.p / (1000 * Ru * ρ i))
    (hin : ∃ i, Within i sh ∧ ¬ OutOfRange L m (τ i))
    (q : Quantity) (hq : q = .T ∨ q = .h ∨ q = .e ∨ q = .cp ∨ q = .cv ∨ q = .gam) :
    ∃ A, dynamic q E L m varg kw = .ok A ∧ A.shape = sh ∧
      (∀ i, Within i sh → OutOfRange L m (τ i) → A.val i = none) ∧
      (q = .T → ∀ i, Within i sh → ¬ OutOfRange L m (τ i) → A.val i = some (fromKelvin S.T.name (τ i))) := by
  obtain ⟨lo, hi, hl, -⟩ := lims_eq hU L m hne
  have hm' := mix_near hm hmn
  obtain ⟨D, c1, c2, c3⟩ := convertM_pd (lo := lo) (hi := hi) hU hk h0 hm' hn pa (suits_near hd)
  obtain ⟨P, y, h1, h2, h3, h4⟩ := jointM_ok (m := m)
    (a := ⟨pa.atleast1.shape, fun i => some (pa.atleast1.val i * size (pressure E.a) S.p)⟩)
    (b := D) h0 (suits_near hP) c2 hm'
  obtain ⟨e1, e2, e3, e4⟩ := jointM_inv h1
  have hx : P.shape = sh := h4 (hone.imp (atleast1_shape h0)
    (Or.imp_left (fun h => c3 (atleast1_shape h0 h))))
  set T : NArr := ⟨P.shape, fun i => nan2 (fun p d => p / (1000 * Ru * d)) (P.val i) (y.val i)⟩ with hTd
  have hval : ∀ i, Within i sh → T.val i =
      some (τ i) := by
    intro i hi
    obtain ⟨v1, v2⟩ := e4 i (by rw [hx]; exact within_length hi)
    obtain ⟨D', t1, t2⟩ := hρ i hi _ _ _ (convertM_inv c1)
    cases t1
    have v3 := t2 (by rw [within_length hi, ← hx]; exact e3.1)
    have v4 : NArr.get ⟨pa.atleast1.shape, fun i => some (pa.atleast1.val i * size (pressure E.a) S.p)⟩ i =
        some (entry pa i * size (pressure E.a) S.p) := by
      have := atleast1_get pa i
      unfold NArr.get Arr.nan at this
      unfold NArr.get
      dsimp only at this ⊢
      rw [Option.some.inj this]
    show nan2 _ (P.val i) (y.val i) = _
    rw [v1, v2, v3, v4, hτ]
    rfl
  have hst : argparseM E L m varg kw = rangeM lo hi ⟨T, some P, some y, false, false⟩ := by
    rw [argparseM_pair hs, hl, exbind_ok]
    unfold afterM
    rw [c1, exbind_ok]
    unfold solveM
    dsimp only
    rw [h1]
    rfl
  obtain ⟨T', hst', hsh', hT'⟩ : ∃ T', argparseM E L m varg kw = .ok ⟨T', some P, some y, false, false⟩ ∧
      T'.shape = sh ∧ ∀ i, Within i sh →
        (OutOfRange L m (τ i) → T'.val i = none) ∧
        (¬ OutOfRange L m (τ i) →
          T'.val i = some (τ i)) := by
    rw [hst]
    unfold rangeM
    rw [if_neg]
    · split
      · rw [if_neg (by simp)]
        refine ⟨_, rfl, hx, fun i hi => ⟨fun h => ?_, fun h => ?_⟩⟩
        · dsimp only
          rw [hval i hi, if_pos ((oob_iff hU hl hne _).mpr h)]
        · dsimp only
          rw [hval i hi, if_neg (fun h' => h ((oob_iff hU hl hne _).mp h'))]
      · rename_i hno
        refine ⟨_, rfl, hx, fun i hi => ⟨fun h => ?_, fun h => hval i hi⟩⟩
        exfalso
        refine hno (List.any_eq_true.mpr ⟨i, mem_indices.mpr (by rw [hx]; exact hi), ?_⟩)
        rw [hval i hi]
        exact (oob_iff hU hl hne _).mpr h
    · rw [List.all_eq_true]
      intro hall
      obtain ⟨i, i1, i2⟩ := hin
      have := hall i (by rw [mem_indices]; dsimp only; rw [hx]; exact i1)
      rw [hval i i1] at this
      exact i2 ((oob_iff hU hl hne _).mp this)
  have hfit : FitsR m.shape T'.shape := by rw [hsh', ← hx]; exact h3
  have ev : ∀ f : Gas → ℝ → Nan, ∃ X, propeval L m f T' = .ok X ∧ X.shape = sh ∧
      ∀ i, Within i sh → T'.val i = none → X.val i = none := by
    intro f
    unfold propeval
    rw [hfit.np, exbind_ok]
    refine ⟨_, rfl, hsh', fun i hi h => ?_⟩
    dsimp only
    rw [get_same (by rw [hsh']; exact hi), h]
    rfl
  rcases hq with rfl | rfl | rfl | rfl | rfl | rfl
  · dsimp only [dynamic]
    unfold iT
    rw [hst', exbind_ok, conv_ok (does_out_T hU)]
    refine ⟨_, rfl, hsh', fun i hi h => ?_, fun _ i hi h => ?_⟩
    · dsimp only; rw [(hT' i hi).1 h]; rfl
    · dsimp only; rw [(hT' i hi).2 h]; rfl
  · obtain ⟨X, x1, x2, x3⟩ := ev (fun G t => (G.h t).map (·.1))
    dsimp only [dynamic]
    unfold iH
    rw [hst', exbind_ok, x1, exbind_ok, outE_ok hU]
    refine ⟨_, rfl, x2, fun i hi h => ?_, fun h => by cases h⟩
    dsimp only; rw [x3 i hi ((hT' i hi).1 h)]; rfl
  · obtain ⟨X, x1, x2, x3⟩ := ev (fun G t => (G.e t).map (·.1))
    dsimp only [dynamic]
    unfold iE
    rw [hst', exbind_ok, x1, exbind_ok, outE_ok hU]
    refine ⟨_, rfl, x2, fun i hi h => ?_, fun h => by cases h⟩
    dsimp only; rw [x3 i hi ((hT' i hi).1 h)]; rfl
  · obtain ⟨X, x1, x2, x3⟩ := ev Gas.cp
    dsimp only [dynamic]
    unfold iCp
    rw [hst', exbind_ok, x1, exbind_ok, outS_ok hU]
    refine ⟨_, rfl, x2, fun i hi h => ?_, fun h => by cases h⟩
    dsimp only; rw [x3 i hi ((hT' i hi).1 h)]; rfl
  · obtain ⟨X, x1, x2, x3⟩ := ev Gas.cp
    dsimp only [dynamic]
    unfold iCv
    rw [hst', exbind_ok, x1, exbind_ok, outS_ok hU]
    refine ⟨_, rfl, x2, fun i hi h => ?_, fun h => by cases h⟩
    dsimp only; rw [x3 i hi ((hT' i hi).1 h)]; rfl
  · obtain ⟨X, x1, x2, x3⟩ := ev Gas.cp
    dsimp only [dynamic]
    unfold iGam
    rw [hst', exbind_ok, x1, exbind_ok]
    refine ⟨_, rfl, x2, fun i hi h => ?_, fun h => by cases h⟩
    dsimp only; rw [x3 i hi ((hT' i hi).1 h)]; rfl

/-- **C86.** With pressure and density, where at least one position is within the limits of the mixture,
the call is answered; the positions outside are NaN, in temperature, enthalpy, internal energy and
heat capacities, and the others have the temperature of the ideal gas law. -/
theorem C86_density_partial (E : Env) (S : Sys) (hU : Uses E S) (L : Lib σ) (m : Mix σ) (hne : m.c ≠ [])
    (hk : ∀ s ∈ m.c, L.cls s ≠ .igmix) (varg : List Arr) (kw : KwM) (pa da : Arr)
    (hs : SuppliesM varg kw "d" da "p" pa) (sh : List Nat)
    (h0 : sh ≠ []) (hP : Suits pa.shape sh) (hd : Suits da.shape sh) (hm : Suits m.shape sh)
    (hmn : m.shape ≠ []) (hone : pa.shape = sh ∨ da.shape = sh ∨ m.shape = sh)
    (hmw : ∀ i, Within i sh → meanMw L m i ≠ 0)
    (hin : ∃ i, Within i sh ∧ ¬ OutOfRange L m (gasTemperature E S (meanMw L m i) (entry pa i) (entry da i)))
    (q : Quantity) (hq : q = .T ∨ q = .h ∨ q = .e ∨ q = .cp ∨ q = .cv ∨ q = .gam) :
    ∃ A, dynamic q E L m varg kw = .ok A ∧ A.shape = sh ∧
      (∀ i, Within i sh → OutOfRange L m (gasTemperature E S (meanMw L m i) (entry pa i) (entry da i)) →
        A.val i = none) ∧
      (q = .T → ∀ i, Within i sh →
        ¬ OutOfRange L m (gasTemperature E S (meanMw L m i) (entry pa i) (entry da i)) →
        A.val i = some (fromKelvin S.T.name (gasTemperature E S (meanMw L m i) (entry pa i) (entry da i)))) := by
  refine answered_pd hU hne hk (Or.inl rfl) hs h0 hP hd hm hmn hone
    (ρ := fun i => internal E.a S (meanMw L m i) .density (entry da i)) ?_ (fun i => rfl) hin q hq
  intro i hi k lo hi' hc
  obtain ⟨D, t1, t2⟩ := converted_d hU hc hs.ok
  exact ⟨D, t1, fun h => t2 i h (hmw i hi)⟩

/-- **C86.** With pressure and specific volume, where at least one position is within the limits of the mixture,
the call is answered; the positions outside are NaN, in temperature, enthalpy, internal energy and
heat capacities, and the others have the temperature of the ideal gas law. -/
theorem C86_volume_partial (E : Env) (S : Sys) (hU : Uses E S) (L : Lib σ) (m : Mix σ) (hne : m.c ≠ [])
    (hk : ∀ s ∈ m.c, L.cls s ≠ .igmix) (varg : List Arr) (kw : KwM) (pa va : Arr)
    (hs : SuppliesM varg kw "v" va "p" pa) (sh : List Nat)
    (h0 : sh ≠ []) (hP : Suits pa.shape sh) (hd : Suits va.shape sh) (hm : Suits m.shape sh)
    (hmn : m.shape ≠ []) (hone : pa.shape = sh ∨ va.shape = sh ∨ m.shape = sh)
    (hmw : ∀ i, Within i sh → meanMw L m i ≠ 0)
    (hin : ∃ i, Within i sh ∧ ¬ OutOfRange L m (volumeTemperature E S (meanMw L m i) (entry pa i) (entry va i)))
    (q : Quantity) (hq : q = .T ∨ q = .h ∨ q = .e ∨ q = .cp ∨ q = .cv ∨ q = .gam) :
    ∃ A, dynamic q E L m varg kw = .ok A ∧ A.shape = sh ∧
      (∀ i, Within i sh → OutOfRange L m (volumeTemperature E S (meanMw L m i) (entry pa i) (entry va i)) →
        A.val i = none) ∧
      (q = .T → ∀ i, Within i sh →
        ¬ OutOfRange L m (volumeTemperature E S (meanMw L m i) (entry pa i) (entry va i)) →
        A.val i = some (fromKelvin S.T.name (volumeTemperature E S (meanMw L m i) (entry pa i) (entry va i)))) := by
  refine answered_pd hU hne hk (Or.inr rfl) hs h0 hP hd hm hmn hone
    (ρ := fun i => 1 / internal E.a S (meanMw L m i) .volume (entry va i)) ?_ (fun i => ?_) hin q hq
  · intro i hi k lo hi' hc
    obtain ⟨D, t1, t2⟩ := converted_v hU hc
    exact ⟨D, t1, fun h => t2 i h (hmw i hi)⟩
  · simp only [volumeTemperature, internal, mul_one_div, div_div_eq_mul_div]

theorem mixSum_none {f : σ → Nan} {l : List (σ × ℝ)} (h : ∃ r ∈ l, f r.1 = none) : mixSum f l = none := by
  induction l with
  | nil => obtain ⟨r, hr, -⟩ := h; simp at hr
  | cons a l ih =>
    obtain ⟨r, hr, e⟩ := h
    obtain ⟨s, q⟩ := a
    unfold mixSum
    rcases List.mem_cons.mp hr with rfl | hr
    · dsimp only at e
      rw [e]; rfl
    · rw [ih ⟨r, hr, e⟩]
      cases (f s).map (q * ·) <;> rfl

theorem rows_mem {m : Mix σ} {s : σ} (h : s ∈ m.c) (j : List Nat) : ∃ r ∈ rowsAt m j, r.1 = s := by
  obtain ⟨n, hn, e⟩ := List.mem_iff_getElem.mp h
  refine ⟨(s, m.q.val (n :: j)), ?_, rfl⟩
  unfold rowsAt
  refine List.mem_map.mpr ⟨(s, n), ?_, rfl⟩
  refine List.mem_iff_getElem.mpr ⟨n, by simpa using hn, ?_⟩
  simp [e]

/-- **C86 disagreement.** A temperature within the limits of the mixture, as `Tlim()` reports them, at
which one of the constituents has no data (documented as impossible, see `C43_hull_defect`): enthalpy,
internal energy and heat capacity are NaN, without warning or error, even if the amount of that
constituent is zero. -/
theorem C86_gap_defect (E : Env) (S : Sys) (hU : Uses E S) (L : Lib σ) (m : Mix σ) (hne : m.c ≠ [])
    (hk : ∀ s ∈ m.c, L.cls s ≠ .igmix) (varg : List Arr) (kw : KwM) (ta b : Arr) (n : String)
    (hn : n = "p" ∨ n = "d" ∨ n = "v") (hs : SuppliesM varg kw "T" ta n b) (sh : List Nat)
    (h0 : sh ≠ []) (hpos : ∀ n ∈ sh, n ≠ 0) (hT : Suits ta.shape sh) (hb : Suits b.shape sh)
    (hm : Suits m.shape sh) (hmn : m.shape ≠ []) (hone : ta.shape = sh ∨ b.shape = sh ∨ m.shape = sh)
    (hin : ∀ i, Within i sh → ¬ OutOfRange L m (toKelvin S.T.name (entry ta i))) (i : List Nat)
    (hi : Within i sh) (s : σ) (hsm : s ∈ m.c) (D : Data) (hw : WellFormed D)
    (hD : L.gas s = ig D ∨ L.gas s = ig2 D)
    (hgap : toKelvin S.T.name (entry ta i) < (L.gas s).Tlo ∨ (L.gas s).Thi < toKelvin S.T.name (entry ta i))
    (q : Quantity) (hq : q = .h ∨ q = .e ∨ q = .cp) :
    ∃ A, dynamic q E L m varg kw = .ok A ∧ A.shape = sh ∧ A.val i = none := by
  obtain ⟨lo, hi', st, hl, e, hro, hsh, hval⟩ := state_T hU hne hk hn hs h0 hT hb hm hmn hone
  have hst : argparseM E L m varg kw = .ok st := by
    rw [e]
    refine rangeM_ok (by rw [hsh]; exact hpos) fun j hj => ?_
    rw [hsh] at hj
    refine ⟨_, hval j hj, ?_⟩
    have := hin j hj
    rw [← oob_iff hU hl hne] at this
    simp only [oobM, decide_eq_true_eq] at this
    push Not at this
    exact this
  have hfit : FitsR m.shape st.T.shape := by
    rw [hsh]
    rcases mix_near hm hmn with h | h
    · rw [h]; exact FitsR.one h0
    · exact FitsR.of_fits h
  have hnone : ∀ (α : Type) (f : Coef → ℝ → α), piecewise D.Tlim D.C f (toKelvin S.T.name (entry ta i)) = none := by
    refine (C33_evaluation D hw _).2 ?_
    rcases hD with h | h <;> rw [h] at hgap <;> exact hgap
  have hh : (L.gas s).h (toKelvin S.T.name (entry ta i)) = none := by
    rcases hD with h | h <;> rw [h]
    · exact hnone _ (fun c T => (Sho.h c T, Sho.hT c T))
    · exact hnone _ (fun c T => (Nasa.h c T, Nasa.hT c T))
  have hc : (L.gas s).cp (toKelvin S.T.name (entry ta i)) = none := by
    rcases hD with h | h <;> rw [h]
    · exact hnone _ Sho.cp
    · exact hnone _ Nasa.cp
  have he : (L.gas s).e (toKelvin S.T.name (entry ta i)) = none := by
    unfold Gas.e
    rw [hh]; rfl
  have ev : ∀ f : Gas → ℝ → Nan, f (L.gas s) (toKelvin S.T.name (entry ta i)) = none →
      ∃ X, propeval L m f st.T = .ok X ∧ X.shape = sh ∧ X.val i = none := by
    intro f hf
    unfold propeval
    rw [hfit.np, exbind_ok]
    refine ⟨_, rfl, hsh, ?_⟩
    dsimp only
    rw [get_same (by rw [hsh]; exact hi), hval i hi]
    show mixSum _ _ = none
    obtain ⟨r, r1, r2⟩ := rows_mem hsm (m.at i)
    exact mixSum_none ⟨r, r1, by rw [r2]; exact hf⟩
  rcases hq with rfl | rfl | rfl
  · obtain ⟨X, x1, x2, x3⟩ := ev (fun G t => (G.h t).map (·.1)) (by rw [hh]; rfl)
    dsimp only [dynamic]
    unfold iH
    rw [hst, exbind_ok, x1, exbind_ok, outE_ok hU]
    exact ⟨_, rfl, x2, by dsimp only; rw [x3]; rfl⟩
  · obtain ⟨X, x1, x2, x3⟩ := ev (fun G t => (G.e t).map (·.1)) (by rw [he]; rfl)
    dsimp only [dynamic]
    unfold iE
    rw [hst, exbind_ok, x1, exbind_ok, outE_ok hU]
    exact ⟨_, rfl, x2, by dsimp only; rw [x3]; rfl⟩
  · obtain ⟨X, x1, x2, x3⟩ := ev Gas.cp hc
    dsimp only [dynamic]
    unfold iCp
    rw [hst, exbind_ok, x1, exbind_ok, outS_ok hU]
    exact ⟨_, rfl, x2, by dsimp only; rw [x3]; rfl⟩

end PyroMat.Igt.Props
