import Verif.Igt.PropsEntropy

/-!
# C84: calls with temperature and density, volume or entropy are answered
-/

set_option linter.unusedSectionVars false
set_option linter.unusedSimpArgs false

namespace PyroMat.Igt.Props

open PyroMat PyroMat.Gas PyroMat.Igt PyroMat.Igt.Spec PyroMat.Config.Defaults
open PyroMat.Units PyroMat.Units.Spec PyroMat.Units.Props PyroMat.Gas.Spec PyroMat.Gas.Props
open scoped BigOperators

variable {σ : Type} [DecidableEq σ]

/-- What the methods return for a state whose arrays have one shape. -/
theorem state_answers {E : Env} {S : Sys} (hU : Uses E S) {L : Lib σ} {m : Mix σ} {varg : List Arr}
    {kw : KwM} {st : MixState} (hst : argparseM E L m varg kw = .ok st) (hf : FitsR m.shape st.T.shape)
    {P : NArr} (hP : st.pressure = .ok P) (hPs : P.shape = st.T.shape) {D : NArr}
    (hD : st.density = .ok D) (hDs : D.shape = st.T.shape) :
      HasShape (iT E L m varg kw) st.T.shape ∧ HasShape (iP E L m varg kw) st.T.shape ∧
      HasShape (iCp E L m varg kw) st.T.shape ∧ HasShape (iCv E L m varg kw) st.T.shape ∧
      HasShape (iGam E L m varg kw) st.T.shape ∧ HasShape (iH E L m varg kw) st.T.shape ∧
      HasShape (iE E L m varg kw) st.T.shape ∧
      ((∀ s ∈ m.c, L.cls s ≠ .igmix) →
        HasShape (iD E L m varg kw) st.T.shape ∧ HasShape (iV E L m varg kw) st.T.shape) ∧
      (st.T.shape = m.shape → (∀ s ∈ m.c, L.cls s ≠ .other) → HasShape (iS E L m varg kw) st.T.shape ∧
        HasShape (iG E L m varg kw) st.T.shape ∧ HasShape (iF E L m varg kw) st.T.shape) := by
  have ev : ∀ f : Gas → ℝ → Nan, ∃ X, propeval L m f st.T = .ok X ∧ X.shape = st.T.shape :=
    fun f => propeval_ok f hf
  have hDD : (∀ s ∈ m.c, L.cls s ≠ .igmix) → HasShape (iD E L m varg kw) st.T.shape := by
    intro hk
    obtain ⟨B, b1, b2⟩ := matterMix_out_ok hU hk 1 none
    have hB : FitsR B.shape st.T.shape := by
      rcases b2 with h | h
      · rw [h]; exact hf
      · rw [h]; exact FitsR.nil _
    unfold iD
    rw [hst, exbind_ok, hD, exbind_ok, b1, exbind_ok, conv_ok (does_out_v hU), exbind_ok]
    unfold NArr.zip
    dsimp only
    rw [hDs, npShape_right hB, exbind_ok, exbind_ok, if_neg (by simp)]
    exact ⟨_, rfl, rfl⟩
  refine ⟨?_, ?_, ?_, ?_, ?_, ?_, ?_, fun hk => ⟨hDD hk, ?_⟩, fun hr hk => ?_⟩
  · unfold iT
    rw [hst, exbind_ok, conv_ok (does_out_T hU)]
    exact ⟨_, rfl, rfl⟩
  · unfold iP
    rw [hst, exbind_ok, hP, exbind_ok, conv_ok (does_out_p hU)]
    exact ⟨_, rfl, hPs⟩
  · obtain ⟨X, x1, x2⟩ := ev Gas.cp
    unfold iCp
    rw [hst, exbind_ok, x1, exbind_ok, outS_ok hU]
    exact ⟨_, rfl, x2⟩
  · obtain ⟨X, x1, x2⟩ := ev Gas.cp
    unfold iCv
    rw [hst, exbind_ok, x1, exbind_ok, outS_ok hU]
    exact ⟨_, rfl, x2⟩
  · obtain ⟨X, x1, x2⟩ := ev Gas.cp
    unfold iGam
    rw [hst, exbind_ok, x1, exbind_ok]
    exact ⟨_, rfl, x2⟩
  · obtain ⟨X, x1, x2⟩ := ev (fun G t => (G.h t).map (·.1))
    unfold iH
    rw [hst, exbind_ok, x1, exbind_ok, outE_ok hU]
    exact ⟨_, rfl, x2⟩
  · obtain ⟨X, x1, x2⟩ := ev (fun G t => (G.e t).map (·.1))
    unfold iE
    rw [hst, exbind_ok, x1, exbind_ok, outE_ok hU]
    exact ⟨_, rfl, x2⟩
  · obtain ⟨A, a1, a2⟩ := hDD hk
    unfold iV
    rw [a1, exbind_ok]
    exact ⟨_, rfl, a2⟩
  · have hcl : classes L m = .ok () := by
      unfold classes
      rw [if_neg]; simpa using hk
    have hsp : ∃ Y, spMix L m P = .ok Y ∧ Y.shape = st.T.shape := by
      unfold spMix
      rw [hcl, exbind_ok, hPs, hr, npShape_self, exbind_ok, if_neg (by simp), if_neg (by simp)]
      exact ⟨_, rfl, rfl⟩
    obtain ⟨Y, y1, y2⟩ := hsp
    refine ⟨?_, ?_, ?_⟩
    · obtain ⟨X, x1, x2⟩ := ev (fun G t => (G.s t).map (·.1))
      obtain ⟨Z, z1, z2, -⟩ := zip_same (f := (· + ·)) x2 y2
      unfold iS
      rw [hst, exbind_ok, hP, exbind_ok, x1, exbind_ok, y1, exbind_ok, z1, exbind_ok, outS_ok hU]
      exact ⟨_, rfl, z2⟩
    · obtain ⟨X, x1, x2⟩ := ev (fun G t => (G.g t).map (·.1))
      obtain ⟨W, w1, w2, -⟩ := zip_same (f := (· * ·)) (rfl : st.T.shape = st.T.shape) y2
      obtain ⟨Z, z1, z2, -⟩ := zip_same (f := (· - ·)) x2 w2
      unfold iG
      rw [hst, exbind_ok, hP, exbind_ok, x1, exbind_ok, y1, exbind_ok, w1, exbind_ok, z1, exbind_ok,
        outE_ok hU]
      exact ⟨_, rfl, z2⟩
    · obtain ⟨X, x1, x2⟩ := ev (fun G t => (G.f t).map (·.1))
      obtain ⟨W, w1, w2, -⟩ := zip_same (f := (· * ·)) (rfl : st.T.shape = st.T.shape) y2
      obtain ⟨Z, z1, z2, -⟩ := zip_same (f := (· - ·)) x2 w2
      unfold iF
      rw [hst, exbind_ok, hP, exbind_ok, x1, exbind_ok, y1, exbind_ok, w1, exbind_ok, z1, exbind_ok,
        outE_ok hU]
      exact ⟨_, rfl, z2⟩

theorem np_near {sh a b : List Nat} (h0 : sh ≠ []) (ha : Near a sh) (hb : Near b sh) :
    ∃ r, npShape a b = .ok r ∧ Near r sh ∧ (a = sh ∨ b = sh → r = sh) := by
  rcases ha with rfl | ha'
  · refine ⟨b, (FitsR.one (hb.ne h0)).np, hb, ?_⟩
    rintro (h | h)
    · rcases hb with rfl | hb
      · exact h
      · rw [← h] at hb ⊢; exact fits_one hb
    · exact h
  · rcases hb with rfl | hb'
    · refine ⟨a, npShape_right (FitsR.one (Near.ne h0 (Or.inr ha'))), Or.inr ha', ?_⟩
      rintro (h | h)
      · exact h
      · rw [← h] at ha' ⊢; exact fits_one ha'
    · have hc := compat_of_fits ha' hb'
      refine ⟨joined a b, npShape_compat hc, Or.inr (fits_joined3 ha' hb'), ?_⟩
      rintro (h | h)
      · rw [joined_comm hc, h]; exact joined_absorb hb'
      · rw [h]; exact joined_absorb ha'

/-- A density or volume as an argument. -/
theorem matterMix_in_ok {E : Env} {S : Sys} (hU : Uses E S) {L : Lib σ} {m : Mix σ}
    (hk : ∀ s ∈ m.c, L.cls s ≠ .igmix) {sh : List Nat} (h0 : sh ≠ []) {a : NArr} (ha : Near a.shape sh)
    (hm : Near m.shape sh) (x : Option ℤ) :
    ∃ B, matterMix E L m a none (some "kmol") x = .ok B ∧ Near B.shape sh ∧ (a.shape = sh → B.shape = sh) := by
  unfold matterMix
  simp only [mwKeys_ok hk, hU.m, exbind_ok, crosses_in hU]
  have hd : Does (fun v => matter E.a E.c.str v 1 (some S.m) (some "kmol") x false)
      (· * powS (msize E.a 1 S.m / 1) x) := by
    intro y
    rw [scalarOf_matter2 hU one_ne_zero (msize_lookup hU _) (kmol_scale _ _)]
  obtain ⟨r, r1, r2, r3⟩ := np_near h0 ha hm
  split
  · rw [r1, exbind_ok, hd 0, exbind_ok]
    exact ⟨_, rfl, r2, fun h => r3 (Or.inl h)⟩
  · rw [conv_ok hd]
    exact ⟨_, rfl, ha, id⟩

theorem convertM_Td {E : Env} {S : Sys} (hU : Uses E S) {L : Lib σ} {m : Mix σ}
    (hk : ∀ s ∈ m.c, L.cls s ≠ .igmix) {sh : List Nat} (h0 : sh ≠ []) (hm : Near m.shape sh)
    {lo hi : ℝ} {n : String} (hn : n = "d" ∨ n = "v") (ta : Arr) {da : Arr}
    (hd : Near da.atleast1.shape sh) :
    ∃ D, convertM E L m lo hi [("T", ta), (n, da)] = .ok
      ⟨some (⟨ta.atleast1.shape, fun i => some (toKelvin S.T.name (ta.atleast1.val i))⟩, false),
       none, some D, none⟩ ∧ Near D.shape sh ∧ (da.atleast1.shape = sh → D.shape = sh) := by
  rcases hn with rfl | rfl
  · have : ∃ D, densM E L m da.atleast1.nan = .ok D ∧ Near D.shape sh ∧
        (da.atleast1.shape = sh → D.shape = sh) := by
      unfold densM
      rw [conv_ok (does_in_v hU _), exbind_ok]
      exact matterMix_in_ok hU hk h0 (by exact hd) hm none
    obtain ⟨D, d1, d2, d3⟩ := this
    refine ⟨D, ?_, d2, d3⟩
    unfold Arr.nan at d1
    unfold convertM argM argE
    simp [List.lookup_cons, conv_ok (does_in_T hU), d1, exbind_ok, Except.map, Arr.nan]
  · have : ∃ D, volM E L m da.atleast1.nan = .ok D ∧ Near D.shape sh ∧
        (da.atleast1.shape = sh → D.shape = sh) := by
      unfold volM
      rw [conv_ok (does_in_v hU _), exbind_ok]
      obtain ⟨B, b1, b2, b3⟩ := matterMix_in_ok hU hk h0 (a := ⟨da.atleast1.nan.shape,
        fun i => (da.atleast1.nan.val i).map (· * powS (size volume S.v) none)⟩) (by exact hd) hm (some (-1))
      rw [b1, exbind_ok]
      exact ⟨_, rfl, b2, b3⟩
    obtain ⟨D, d1, d2, d3⟩ := this
    refine ⟨D, ?_, d2, d3⟩
    unfold Arr.nan at d1
    unfold convertM argM argE
    simp [List.lookup_cons, conv_ok (does_in_T hU), d1, exbind_ok, Except.map, Arr.nan]

theorem convertM_Ts {E : Env} {S : Sys} (hU : Uses E S) {L : Lib σ} {m : Mix σ} {lo hi : ℝ} (ta sa : Arr) :
    convertM E L m lo hi [("T", ta), ("s", sa)] = .ok
      ⟨some (⟨ta.atleast1.shape, fun i => some (toKelvin S.T.name (ta.atleast1.val i))⟩, false),
       none, none, some ⟨sa.atleast1.shape, fun i => some (sa.atleast1.val i *
        (size energy S.e / 1000 * (size temperature S.T.name / 1.8)⁻¹))⟩⟩ := by
  unfold convertM argM argE
  simp [List.lookup_cons, conv_ok (does_in_T hU), entrM_ok hU, exbind_ok, Except.map, Arr.nan]

theorem mix_near {m : Mix σ} {sh : List Nat} (hm : Suits m.shape sh) (hmn : m.shape ≠ []) :
    Near m.shape sh := by
  rcases hm with h | h | h
  · exact absurd h hmn
  · exact Or.inl h
  · exact Or.inr (fits_of_forall h)

/-- **C84.** Calls with temperature and density (or specific volume) are answered, in the same way as
those with temperature and pressure (`C84_answered`), unless a constituent is itself a stored
mixture. -/
theorem C84_answered_density (E : Env) (S : Sys) (hU : Uses E S) (L : Lib σ) (m : Mix σ) (hne : m.c ≠ [])
    (hk : ∀ s ∈ m.c, L.cls s ≠ .igmix) (varg : List Arr) (kw : KwM) (ta da : Arr) (n : String)
    (hn : n = "d" ∨ n = "v") (hs : SuppliesM varg kw "T" ta n da)
    (sh : List Nat) (h0 : sh ≠ []) (hp : ∀ n ∈ sh, n ≠ 0) (hT : Suits ta.shape sh)
    (hD : Suits da.shape sh) (hm : Suits m.shape sh) (hmn : m.shape ≠ [])
    (hv : InLimits S L m ta) :
    ∃ r, (ta.shape = sh ∨ da.shape = sh ∨ m.shape = sh → r = sh) ∧
      HasShape (iT E L m varg kw) r ∧ HasShape (iP E L m varg kw) r ∧
      HasShape (iCp E L m varg kw) r ∧ HasShape (iCv E L m varg kw) r ∧
      HasShape (iGam E L m varg kw) r ∧ HasShape (iH E L m varg kw) r ∧
      HasShape (iE E L m varg kw) r ∧ HasShape (iD E L m varg kw) r ∧ HasShape (iV E L m varg kw) r ∧
      (r = m.shape → (∀ s ∈ m.c, L.cls s ≠ .other) → HasShape (iS E L m varg kw) r ∧
        HasShape (iG E L m varg kw) r ∧ HasShape (iF E L m varg kw) r) := by
  have hm' := mix_near hm hmn
  obtain ⟨lo, hi, hl, -⟩ := lims_eq hU L m hne
  obtain ⟨D, c1, c2, c3⟩ := convertM_Td (lo := lo) (hi := hi) hU hk h0 hm' hn ta (suits_near hD)
  obtain ⟨x, y, h1, h2, h3, h4⟩ := jointM_ok (m := m)
    (a := ⟨ta.atleast1.shape, fun i => some (toKelvin S.T.name (ta.atleast1.val i))⟩)
    (b := D) h0 (suits_near hT) c2 hm'
  obtain ⟨e1, e2, e3, e4⟩ := jointM_inv h1
  have hst : argparseM E L m varg kw = .ok ⟨x, none, some y, true, false⟩ := by
    rw [argparseM_pair hs, hl, exbind_ok]
    unfold afterM
    rw [c1, exbind_ok]
    unfold solveM
    dsimp only
    rw [h1]
    simp only [exbind_ok]
    refine rangeM_ok (near_pos h2 hp) fun i hi => ?_
    have := (e4 i (within_length hi)).1
    dsimp only
    rw [this, get_rd]
    exact ⟨_, rfl, in_hull hU hl hne (inLimits_atleast1 hv _ (within_rd e2 hi))⟩
  obtain ⟨P, p1, p2, -⟩ := zip_same (f := fun d t => d * (1000 * Ru * t)) e1.symm (rfl : x.shape = x.shape)
  obtain ⟨a1, a2, a3, a4, a5, a6, a7, a8, a9⟩ := state_answers hU hst h3 (P := P) p1 p2 (D := y) rfl e1.symm
  refine ⟨x.shape, fun h => h4 ?_, a1, a2, a3, a4, a5, a6, a7, (a8 hk).1, (a8 hk).2, a9⟩
  exact h.imp (atleast1_shape h0) (Or.imp_left (fun h => c3 (atleast1_shape h0 h)))

/-- The state of a call with temperature and entropy. -/
theorem argparseM_Ts {E : Env} {S : Sys} (hU : Uses E S) {L : Lib σ} {m : Mix σ} (hne : m.c ≠ [])
    (hk : ∀ s ∈ m.c, L.cls s ≠ .other) {varg : List Arr} {kw : KwM} {ta sa : Arr}
    (hs : SuppliesM varg kw "T" ta "s" sa) (hmn : m.shape ≠ []) (hp : ∀ n ∈ m.shape, n ≠ 0)
    (hT : Suits ta.shape m.shape) (hS : Suits sa.shape m.shape) (hv : InLimits S L m ta) :
    ∃ x P, argparseM E L m varg kw = .ok ⟨x, some P, none, true, false⟩ ∧ x.shape = m.shape ∧
      P.shape = m.shape ∧ (∀ i, Within i m.shape → x.val i = some (toKelvin S.T.name (entry ta i))) ∧
      entropyT L m ⟨sa.atleast1.shape, fun i => some (sa.atleast1.val i *
        (size energy S.e / 1000 * (size temperature S.T.name / 1.8)⁻¹))⟩ x = .ok P := by
  obtain ⟨lo, hi, hl, -⟩ := lims_eq hU L m hne
  have hm' : Near m.shape m.shape := mix_near (Or.inr (Or.inr (List.forall₂_same.mpr fun _ _ => Or.inr rfl))) hmn
  obtain ⟨y, x, h1, h2, h3, h4⟩ := jointM_ok (m := m)
    (b := ⟨ta.atleast1.shape, fun i => some (toKelvin S.T.name (ta.atleast1.val i))⟩)
    (a := ⟨sa.atleast1.shape, fun i => some (sa.atleast1.val i *
        (size energy S.e / 1000 * (size temperature S.T.name / 1.8)⁻¹))⟩) hmn (suits_near hS) (suits_near hT) hm'
  obtain ⟨e1, e2, e3, e4⟩ := jointM_inv h1
  have hys := h4 (Or.inr (Or.inr rfl))
  have hxs : x.shape = m.shape := by rw [← e1]; exact hys
  have hcl : classes L m = .ok () := by
    unfold classes
    rw [if_neg]; simpa using hk
  have hE : ∃ P, entropyT L m ⟨sa.atleast1.shape, fun i => some (sa.atleast1.val i *
        (size energy S.e / 1000 * (size temperature S.T.name / 1.8)⁻¹))⟩ x = .ok P ∧ P.shape = m.shape := by
    obtain ⟨X, x1, x2⟩ := propeval_ok (L := L) (m := m) (fun G t => (G.s t).map (·.1)) (T := x)
      (by rw [hxs]; exact FitsR.refl _)
    rw [hxs] at x2
    rw [hys] at e2
    unfold entropyT
    rw [x1, exbind_ok]
    unfold NArr.zip
    dsimp only at e2 ⊢
    rw [x2, e2.np, exbind_ok, exbind_ok]
    dsimp only
    rw [npShape_self, exbind_ok, if_neg (by simp), hcl, exbind_ok]
    exact ⟨_, rfl, rfl⟩
  obtain ⟨P, p1, p2⟩ := hE
  refine ⟨x, P, ?_, hxs, p2, fun i hi => ?_, p1⟩
  · rw [argparseM_pair hs, hl, exbind_ok]
    unfold afterM
    rw [convertM_Ts hU, exbind_ok]
    unfold solveM
    dsimp only
    rw [if_neg (by simp [KwM.has, List.lookup_cons]), h1]
    simp only [exbind_ok]
    rw [p1, exbind_ok, exbind_ok]
    refine rangeM_ok (by rw [hxs]; exact hp) fun i hi => ?_
    have := (e4 i (by rw [e1]; exact within_length hi)).2
    dsimp only at this hi ⊢
    rw [this, get_rd]
    rw [e1] at e3
    exact ⟨_, rfl, in_hull hU hl hne (inLimits_atleast1 hv _ (within_rd e3 hi))⟩
  · rw [(e4 i (by rw [hys]; exact within_length hi)).2]
    have := atleast1_get ta i
    unfold NArr.get Arr.nan at this
    unfold NArr.get
    dsimp only at this ⊢
    rw [Option.some.inj this]

/-- **C84.** Calls with temperature and entropy are answered when the arguments suit the shape of the
mixture and no constituent is of a class other than the ideal-gas ones. -/
theorem C84_answered_entropy (E : Env) (S : Sys) (hU : Uses E S) (L : Lib σ) (m : Mix σ) (hne : m.c ≠ [])
    (hk : ∀ s ∈ m.c, L.cls s ≠ .other) (varg : List Arr) (kw : KwM) (ta sa : Arr)
    (hs : SuppliesM varg kw "T" ta "s" sa) (hmn : m.shape ≠ []) (hp : ∀ n ∈ m.shape, n ≠ 0)
    (hT : Suits ta.shape m.shape) (hS : Suits sa.shape m.shape) (hv : InLimits S L m ta) :
      HasShape (iT E L m varg kw) m.shape ∧ HasShape (iP E L m varg kw) m.shape ∧
      HasShape (iCp E L m varg kw) m.shape ∧ HasShape (iCv E L m varg kw) m.shape ∧
      HasShape (iGam E L m varg kw) m.shape ∧ HasShape (iH E L m varg kw) m.shape ∧
      HasShape (iE E L m varg kw) m.shape ∧ HasShape (iS E L m varg kw) m.shape ∧
      HasShape (iG E L m varg kw) m.shape ∧ HasShape (iF E L m varg kw) m.shape ∧
      ((∀ s ∈ m.c, L.cls s ≠ .igmix) →
        HasShape (iD E L m varg kw) m.shape ∧ HasShape (iV E L m varg kw) m.shape) := by
  obtain ⟨x, P, hst, hxs, p2, -, -⟩ := argparseM_Ts hU hne hk hs hmn hp hT hS hv
  obtain ⟨D, d1, d2, -⟩ := zip_same (f := fun p t => p / (1000 * Ru * t)) p2 hxs
  obtain ⟨a1, a2, a3, a4, a5, a6, a7, a8, a9⟩ := state_answers hU hst (by dsimp only; rw [hxs]; exact FitsR.refl _)
    (P := P) rfl (by rw [p2, hxs]) (D := D) d1 (by rw [d2, hxs])
  dsimp only at a1 a2 a3 a4 a5 a6 a7 a8 a9
  rw [hxs] at a1 a2 a3 a4 a5 a6 a7 a8 a9
  obtain ⟨b1, b2, b3⟩ := a9 rfl hk
  exact ⟨a1, a2, a3, a4, a5, a6, a7, b1, b2, b3, a8⟩

/-- **C83.** The whole round trip from temperature and entropy.  At every position that holds some
matter and whose temperature all constituents have entropies for, the mixture reports the temperature
and the entropy given for it. -/
theorem C83_entropy_round_trip (E : Env) (S : Sys) (hU : Uses E S) (L : Lib σ) (m : Mix σ)
    (hnd : m.c.Nodup) (hpr : ∀ s ∈ m.c, 0 < (L.gas s).pref)
    (hk : ∀ s ∈ m.c, L.cls s ≠ .other) (varg : List Arr) (kw : KwM) (ta sa : Arr)
    (hs : SuppliesM varg kw "T" ta "s" sa) (hmn : m.shape ≠ []) (hp : ∀ n ∈ m.shape, n ≠ 0)
    (hT : Suits ta.shape m.shape) (hS : Suits sa.shape m.shape) (hv : InLimits S L m ta)
    (i : List Nat) (hi : Within i m.shape) (hq : ∀ s ∈ m.c, 0 ≤ amount m s i) (hn : 0 < kmols m i)
    (hd : ∀ s ∈ m.c, ∃ y, (L.gas s).s (toKelvin S.T.name (entry ta i)) = some y) :
    Shows (iS E L m varg kw) i (entry sa i) ∧ Shows (iT E L m varg kw) i (entry ta i) := by
  have hne : m.c ≠ [] := by
    intro h
    rw [kmols_place, h] at hn
    simp at hn
  obtain ⟨x, P, hst, hxs, p2, hxv, hE⟩ := argparseM_Ts hU hne hk hs hmn hp hT hS hv
  obtain ⟨sT, sP, -, -, -, -, -, ⟨A, a1, a2⟩, -⟩ := C84_answered_entropy E S hU L m hne hk varg kw ta sa hs hmn hp hT hS hv
  have hx := hxv i hi
  refine ⟨?_, ?_⟩
  · suffices h : ∃ y, A.val i = some y by
      obtain ⟨y, hy⟩ := h
      have hsh : Shows (iS E L m varg kw) i y := ⟨A, a1, by
        have := get_same (a := A) (i := i) (by rw [a2]; exact hi)
        unfold NArr.get at this
        rw [clip_eq_src] at this
        rw [this]; exact hy⟩
      have hs' : SuppliesM varg kw "s" sa "T" ta :=
        ⟨hs.len, hs.args.trans (List.Perm.swap _ _ _), by constructor <;> decide⟩
      have := C83_given_entropy_temperature_partial E S hU L m hnd hpr varg kw sa ta "T" hs' (by simp)
        sT sP i hi hq hn y hsh
      rw [← this]; exact hsh
    choose! g hg using hd
    have hM : mixSum (fun s => ((L.gas s).s (toKelvin S.T.name (entry ta i))).map (·.1)) (rowsAt m i) =
        some (weigh (fun s => (g s).1) m i) := mixSum_weigh (fun s hs => by rw [hg s hs]; rfl)
    have hPv : ∃ p, P.val i = some p := by
      unfold entropyT at hE
      obtain ⟨pe, q1, hE⟩ := exbind_inv hE
      obtain ⟨d, q2, hE⟩ := exbind_inv hE
      obtain ⟨sh, q3, hE⟩ := exbind_inv hE
      split at hE
      · cases hE
      · obtain ⟨-, -, hE⟩ := exbind_inv hE
        cases hE
        obtain ⟨w1, w2⟩ := propeval_same q1 hxs hi hx
        rw [hM] at w2
        dsimp only
        rw [zip_inv q2, get_same (a := pe) (by rw [w1]; exact hi), w2]
        exact ⟨_, rfl⟩
    obtain ⟨p, hPv⟩ := hPv
    unfold iS at a1
    rw [hst, exbind_ok] at a1
    obtain ⟨P', r1, a1⟩ := exbind_inv a1
    cases r1
    obtain ⟨X, r2, a1⟩ := exbind_inv a1
    obtain ⟨Y, r3, a1⟩ := exbind_inv a1
    obtain ⟨Z, r4, a1⟩ := exbind_inv a1
    rw [outS_ok hU] at a1
    cases a1
    obtain ⟨x1, x2⟩ := propeval_same r2 hxs hi hx
    obtain ⟨y1, y2⟩ := spMix_val hnd r3 p2 hi hPv
    rw [hM] at x2
    dsimp only
    rw [zip_inv r4, get_same (a := X) (by rw [x1]; exact hi), get_same (a := Y) (by rw [y1]; exact hi), x2, y2]
    exact ⟨_, rfl⟩
  · unfold iT
    rw [hst, exbind_ok, conv_ok (does_out_T hU)]
    refine ⟨_, rfl, ?_⟩
    have := get_same (a := x) (i := i) (by rw [hxs]; exact hi)
    unfold NArr.get at this
    rw [clip_eq_src] at this
    dsimp only
    rw [this, hx, Option.map_some]
    simp [from_to]

end PyroMat.Igt.Props
