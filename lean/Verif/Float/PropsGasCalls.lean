import Verif.Float.GasCalls
import Verif.Float.PropsLaw
import Verif.Gas.PropsSettle

/-!
# C105: properties of ideal gases in floating point, from arrays of temperatures and pressures, densities or volumes
-/

set_option linter.unusedSimpArgs false

namespace PyroMat.Float

open PyroMat PyroMat.Units PyroMat.Units.Spec PyroMat.Units.Props PyroMat.Gas PyroMat.Gas.Spec PyroMat.Gas.Props
open PyroMat.Shipped

variable {ε : ℝ} {A : Arith}

/-- The keyword. -/
def Given.name : Given → String
  | .p => "p" | .d => "d" | .v => "v"

/-- The pressure in Pa that the argument stands for, at the temperature `T` (in K). -/
noncomputable def Given.pascal (g : Given) (a : SetupArgs ℝ) (S : Sys) (mw T x : ℝ) : ℝ :=
  match g with
  | .p => internal a S mw .pressure x
  | .d => internal a S mw .density x * (1000 * Ru * T)
  | .v => 1 / internal a S mw .volume x * (1000 * Ru * T)

theorem mapM_all {α β : Type} {f : α → Except Err β} {R : α → β → Prop} (h : ∀ a, ∃ b, f a = .ok b ∧ R a b) (l : List α) :
    ∃ k : α → β, l.mapM f = .ok (l.map k) ∧ ∀ a, f a = .ok (k a) ∧ R a (k a) := by
  choose k hk using h
  refine ⟨k, ?_, hk⟩
  induction l with
  | nil => rfl
  | cons x xs ih =>
    rw [List.mapM_cons, (hk x).1, ih]
    rfl

section
variable {E : Env} {S : Sys} (hU : Uses E S)
include hU

theorem volumeF_near (h0 : 0 ≤ ε) (h1 : ε < 1) (hA : Accurate ε A) {mw : ℝ} (hmw : mw ≠ 0) (v : ℝ) :
    ∃ x, volumeF A E (A.lit mw) v = .ok x ∧ Near ε 143 (1 / internal E.a S mw .volume v) x := by
  have tv : volumeT ∈ tables E.a := by simp [tables]
  have hm : Near ε 1 mw (A.lit mw) := near_of_within h0 h1 (hA.lit mw)
  have e1 := acts_scalar (acts_v hU none) v
  have e2 := acts_scalar (acts_m hU hmw (some (-1))) (v * powS (size volume S.v) none)
  rw [← exact_volume] at e1
  obtain ⟨y1, f1, n1⟩ := call_near h0 h1 hA tv E.c.str (near_refl h0 h1 0 v) _ _ _ _ e1
  obtain ⟨y2, f2, n2⟩ := matter_near h0 h1 hA E.a E.c.str n1 hm _ _ _ _ e2
  refine ⟨A.div 1 y2, by unfold volumeF; rw [f1, exOk, f2, exOk], ?_⟩
  have : internal E.a S mw .volume v = v * powS (size volume S.v) none * powS (msize E.a mw S.m) (some (-1)) := by
    rw [powS_neg_one]
    simp only [internal, powS]
    rw [div_eq_mul_inv]; ring
  rw [this]
  exact near_mono h0 h1 (by simp [times]) (near_divided h0 h1 hA (near_refl h0 h1 0 1) n2)

theorem pressF_near (h0 : 0 ≤ ε) (h1 : ε < 1) (hA : Accurate ε A) {mw : ℝ} (hmw : mw ≠ 0) (g : Given) (x : ℝ) :
    ∃ P, pressF A E (A.lit mw) g x = .ok P ∧ ∀ T, Near ε 149 (g.pascal E.a S mw T x) (P T) := by
  have nT : ∀ T, Near ε 5 (1000 * Ru * T) (A.mul (RF A) T) := fun T =>
    near_scaled h0 h1 hA (R_near h0 h1 hA) (near_refl h0 h1 0 T)
  cases g with
  | p =>
    obtain ⟨P, e, n⟩ := pressure_near hU h0 h1 hA mw x
    exact ⟨fun _ => P, by unfold pressF pascalF; rw [e]; rfl, fun T => near_mono h0 h1 (by norm_num) n⟩
  | d =>
    obtain ⟨d, e, n⟩ := densityF_near hU h0 h1 hA hmw (near_refl h0 h1 0 x)
    exact ⟨_, by unfold pressF; simp only [e]; rfl, fun T => near_mono h0 h1 (by norm_num) (near_scaled h0 h1 hA n (nT T))⟩
  | v =>
    obtain ⟨d, e, n⟩ := volumeF_near hU h0 h1 hA hmw x
    exact ⟨_, by unfold pressF; simp only [e]; rfl, fun T => near_mono h0 h1 (by norm_num) (near_scaled h0 h1 hA n (nT T))⟩

theorem pascal_pos {mw : ℝ} (hmw : 0 < mw) (g : Given) {T x : ℝ} (hT : 0 < T) (hx : 0 < x) :
    0 < g.pascal E.a S mw T x := by
  have hs : 0 < size (pressure E.a) S.p :=
    C04_factors_positive E.a hU.pos (pressure E.a) (by simp [allConvs]) (S.p, size (pressure E.a) S.p)
      (Units.lookup_mem (size_lookup hU hU.valid.p))
  have hv : 0 < size (volume : Conv ℝ) S.v :=
    C04_factors_positive E.a hU.pos volume (by simp [allConvs]) (S.v, _)
      (Units.lookup_mem (size_lookup hU hU.valid.v))
  have hm := Gas.Props.msize_pos hU hmw
  have R0 := Gas.Props.Ru_pos
  cases g <;> simp only [Given.pascal, internal] <;> positivity

/-- What the exact model returns for one temperature and one pressure, density or volume, by keyword. -/
theorem method_given {G : Gas} (hmw : G.mw ≠ 0) (g : Given) (t x : ℝ) (h1 : G.Tlo ≤ toKelvin S.T.name t)
    (h2 : toKelvin S.T.name t ≤ G.Thi) (q : Quantity) :
    ∃ D, method q E G [] [("T", .scalar t), (g.name, .scalar x)] = .ok [value E.a S G q (some (toKelvin S.T.name t))
      (some (g.pascal E.a S G.mw (toKelvin S.T.name t) x)) (some D)] := by
  have e3 : oob G (some (toKelvin S.T.name t)) = false := by
    simp only [oob, decide_eq_false_iff_not, not_or, not_lt, gt_iff_lt]
    exact ⟨h1, h2⟩
  cases g with
  | d => exact ⟨_, method_Td hU hmw t x h1 h2 q⟩
  | p =>
    have hs : Supplies [] [("T", .scalar t), ("p", .scalar x)] "T" (.scalar t) "p" (.scalar x) :=
      ⟨by simp, by simp [supplied], ⟨by simp, by simp, by simp, by simp, by simp⟩⟩
    have hst : argparse E G [] [("T", .scalar t), ("p", .scalar x)]
        = .ok { T := [some (toKelvin S.T.name t)], p := some [some (internal E.a S G.mw .pressure x)], d := none } := by
      rw [argparse_pair hU hmw hs]
      unfold pre
      have e1 : stdOf E S G.mw [("T", .scalar t), ("p", .scalar x)]
          = { T := some ⟨[toKelvin S.T.name t], false⟩, p := some ⟨[internal E.a S G.mw .pressure x], false⟩ } := rfl
      have e2 : tempOf G { T := some ⟨[toKelvin S.T.name t], false⟩, p := some ⟨[internal E.a S G.mw .pressure x], false⟩ }
          = .ok (some ⟨[some (toKelvin S.T.name t)], false, false⟩) := rfl
      simp only [e1, e2, exOk]
      unfold solve
      simp only [densityOf, broadcast, List.length_singleton, if_true, exOk]
      unfold rangeTest
      simp [e3]
    obtain ⟨xs, e1, e2, e3⟩ := method_rows hU hmw (by simp) hst (good_of_pair hU hmw hs hst) q
    refine ⟨internal E.a S G.mw .pressure x / (1000 * Ru * toKelvin S.T.name t), e1.trans ?_⟩
    have := e3 0 _ _ _ ⟨rfl, ⟨_, rfl, rfl⟩, ⟨_, rfl, rfl⟩⟩
    match xs, e2, this with
    | [y], _, h => simpa [nan2, Given.pascal] using h
  | v =>
    have hs : Supplies [] [("T", .scalar t), ("v", .scalar x)] "T" (.scalar t) "v" (.scalar x) :=
      ⟨by simp, by simp [supplied], ⟨by simp, by simp, by simp, by simp, by simp⟩⟩
    have hst : argparse E G [] [("T", .scalar t), ("v", .scalar x)]
        = .ok { T := [some (toKelvin S.T.name t)], p := none, d := some [some (1 / internal E.a S G.mw .volume x)] } := by
      rw [argparse_pair hU hmw hs]
      unfold pre
      have e1 : stdOf E S G.mw [("T", .scalar t), ("v", .scalar x)]
          = { T := some ⟨[toKelvin S.T.name t], false⟩, v := some ⟨[internal E.a S G.mw .volume x], false⟩ } := rfl
      have e2 : tempOf G { T := some ⟨[toKelvin S.T.name t], false⟩, v := some ⟨[internal E.a S G.mw .volume x], false⟩ }
          = .ok (some ⟨[some (toKelvin S.T.name t)], false, false⟩) := rfl
      simp only [e1, e2, exOk]
      unfold solve
      simp only [densityOf, broadcast, List.length_singleton, List.length_map, List.map_cons, List.map_nil, if_true, exOk]
      unfold rangeTest
      simp [e3]
    obtain ⟨xs, e1, e2, e3⟩ := method_rows hU hmw (by simp) hst (good_of_pair hU hmw hs hst) q
    refine ⟨1 / internal E.a S G.mw .volume x, e1.trans ?_⟩
    have := e3 0 _ _ _ ⟨rfl, ⟨_, rfl, rfl⟩, ⟨_, rfl, rfl⟩⟩
    match xs, e2, this with
    | [y], _, h => simpa [nan2, Given.pascal] using h

end

/-- What the limits of a shipped file are for a temperature `T'` near `T`. -/
theorem limits_near {E : Env} {S : Sys} (_hU : Uses E S) (h0 : 0 ≤ ε) (hA : Accurate ε A) {Tlim : List ℝ} (pos : ∀ L ∈ Tlim, 0 < L) {T T' : ℝ}
    (hlim : ∀ L ∈ Tlim, Clear ε A S T L) (aT : |T' - T| ≤ 4.1 * ε * (T + 300)) (kT : S.T = .K → T' = T) :
    ∀ L ∈ Tlim, (A.lit L = L ∨ ε * |L| < |T' - L|) ∧ (T' < A.lit L ↔ T < L) ∧ (A.lit L < T' ↔ L < T) ∧
      (L ≤ T → L ≤ T') ∧ (T ≤ L → T' ≤ L) := by
  intro L hL
  have c : A.lit L = L ∨ ε * |L| < |T' - L| := by
    rcases hlim L hL with ⟨-, h⟩ | h
    · exact Or.inl h
    · right
      rw [abs_of_pos (pos L hL)]
      have := abs_add_le (T' - L) (-(T' - T))
      rw [show T' - L + -(T' - T) = T - L by ring, abs_neg] at this
      linarith
  have side : (T < L → T' < L) ∧ (L < T → L < T') ∧ (L ≤ T → L ≤ T') ∧ (T ≤ L → T' ≤ L) := by
    rcases hlim L hL with ⟨h, -⟩ | h
    · rw [kT h]; exact ⟨id, id, id, id⟩
    · have q0 : 0 ≤ ε * L := mul_nonneg h0 (pos L hL).le
      obtain ⟨n1, n2⟩ := abs_le.mp aT
      have low : T ≤ L → T' < L := by
        intro hl
        rw [abs_of_nonpos (by linarith)] at h
        linarith
      have high : L ≤ T → L < T' := by
        intro hl
        rw [abs_of_nonneg (by linarith)] at h
        linarith
      exact ⟨fun h => low h.le, fun h => high h.le, fun h => (high h).le, fun h => (low h).le⟩
  obtain ⟨s1, s2, s3, s4⟩ := side
  obtain ⟨l1, l2⟩ := lit_lt hA c
  refine ⟨c, l1.trans ⟨fun h => ?_, s1⟩, l2.trans ⟨fun h => ?_, s2⟩, s3, s4⟩
  · by_contra hc
    exact absurd (s3 (not_lt.mp hc)) (not_le.mpr h)
  · by_contra hc
    exact absurd (s4 (not_lt.mp hc)) (not_le.mpr h)

/-- The limits of a shipped file. -/
theorem file_limits {f : File} {bd : ℕ × ℕ} (hb : check f bd = true) : (∀ L ∈ f.data.Tlim, 0 < L) ∧
    f.gas.Tlo ∈ f.data.Tlim ∧ f.gas.Thi ∈ f.data.Tlim ∧
    (∀ A : Arith, (f.data.Tlim.map A.lit).headD 0 = A.lit f.gas.Tlo ∧ (f.data.Tlim.map A.lit).getLastD 0 = A.lit f.gas.Thi) := by
  have hwf := wellFormed hb
  have hne : f.data.Tlim ≠ [] := by
    intro h
    have := hwf.rows
    simp [h] at this
  obtain ⟨d0, ds, hds⟩ := List.exists_cons_of_ne_nil hne
  refine ⟨?_, ?_, ?_, ?_⟩
  · intro L hL
    obtain ⟨d, hd, rfl⟩ := List.mem_map.mp hL
    exact (mK_val (walk_ok _ _ _ _ _ (check_walk hb) d hd)).2
  · rw [gas_Tlo, hds]; simp
  · rw [gas_Thi, hds, List.getLastD_cons]
    rcases List.eq_nil_or_concat ds with rfl | ⟨l, b, rfl⟩ <;> simp
  · intro A
    rw [gas_Tlo, gas_Thi, hds]
    exact ⟨rfl, by rw [List.map_cons, List.getLastD_cons, List.getLastD_cons, List.getLastD_map]⟩

/-- What a call returns, element by element. -/
theorem methodsF_eq {E : Env} {S : Sys} (hU : Uses E S) (h0 : 0 ≤ ε) (h1 : ε ≤ 1e-6) (hA : Accurate ε A) {f : File} {bd : ℕ × ℕ}
    (hb : check f bd = true) (q : Q) (g : Given) (ts xs : List ℝ)
    (hl : ts.length = xs.length ∨ ts.length = 1 ∨ xs.length = 1) (ht : ts ≠ []) (hx : xs ≠ []) :
    ∃ (K : ℝ → ℝ) (P : ℝ → ℝ → ℝ) (c : ℝ) (Ts : List ℝ) (Ps : List (ℝ → ℝ)),
      (∀ t, |K t - toKelvin S.T.name t| ≤ 4.1 * ε * (|toKelvin S.T.name t| + 300) ∧ (S.T = .K → K t = t)) ∧
      (∀ x T, Near ε 149 (g.pascal E.a S f.gas.mw T x) (P x T)) ∧
      Near ε 213 (inUnits E.a S f.gas.mw q.kind 1) c ∧
      Ts.length = max ts.length xs.length ∧ Ps.length = max ts.length xs.length ∧
      (∀ i < max ts.length xs.length, Ts[i]? = (nth ts i).map K ∧ Ps[i]? = (nth xs i).map P) ∧
      methodsF A E f.data (fileForms f) q g ts xs
        = if (∀ T ∈ Ts, T < A.lit f.gas.Tlo ∨ A.lit f.gas.Thi < T) then .error .param
          else .ok (List.zipWith (fun T P => open Classical in if T < A.lit f.gas.Tlo ∨ A.lit f.gas.Thi < T then none
            else (piecewise (f.data.Tlim.map A.lit) f.data.C (fun C T => inner A (fileForms f) q C T (P T)) T).map
              fun y => A.mul y c) Ts Ps) := by
  have hlt : ε < 1 := by linarith
  have hmw := gas_mw_pos hb
  obtain ⟨K, mK, hK⟩ := mapM_all (f := kelvinF A E) (fun t => kelvin_near hU h0 (h1.trans (by norm_num)) hA t) ts
  obtain ⟨P, mP, hP⟩ := mapM_all (f := pressF A E (A.lit f.gas.mw) g) (fun x => pressF_near hU h0 hlt hA hmw.ne' g x) xs
  obtain ⟨c, ec, nc⟩ := scaleF_near hU h0 hlt hA hmw.ne' q
  have hl' : (ts.map K).length = (xs.map P).length ∨ (ts.map K).length = 1 ∨ (xs.map P).length = 1 := by simpa using hl
  obtain ⟨⟨Ts, Ps⟩, eb, -, -, len⟩ := broadcast_some hl'
  obtain ⟨n1, n2⟩ := len (by simpa using ht) (by simpa using hx)
  simp only [List.length_map] at n1 n2
  obtain ⟨-, b1, b2, -⟩ := broadcast_ok eb
  refine ⟨K, P, c, Ts, Ps, fun t => (hK t).2, fun x T => (hP x).2 T, nc, n1, n2, ?_, ?_⟩
  · intro i hi
    rw [← n1] at hi
    exact ⟨(b1 i hi).trans (nth_map _ _ _), (b2 i hi).trans (nth_map _ _ _)⟩
  · obtain ⟨-, -, -, hlim⟩ := file_limits hb
    unfold methodsF
    rw [mK, exOk, ← gas_mw, mP, exOk, eb, exOk]
    simp only [(hlim A).1, (hlim A).2, ec, exOk, List.all_eq_true, decide_eq_true_eq]

namespace Props

/-- C105 for arrays and for densities and specific volumes.  Let every operation of the arithmetic be accurate to `ε`.
For every shipped ideal gas, in every unit system: when `cp`, `cv`, `h`, `e`, `s`, `g` or `f` of the gas is called with
an array of temperatures and an array of pressures, densities or specific volumes that can be stretched to one length,
then each element with a temperature between the limits of the gas and a positive second argument is the exact value at
a temperature that differs by the rounding of the conversion to kelvin (not at all if temperatures are in K), within
`400 ε` times the size of the terms that are added up, whatever the other elements are.  Limits of the data file
that the arithmetic cannot hold must not be within a rounding of that temperature. -/
theorem C105_calls_partial (h0 : 0 ≤ ε) (h1 : ε ≤ 1e-6) (hA : Accurate ε A) (f : File) (hf : f ∈ shipped) (E : Env)
    (S : Sys) (hU : Uses E S) (q : Q) (g : Given) (ts xs : List ℝ)
    (hl : ts.length = xs.length ∨ ts.length = 1 ∨ xs.length = 1) (i : ℕ) (hi : i < max ts.length xs.length) (t x : ℝ)
    (ht : nth ts i = some t) (hx : nth xs i = some x) (hpos : 0 < x)
    (hlo : f.gas.Tlo ≤ toKelvin S.T.name t) (hhi : toKelvin S.T.name t ≤ f.gas.Thi)
    (hlim : ∀ L ∈ f.data.Tlim, Clear ε A S (toKelvin S.T.name t) L) :
    ∃ t' y y' ys, |toKelvin S.T.name t' - toKelvin S.T.name t| ≤ 4.1 * ε * (toKelvin S.T.name t + 300) ∧
      (S.T = .K → t' = t) ∧
      method q.quantity E f.gas [] [("T", .scalar t'), (g.name, .scalar x)] = .ok [some y] ∧
      methodsF A E f.data (fileForms f) q g ts xs = .ok ys ∧ ys.length = max ts.length xs.length ∧
      ys[i]? = some (some y') ∧
      |y' - y| ≤ 400 * ε * inUnits E.a S f.gas.mw q.kind
        (weight q (toKelvin S.T.name t')
          (Real.log (g.pascal E.a S f.gas.mw (toKelvin S.T.name t') x / f.gas.pref))) := by
  have hlt : ε < 1 := by linarith
  obtain ⟨bd, hb⟩ := shipped_checked f hf
  have hmw := gas_mw_pos hb
  have hwf := wellFormed hb
  obtain ⟨pos, mlo, mhi, -⟩ := file_limits hb
  have ne1 : ts ≠ [] := by rintro rfl; simp [nth] at ht
  have ne2 : xs ≠ [] := by rintro rfl; simp [nth] at hx
  obtain ⟨K, P, c, Ts, Ps, hK, hP, nc, n1, n2, hel, eq⟩ := methodsF_eq hU h0 h1 hA hb q g ts xs hl ne1 ne2
  obtain ⟨aT, kT⟩ := hK t
  have t0 : 200 ≤ toKelvin S.T.name t := (lo_le hf hb).trans hlo
  rw [abs_of_nonneg (by linarith : 0 ≤ toKelvin S.T.name t)] at aT
  have lims := limits_near hU h0 hA pos hlim aT (fun h => by rw [kT h, h]; simp [toKelvin, Scale.name])
  obtain ⟨-, l1, -, lo', -⟩ := lims _ mlo
  obtain ⟨-, -, l2, -, hi'⟩ := lims _ mhi
  specialize lo' hlo
  specialize hi' hhi
  have isin : ¬ (K t < A.lit f.gas.Tlo ∨ A.lit f.gas.Thi < K t) := by
    rw [l1, l2]; push Not; exact ⟨hlo, hhi⟩
  obtain ⟨eT, eP⟩ := hel i hi
  rw [ht, Option.map_some] at eT
  rw [hx, Option.map_some] at eP
  rw [if_neg (fun h => isin (h _ (List.mem_of_getElem? eT)))] at eq
  have lo2 := lo'
  have hi2 := hi'
  rw [gas_Tlo] at lo2
  rw [gas_Thi] at hi2
  obtain ⟨j, lo, hi3, C, e1, e2, e3, e4, e5, pw⟩ := (C33_evaluation f.data hwf (K t)).1 lo2 hi2
  -- the row and its terms
  have e1' := e1
  have e2' := e2
  have e5' := e5
  simp only [File.data, List.getElem?_map, Option.map_eq_some_iff] at e1' e2' e5'
  obtain ⟨u0, a1, rfl⟩ := e1'
  obtain ⟨u1, a2, rfl⟩ := e2'
  obtain ⟨r, a3, rfl⟩ := e5'
  have hok := walk_ok _ _ _ _ _ (check_walk hb)
  have o1 := (walk_piece _ _ _ _ _ (check_walk hb) j u0 u1 r a1 a2 a3).1
  obtain ⟨s1, s2, s3⟩ := terms_spec f.cls o1 (hok _ (List.mem_of_getElem? a1)) (hok _ (List.mem_of_getElem? a2))
    (termss_get _ _ _ (List.all_eq_true.mp shipped_terms f hf) j u0 u1 r a1 a2 a3) (K t) e3 e4
  obtain ⟨r1, r2, -⟩ := s_size hf hb (K t) lo' hi'
  have hP0 : 0 < g.pascal E.a S f.gas.mw (K t) x := pascal_pos hU hmw g (by linarith) hpos
  have hpr : 0 < f.gas.pref := by linarith [(pref_bounds hf).1]
  have off := inner_off h0 hlt hA f.cls (pref := f.data.pref) (by
    show 0 < (fileForms f).pref.eval exact
    rw [file_pref]; exact hpr) r1 r2 s1 s2 s3 hP0 (by norm_num) (hP x (K t)) q
  have efor : forms f.cls f.data.pref = fileForms f := rfl
  rw [efor, file_pref] at off
  have oS := off_mul h0 hlt hA off (err_of_near nc)
  obtain ⟨D, em⟩ := method_given hU hmw.ne' g (fromKelvin S.T.name (K t)) x (by rw [to_from]; exact lo')
    (by rw [to_from]; exact hi') q.quantity
  refine ⟨fromKelvin S.T.name (K t), inUnits E.a S f.gas.mw q.kind (inner exact (fileForms f) q (coef r) (K t)
    (g.pascal E.a S f.gas.mw (K t) x)), A.mul (inner A (fileForms f) q (coef r) (K t) (P x (K t))) c, _, ?_, ?_, ?_, eq, ?_, ?_, ?_⟩
  · rw [to_from]; exact aT
  · intro h
    rw [h, kT h]; simp [fromKelvin, Scale.name]
  · rw [em, to_from, inner_value pw]
  · rw [List.length_zipWith, n1, n2, min_self]
  · rw [List.getElem?_zipWith, eT, eP]
    simp only [if_neg isin]
    rw [piecewise_lit _ _ hA (fun L hL => (lims L hL).1), pw]
    rfl
  · have hk : q.kind ≠ .temperature := by cases q <;> simp [Q.kind]
    rw [inUnits_mul E.a S _ hk] at oS
    have := err_abs h0 (by push_cast; linarith) (by linarith) oS
    refine this.trans ?_
    have hc : 0 < inUnits E.a S f.gas.mw q.kind 1 := by
      cases q
      all_goals first | exact entropy_pos hU hmw | exact energy_pos hU hmw
    rw [abs_of_pos hc, inUnits_mul E.a S _ hk, to_from]
    refine mul_le_mul_of_nonneg_right ?_ ?_
    · push_cast; linarith
    · rw [← inUnits_mul E.a S _ hk]
      exact mul_nonneg ((abs_nonneg _).trans off.1) hc.le

/-- C105, temperatures outside the limits.  With the same calls, a temperature outside the limits of the gas by more
than the roundings gives NaN in its place, and if all temperatures are outside, a parameter error. -/
theorem C105_outside (h0 : 0 ≤ ε) (h1 : ε ≤ 1e-6) (hA : Accurate ε A) (f : File) (hf : f ∈ shipped) (E : Env)
    (S : Sys) (hU : Uses E S) (q : Q) (g : Given) (ts xs : List ℝ)
    (hl : ts.length = xs.length ∨ ts.length = 1 ∨ xs.length = 1) (ht : ts ≠ []) (hx : xs ≠ []) :
    let Out := fun t => 0 ≤ toKelvin S.T.name t ∧ (toKelvin S.T.name t < f.gas.Tlo ∨ f.gas.Thi < toKelvin S.T.name t) ∧
      ∀ L ∈ f.data.Tlim, Clear ε A S (toKelvin S.T.name t) L
    (∀ ys, methodsF A E f.data (fileForms f) q g ts xs = .ok ys → ∀ (i : ℕ) (t : ℝ), i < max ts.length xs.length →
      nth ts i = some t → Out t → ys[i]? = some none) ∧
    ((∀ t ∈ ts, Out t) → methodsF A E f.data (fileForms f) q g ts xs = .error .param) := by
  intro Out
  obtain ⟨bd, hb⟩ := shipped_checked f hf
  obtain ⟨pos, mlo, mhi, -⟩ := file_limits hb
  obtain ⟨K, P, c, Ts, Ps, hK, hP, nc, n1, n2, hel, eq⟩ := methodsF_eq hU h0 h1 hA hb q g ts xs hl ht hx
  have key : ∀ t, Out t → (K t < A.lit f.gas.Tlo ∨ A.lit f.gas.Thi < K t) := by
    rintro t ⟨o1, o2, o3⟩
    obtain ⟨aT, kT⟩ := hK t
    rw [abs_of_nonneg o1] at aT
    have lims := limits_near hU h0 hA pos o3 aT (fun h => by rw [kT h, h]; simp [toKelvin, Scale.name])
    rw [(lims _ mlo).2.1, (lims _ mhi).2.2.1]
    exact o2
  constructor
  · intro ys hys i t hi hti ho
    obtain ⟨eT, eP⟩ := hel i hi
    rw [hti, Option.map_some] at eT
    have hP' : ∃ p, Ps[i]? = some p := ⟨_, List.getElem?_eq_getElem (by omega)⟩
    obtain ⟨p, ep⟩ := hP'
    rw [eq] at hys
    split at hys
    · cases hys
    · cases hys
      rw [List.getElem?_zipWith, eT, ep]
      simp only [if_pos (key t ho)]
  · intro hall
    rw [eq, if_pos]
    intro T hT
    obtain ⟨i, hi, rfl⟩ := List.getElem_of_mem hT
    obtain ⟨eT, -⟩ := hel i (by omega)
    rw [List.getElem?_eq_getElem hi] at eT
    cases hn : nth ts i with
    | none => rw [hn] at eT; cases eT
    | some t =>
      rw [hn, Option.map_some] at eT
      rw [Option.some.inj eT]
      refine key t (hall t ?_)
      match ts, hn with
      | [a], hn => simp [nth] at hn; simp [hn]
      | a :: b :: l, hn => exact List.mem_of_getElem? hn

end Props

end PyroMat.Float
