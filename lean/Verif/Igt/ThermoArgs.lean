import Verif.Igt.ThermoLemmas
import Verif.Gas.StateLemmas

/-!
# Dynamic mixtures: arguments of the property methods (C84)
-/

set_option linter.unusedSectionVars false
set_option linter.unusedSimpArgs false

namespace PyroMat.Igt.Props

open PyroMat PyroMat.Gas PyroMat.Igt PyroMat.Igt.Spec PyroMat.Config.Defaults
open PyroMat.Units PyroMat.Units.Spec PyroMat.Units.Props PyroMat.Gas.Spec PyroMat.Gas.Props

variable {σ : Type} [DecidableEq σ]

/-! ## The argument rules depend on names only -/

/-- The same keywords with dummy values. -/
def names0 (kw : KwM) : Kw := kw.map (fun q => (q.1, Val.scalar 0))

theorem names0_map (kw : KwM) : (names0 kw).map (·.1) = kw.map (·.1) := by
  simp [names0, Function.comp_def]

theorem hasM_iff (kw : KwM) (k : String) : kw.has k = true ↔ k ∈ kw.map (·.1) :=
  lookup_isSome_iff kw k

theorem hasM_false_iff (kw : KwM) (k : String) : kw.has k = false ↔ k ∉ kw.map (·.1) := by
  rw [← hasM_iff]; simp

theorem has_names0 (kw : KwM) (k : String) : (names0 kw).has k = kw.has k := by
  rw [Bool.eq_iff_iff, has_iff, hasM_iff, names0_map]

theorem rulesM_eq (kw : KwM) : rulesM kw = checkRules (names0 kw) := by
  have h1 : (names0 kw).length = kw.length := by simp [names0]
  have h2 : (names0 kw).any (fun q => !legal.contains q.1) = kw.any (fun q => !legal.contains q.1) := by
    unfold names0
    rw [List.any_map]
    rfl
  unfold rulesM checkRules
  simp only [has_names0, h1, h2]

theorem rulesM_admissible (kw : KwM) (hn : (kw.map (·.1)).Nodup) :
    rulesM kw = .ok () ↔ Admissible (kw.map (·.1)) := by
  rw [rulesM_eq, checkRules_admissible _ (by rw [names0_map]; exact hn), names0_map]

theorem rulesM_cases (kw : KwM) : rulesM kw = .ok () ∨ rulesM kw = .error .param := by
  rw [rulesM_eq]; exact checkRules_cases _

theorem bindPosM_names (varg : List Arr) (kw : KwM) :
    (bindPosM varg kw).map names0 = bindPos (varg.map (fun _ => Val.scalar 0)) (names0 kw) := by
  match varg with
  | [] => rfl
  | [T] =>
    simp only [bindPosM, bindPos, List.map_cons, List.map_nil, has_names0]
    split <;> rfl
  | [T, p] =>
    simp only [bindPosM, bindPos, List.map_cons, List.map_nil, has_names0]
    split
    · rfl
    · split <;> rfl
  | _ :: _ :: _ :: _ => rfl

theorem given_names0 (varg : List Arr) (kw : KwM) :
    given (varg.map (fun _ => Val.scalar 0)) (names0 kw) = givenM varg kw := by
  unfold given givenM
  rw [List.length_map, names0_map]

theorem bindPosM_ok {varg : List Arr} {kw kw' : KwM} (h : bindPosM varg kw = .ok kw') :
    varg.length ≤ 2 ∧ (kw'.map (·.1)).Perm (givenM varg kw) ∧
    ((kw.map (·.1)).Nodup → (kw'.map (·.1)).Nodup) := by
  have := bindPosM_names varg kw
  rw [h] at this
  obtain ⟨h1, h2, h3⟩ := bindPos_ok this.symm
  rw [given_names0] at h2
  simp only [names0_map, List.length_map] at h1 h2 h3
  exact ⟨h1, h2, h3⟩

theorem bindPosM_error {varg : List Arr} {kw : KwM} {e : Err} (h : bindPosM varg kw = .error e) :
    e = .param ∧ (¬ varg.length ≤ 2 ∨ ¬ (givenM varg kw).Nodup) := by
  have := bindPosM_names varg kw
  rw [h] at this
  obtain ⟨h1, h2⟩ := bindPos_error this.symm
  rw [given_names0, List.length_map] at h2
  exact ⟨h1, h2⟩

/-! ## Defaults -/

theorem scalarOf_ret {r : Except Err (Res ℝ)} {x : ℝ} (h : retOf r = .ok (.scalar x)) :
    scalarOf r = .ok x := by
  unfold retOf at h
  cases r with
  | error e => cases h
  | ok r =>
    simp only [Except.map, Except.ok.injEq] at h
    unfold scalarOf
    rw [exbind_ok, h]

section
variable {E : Env} {S : Sys} (hU : Uses E S)
include hU

theorem defaults_eq : ∃ (s : Scale) (u : String), E.c.str "def_T_unit" = .ok s.name ∧
    E.c.str "def_p_unit" = .ok u ∧ (pressure E.a).contains u = true ∧
    scalarOf (defT E.c) = .ok (fromKelvin S.T.name (toKelvin s.name E.c.defT)) ∧
    scalarOf (defp E.a E.c) =
      .ok (E.c.defp * size (pressure E.a) u / size (pressure E.a) S.p) := by
  obtain ⟨s, hs, hT⟩ := defT_eq hU
  obtain ⟨u, hu, hc, hp⟩ := defp_eq hU
  exact ⟨s, u, hs, hu, hc, scalarOf_ret hT, scalarOf_ret hp⟩

theorem defaultsM_spec (kw : KwM) :
    ∃ kw', defaultsM E kw = .ok kw' ∧
      (kw.length ≥ 2 → kw' = kw) ∧
      (kw.length = 0 → kw'.map (·.1) = ["p", "T"]) ∧
      (∀ q, kw = [q] → kw'.map (·.1) = if q.1 ≠ "T" then ["T", q.1] else ["p", q.1]) := by
  obtain ⟨s, u, -, -, -, hT, hp⟩ := defaults_eq hU
  match kw with
  | [] => exact ⟨_, by simp only [defaultsM, hT, hp, exbind_ok]; rfl, by simp, by simp, by simp⟩
  | [q] =>
    by_cases hq : q.1 ≠ "T"
    · refine ⟨_, by simp [defaultsM, hT, hq, exbind_ok]; rfl, by simp, by simp, ?_⟩
      intro q' hq'; simp at hq'; subst hq'; simp [hq]
    · refine ⟨_, by simp [defaultsM, hp, hq, exbind_ok]; rfl, by simp, by simp, ?_⟩
      intro q' hq'; simp at hq'; subst hq'; simp [hq]
  | a :: b :: l => exact ⟨_, rfl, by simp, by simp, by simp⟩

end

/-! ## Limits -/

section
variable {E : Env} {S : Sys} (hU : Uses E S)
include hU

theorem toKelvin_mono {x y : ℝ} (h : x ≤ y) : toKelvin S.T.name x ≤ toKelvin S.T.name y := by
  obtain ⟨c, hc⟩ := toKelvin_affine S.T
  have hs : 0 < size (Units.temperature : Conv ℝ) S.T.name :=
    C04_factors_positive E.a hU.pos _ (by simp [allConvs]) _
      (lookup_mem (size_lookup hU (tcontains hU)))
  rw [hc, hc]
  have := mul_le_mul_of_nonneg_right h (show 0 ≤ size (Units.temperature : Conv ℝ) S.T.name / 1.8 by positivity)
  linarith

theorem does_in_T : Does (fun v => temperatureScale E.c.str v none (some "K") false)
    (toKelvin S.T.name) := Does.of_acts (acts_T hU)

theorem does_in_p : Does (fun v => (pressure E.a).call E.c.str v none (some "Pa") none false)
    (· * size (pressure E.a) S.p) := Does.of_acts (acts_p hU)

/-- The limits: the hull of the ranges of the constituents, in kelvin. -/
theorem lims_eq (L : Lib σ) (m : Mix σ) (hne : m.c ≠ []) :
    ∃ lo hi, limsM E L m = .ok (lo, hi) ∧
      (∀ s ∈ m.c, lo ≤ (L.gas s).Tlo ∧ (L.gas s).Thi ≤ hi) ∧
      (∃ s ∈ m.c, lo = (L.gas s).Tlo) ∧ (∃ s ∈ m.c, hi = (L.gas s).Thi) := by
  obtain ⟨l, h, e, h1, ⟨a, ha, h2⟩, ⟨b, hb, h3⟩⟩ := tlim_hull hU L m hne
  refine ⟨toKelvin S.T.name l, toKelvin S.T.name h, ?_, ?_, ⟨a, ha, by rw [h2, to_from]⟩,
    ⟨b, hb, by rw [h3, to_from]⟩⟩
  · unfold limsM
    rw [e, exbind_ok]
    dsimp only
    rw [does_in_T hU, exbind_ok, does_in_T hU, exbind_ok]
  · intro s hs
    obtain ⟨k1, k2⟩ := h1 s hs
    have := toKelvin_mono hU k1
    have := toKelvin_mono hU k2
    rw [to_from] at *
    constructor <;> assumption

end

/-! ## Order and position -/

theorem convertM_perm {E : Env} {L : Lib σ} {m : Mix σ} {lo hi : ℝ} {kw kw' : KwM} (hp : kw.Perm kw')
    (hn : (kw.map (·.1)).Nodup) : convertM E L m lo hi kw = convertM E L m lo hi kw' := by
  unfold convertM argM argE
  simp only [lookup_perm hp hn]

theorem has_perm {kw kw' : KwM} (hp : kw.Perm kw') (hn : (kw.map (·.1)).Nodup) (k : String) :
    kw.has k = kw'.has k := by
  unfold KwM.has; rw [lookup_perm hp hn]

/-- What follows the binding of positional arguments. -/
noncomputable def afterM (E : Env) (L : Lib σ) (m : Mix σ) (lim : ℝ × ℝ) (kw : KwM) :
    Except Err MixState :=
  convertM E L m lim.1 lim.2 kw >>= fun k =>
    solveM L m lim.1 lim.2 (kw.has "d") k >>= rangeM lim.1 lim.2

theorem argparseM_eq (E : Env) (L : Lib σ) (m : Mix σ) (varg : List Arr) (kw : KwM) :
    argparseM E L m varg kw = (limsM E L m >>= fun lim => bindPosM varg kw >>= fun kw =>
      defaultsM E kw >>= fun kw => rulesM kw >>= fun _ => afterM E L m lim kw) := rfl

theorem tail_perm {E : Env} {L : Lib σ} {m : Mix σ} {lim : ℝ × ℝ} {kw kw' : KwM} (hp : kw.Perm kw')
    (hn : (kw.map (·.1)).Nodup) :
    (defaultsM E kw >>= fun kw => rulesM kw >>= fun _ => afterM E L m lim kw) =
      (defaultsM E kw' >>= fun kw => rulesM kw >>= fun _ => afterM E L m lim kw) := by
  match kw, kw', hp, hn with
  | [], kw', hp, _ => rw [List.nil_perm.mp hp]
  | [q], kw', hp, _ => rw [List.singleton_perm.mp hp]
  | a :: b :: l, kw', hp, hn =>
    have hlen := hp.length_eq
    match kw', hp, hlen with
    | [], _, hlen => simp at hlen
    | [_], _, hlen => simp at hlen
    | a' :: b' :: l', hp, hlen =>
      simp only [defaultsM, exbind_ok]
      have hc : rulesM (a :: b :: l) = rulesM (a' :: b' :: l') := by
        unfold rulesM
        simp only [has_perm hp hn, hlen]
        have : (a :: b :: l).any (fun q => !legal.contains q.1)
            = (a' :: b' :: l').any (fun q => !legal.contains q.1) := by
          rw [Bool.eq_iff_iff, List.any_eq_true, List.any_eq_true]
          constructor
          · rintro ⟨x, hx, h⟩; exact ⟨x, hp.mem_iff.mp hx, h⟩
          · rintro ⟨x, hx, h⟩; exact ⟨x, hp.mem_iff.mpr hx, h⟩
        rw [this]
      rw [hc]
      unfold afterM
      rw [convertM_perm hp hn, has_perm hp hn]

theorem suppliedM_names (varg : List Arr) (kw : KwM) (h : varg.length ≤ 2) :
    (suppliedM varg kw).map (·.1) = givenM varg kw := by
  unfold suppliedM givenM
  rw [List.map_append]
  congr 1
  match varg, h with
  | [], _ => rfl
  | [_], _ => rfl
  | [_, _], _ => rfl

/-- **C84.** `f(T, p)` means `f(T=T, p=p)`, and the order in which keywords are written does not
matter: calls that supply the same properties are the same call. -/
theorem C84_positional (E : Env) (L : Lib σ) (m : Mix σ) (varg : List Arr) (kw kw' : KwM)
    (hl : varg.length ≤ 2) (hn : (givenM varg kw).Nodup) (hp : (suppliedM varg kw).Perm kw') :
    argparseM E L m varg kw = argparseM E L m [] kw' := by
  have hn' : ((suppliedM varg kw).map (·.1)).Nodup := by rw [suppliedM_names _ _ hl]; exact hn
  have step : ∃ kw1, bindPosM varg kw = .ok kw1 ∧ kw1.Perm (suppliedM varg kw) := by
    match varg, hl, hn with
    | [], _, _ => exact ⟨kw, rfl, List.Perm.refl _⟩
    | [T], _, hn =>
      have hT : kw.has "T" = false := by
        rw [hasM_false_iff]; exact (List.nodup_cons.mp hn).1
      exact ⟨("T", T) :: kw, by simp [bindPosM, hT], List.Perm.refl _⟩
    | [T, p], _, hn =>
      have h1 : "T" ∉ "p" :: kw.map (·.1) := (List.nodup_cons.mp hn).1
      have h2 : "p" ∉ kw.map (·.1) := (List.nodup_cons.mp (List.nodup_cons.mp hn).2).1
      have hT : kw.has "T" = false := by
        rw [hasM_false_iff]; exact fun h => h1 (List.mem_cons_of_mem _ h)
      have hp : kw.has "p" = false := by rw [hasM_false_iff]; exact h2
      exact ⟨("p", p) :: ("T", T) :: kw, by simp [bindPosM, hT, hp], List.Perm.swap _ _ _⟩
  obtain ⟨kw1, e1, e2⟩ := step
  rw [argparseM_eq, argparseM_eq, e1]
  simp only [bindPosM, exbind_ok]
  have hn1 : (kw1.map (·.1)).Nodup := (e2.map (·.1)).nodup_iff.mpr hn'
  simp only [tail_perm (e2.trans hp) hn1]

theorem suppliesM_symm {varg : List Arr} {kw : KwM} {a b : String} {va vb : Arr}
    (h : SuppliesM varg kw a va b vb) : SuppliesM varg kw b vb a va :=
  ⟨h.len, h.args.trans (List.Perm.swap _ _ _), (admissible_perm (List.Perm.swap _ _ _)).mpr h.ok⟩

theorem suppliesM_nodup {varg : List Arr} {kw : KwM} {a b : String} {va vb : Arr}
    (h : SuppliesM varg kw a va b vb) : (givenM varg kw).Nodup := by
  have hperm : (givenM varg kw).Perm [a, b] := by
    rw [← suppliedM_names _ _ h.len]; exact h.args.map _
  exact hperm.nodup_iff.mpr h.ok.distinct

/-- A call with an allowed pair. -/
theorem argparseM_pair {E : Env} {L : Lib σ} {m : Mix σ} {varg : List Arr} {kw : KwM} {a b : String}
    {va vb : Arr} (h : SuppliesM varg kw a va b vb) :
    argparseM E L m varg kw = (limsM E L m >>= fun lim => afterM E L m lim [(a, va), (b, vb)]) := by
  rw [C84_positional E L m varg kw _ h.len (suppliesM_nodup h) h.args, argparseM_eq]
  have hc : rulesM [(a, va), (b, vb)] = .ok () := (rulesM_admissible [(a, va), (b, vb)] h.ok.distinct).mpr h.ok
  simp only [bindPosM, exbind_ok, defaultsM, hc]

/-- **C84.** Rejection.  A call whose arguments break the documented rule - more than two positional
arguments, a property given twice, more than two properties, an unknown name, two of T, e, h, or
both d and v - raises `PMParamError`, whatever the values and units. -/
theorem C84_rejects (E : Env) (S : Sys) (hU : Uses E S) (L : Lib σ) (m : Mix σ) (hne : m.c ≠ [])
    (varg : List Arr) (kw : KwM) (hkw : (kw.map (·.1)).Nodup)
    (h : ¬ (varg.length ≤ 2 ∧ Admissible (givenM varg kw))) :
    argparseM E L m varg kw = .error .param := by
  obtain ⟨lo, hi, hlim, -⟩ := lims_eq hU L m hne
  rw [argparseM_eq, hlim, exbind_ok]
  cases hb : bindPosM varg kw with
  | error e => rw [exbind_err, (bindPosM_error hb).1]
  | ok kw1 =>
    obtain ⟨h1, h2, h3⟩ := bindPosM_ok hb
    have hna : ¬ Admissible (kw1.map (·.1)) := by
      rw [admissible_perm h2]
      exact fun ha => h ⟨h1, ha⟩
    obtain ⟨kw2, e1, e2, e3, e4⟩ := defaultsM_spec hU kw1
    rw [exbind_ok, e1, exbind_ok]
    have hbad : rulesM kw2 ≠ .ok () := by
      match kw1, hna, e2, e3, e4, h3 with
      | [], hna, _, _, _, _ =>
        exact absurd ⟨by simp, by simp, by simp, by simp, by simp⟩ hna
      | [q], hna, _, _, e4, _ =>
        have hk := e4 q rfl
        intro hok
        have hnd : (kw2.map (·.1)).Nodup := by
          rw [hk]
          split
          · rename_i hq; simpa using Ne.symm hq
          · rename_i hq
            have : q.1 = "T" := by simpa using hq
            rw [this]; decide
        rw [rulesM_admissible _ hnd, hk] at hok
        apply hna
        have hq : q.1 ∈ ["T", "p", "d", "v", "e", "h", "s"] := by
          apply hok.known
          split <;> simp
        refine ⟨by simp, by simp, ?_, ?_, ?_⟩
        · intro n hn; simp at hn; subst hn; exact hq
        · intro a ha b hb _ _
          simp at ha hb; rw [ha, hb]
        · rintro ⟨ha, hb⟩; simp at ha hb; rw [← ha] at hb; exact absurd hb (by decide)
      | a :: b :: l, hna, e2, _, _, h3 =>
        rw [e2 (by simp)]
        intro hok
        rw [rulesM_admissible _ (h3 hkw)] at hok
        exact hna hok
    rcases rulesM_cases kw2 with hc | hc
    · exact absurd hc hbad
    · rw [hc, exbind_err]

/-- **C84.** A missing property is the configured default: with nothing given the default
temperature and pressure, with only a temperature the default pressure, with only another property
the default temperature, each converted from the unit in which the default is stored to the working
unit. -/
theorem C84_defaults (E : Env) (S : Sys) (hU : Uses E S) (L : Lib σ) (m : Mix σ) :
    ∃ (s : Scale) (u : String), E.c.str "def_T_unit" = .ok s.name ∧ E.c.str "def_p_unit" = .ok u ∧
      (pressure E.a).contains u = true ∧
      let T0 := num (fromKelvin S.T.name (toKelvin s.name E.c.defT))
      let p0 := num (E.c.defp * size (pressure E.a) u / size (pressure E.a) S.p)
      argparseM E L m [] [] = argparseM E L m [T0, p0] [] ∧
      (∀ v, argparseM E L m [v] [] = argparseM E L m [v, p0] []) ∧
      (∀ v, argparseM E L m [] [("T", v)] = argparseM E L m [v, p0] []) ∧
      (∀ n v, n ≠ "T" → argparseM E L m [] [(n, v)] = argparseM E L m [T0] [(n, v)]) := by
  obtain ⟨s, u, hs, hu, hc, hT, hp⟩ := defaults_eq hU
  refine ⟨s, u, hs, hu, hc, ?_, ?_, ?_, ?_⟩
  · simp only [argparseM_eq]
    simp [bindPosM, defaultsM, hT, hp, exbind_ok, KwM.has]
  · intro v
    simp only [argparseM_eq]
    simp [bindPosM, defaultsM, hT, hp, exbind_ok, KwM.has]
  · intro v
    simp only [argparseM_eq]
    simp [bindPosM, defaultsM, hT, hp, exbind_ok, KwM.has]
  · intro n v hn
    have hn' : ("T" == n) = false := by simpa using hn.symm
    simp only [argparseM_eq]
    simp [bindPosM, defaultsM, hT, hp, exbind_ok, KwM.has, hn, hn', List.lookup_cons]

/-- **C84 disagreement.** A single energy or enthalpy follows the documented rule (one property, the
other defaulted) but is always refused, because the default added is a temperature
(`igtools.py:671-680`). -/
theorem C84_single_energy_defect (E : Env) (S : Sys) (hU : Uses E S) (L : Lib σ) (m : Mix σ)
    (hne : m.c ≠ []) (k : String) (hk : k = "e" ∨ k = "h") (v : Arr) :
    Admissible (givenM [] [(k, v)]) ∧ argparseM E L m [] [(k, v)] = .error .param := by
  constructor
  · rcases hk with rfl | rfl <;>
    exact ⟨by simp [givenM], by simp [givenM], by simp [givenM], by simp [givenM], by simp [givenM]⟩
  · obtain ⟨s, u, -, -, -, h⟩ := C84_defaults E S hU L m
    dsimp only at h
    rw [h.2.2.2 k v (by rcases hk with rfl | rfl <;> decide)]
    refine C84_rejects E S hU L m hne _ _ (by simp) ?_
    rintro ⟨-, ha⟩
    have := ha.one_of_Teh "T" (by simp [givenM]) k (by simp [givenM]) (by simp)
      (by rcases hk with rfl | rfl <;> simp)
    rcases hk with rfl | rfl <;> exact absurd this (by decide)

end PyroMat.Igt.Props
