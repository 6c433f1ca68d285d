import Verif.Igt.PropsIdent
import Verif.Gas.Examples

/-!
# The hypotheses of the theorems on dynamic mixtures are met

3 kmol of gas 7 (200-600 K) and 5 kmol of gas 8 (300-1000 K), both of heat capacity 30 kJ/kmol/K,
in kelvin, Pa, m3, kJ and kmol.
-/

set_option linter.unusedSimpArgs false

namespace PyroMat.Igt.Props

open PyroMat PyroMat.Gas PyroMat.Igt PyroMat.Igt.Spec PyroMat.Config.Defaults
open PyroMat.Units PyroMat.Units.Spec PyroMat.Units.Props PyroMat.Gas.Spec PyroMat.Gas.Props

/-- The configuration. -/
noncomputable def envK : Env := mixEnv "kg" "kmol" "kmol"

/-- Its units. -/
def sysK : Sys := ⟨.K, "Pa", "m3", "kJ", "kmol"⟩

theorem envK_uses : Uses envK sysK :=
  (mixEnv_works (um := "kg") (un := "kmol") (uq := "kmol") rfl rfl (Or.inr rfl)).uses

theorem kelvin_id (t : ℝ) : toKelvin sysK.T.name t = t := by
  exact toK_K t

/-- Two temperatures. -/
noncomputable def twoT : Arr := ⟨[2], fun i => if i = [0] then 300 else 500⟩

theorem call_ok : SuppliesM [twoT, num 100000] [] "T" twoT "p" (num 100000) where
  len := by simp
  args := List.Perm.refl _
  ok := by constructor <;> decide

theorem lib2_lo (s : Nat) : (lib2.gas s).Tlo ≤ 300 := by
  by_cases h : s = 7 <;> simp [lib2, h, ig, constData]; norm_num

theorem lib2_hi (s : Nat) : 600 ≤ (lib2.gas s).Thi := by
  by_cases h : s = 7 <;> simp [lib2, h, ig, constData]; norm_num

theorem lib2_valid {t : ℝ} (h1 : 300 ≤ t) (h2 : t ≤ 600) : ValidAt sysK lib2 mA t := by
  intro s _
  rw [kelvin_id]
  exact ⟨(lib2_lo s).trans h1, h2.trans (lib2_hi s)⟩

theorem twoT_in : InLimits sysK lib2 mA twoT := by
  intro j _
  have : 300 ≤ twoT.val j ∧ twoT.val j ≤ 600 := by
    unfold twoT; dsimp only; split <;> norm_num
  rw [kelvin_id]
  exact ⟨⟨7, by simp [mA], (lib2_lo 7).trans this.1⟩, ⟨7, by simp [mA], this.2.trans (lib2_hi 7)⟩⟩

/-- Entropy, Gibbs and Helmholtz energy of this mixture at two temperatures raise `IndexError`. -/
example : HasShape (iH envK lib2 mA [twoT, num 100000] []) [2] ∧
    iS envK lib2 mA [twoT, num 100000] [] = .error .index := by
  obtain ⟨h1, h2, -⟩ := C81_shape_defect envK sysK envK_uses lib2 mA (by simp [mA]) (by simp [lib2]) rfl
    _ _ _ _ call_ok 2 (le_refl _) rfl (Or.inl rfl) twoT_in
  exact ⟨h1, h2⟩

/-- Gas 8. -/
def data8 : Data := { constData with Tlim := [300, 1000], mw := 2 }

theorem data8_wf : WellFormed data8 := by constructor <;> norm_num [data8, constData]

theorem piece8 (T : ℝ) (h1 : 300 ≤ T) (h2 : T ≤ 1000) (α : Type) (f : Coef → ℝ → α) :
    piecewise data8.Tlim data8.C f T = some (f ⟨30, 0, 0, 0, 0, 0, 200⟩ T) := by
  obtain ⟨i, lo, hi, c, -, hb, -, -, hc, he⟩ := (C33_evaluation data8 data8_wf T).1 h1 h2
  have : c = ⟨30, 0, 0, 0, 0, 0, 200⟩ := by
    match i, hb, hc with
    | 0, _, hc => simpa [data8, constData] using hc.symm
    | n + 1, hb, _ => simp [data8, constData] at hb
  rw [he α f, this]

theorem lib2_h (s : Nat) {t : ℝ} (h1 : 300 ≤ t) (h2 : t ≤ 600) : (lib2.gas s).h t = some (30 * t, 30) := by
  have e : (Sho.h ⟨30, 0, 0, 0, 0, 0, 200⟩ t, Sho.hT ⟨30, 0, 0, 0, 0, 0, 200⟩ t) = (30 * t, (30 : ℝ)) := by
    simp only [Sho.h, Sho.hT, Prod.mk.injEq]; constructor <;> ring
  by_cases h : s = 7
  · have : lib2.gas s = ig constData := by simp [lib2, h]
    rw [this, ← e]
    exact const_piece t (by linarith) h2 _ (fun c T => (Sho.h c T, Sho.hT c T))
  · have : lib2.gas s = ig data8 := by simp [lib2, h, data8]
    rw [this, ← e]
    exact piece8 t h1 (by linarith) _ (fun c T => (Sho.h c T, Sho.hT c T))

theorem own_h (s : Nat) {t : ℝ} (p : ℝ) (h1 : 300 ≤ t) (h2 : t ≤ 600) :
    mH envK (lib2.gas s) [.scalar t, .scalar p] [] = .ok [some (30 * t)] := by
  have hm : 0 < (lib2.gas s).mw := lib2_weighs ⟨[s], ⟨[1, 1], fun _ => 1⟩⟩ s (by simp)
  have := method_Tp envK_uses hm.ne' t p
    (by rw [kelvin_id]; exact (lib2_lo s).trans h1) (by rw [kelvin_id]; exact h2.trans (lib2_hi s)) .h
  refine this.trans ?_
  simp only [value, Gas.hI, Option.bind_some, kelvin_id, lib2_h s h1 h2, Option.map_some, inUnits]
  have e1 : msize envK.a (lib2.gas s).mw sysK.m = 1 := rfl
  have e2 : size (energy : Conv ℝ) sysK.e = 1000 := rfl
  rw [e1, e2]
  congr 3
  field_simp

theorem holds_mA (i : List Nat) (hi : i.length = 1) :
    holds envK sysK lib2 mA 7 i = 3 ∧ holds envK sysK lib2 mA 8 i = 5 := by
  match i, hi with
  | [k], _ =>
    have e : ∀ s, msize envK.a (lib2.gas s).mw sysK.m = 1 := fun _ => rfl
    simp [holds, e, amount, mA, place, src, Mix.shape, Finset.sum_range_succ]

/-- 3 kmol and 5 kmol of 30 kJ/kmol/K at 300 K and 500 K: 72000 kJ and 120000 kJ. -/
example : Shows (iH envK lib2 mA [twoT, num 100000] []) [1] 120000 ∧
    Shows (iT envK lib2 mA [twoT, num 100000] []) [1] 500 ∧
    Shows (iP envK lib2 mA [twoT, num 100000] []) [1] 100000 := by
  have e : entry twoT [1] = 500 := by simp [entry, twoT, src]
  have e' : entry (num 100000) [1] = 100000 := by simp [entry, num]
  obtain ⟨h1, h2, h3, -⟩ := C81_answers envK sysK envK_uses lib2 mA (lib2_weighs _) (by simp [mA])
    _ _ _ _ call_ok [2] (by simp) (by simp) (Or.inr (Or.inr (.cons (Or.inr rfl) .nil))) (Or.inl rfl)
    (Or.inr (Or.inl rfl)) (by simp [mA, Mix.shape]) (Or.inl rfl) twoT_in [1] (.cons (by norm_num) .nil)
    (by rw [e]; exact lib2_valid (by norm_num) (by norm_num))
  rw [e] at h1
  rw [e'] at h2
  have := h3 (fun _ => 30 * 500) (by
    intro s _
    rw [e]
    exact own_h s _ (by norm_num) (by norm_num))
  refine ⟨?_, h1, h2⟩
  have hc : mA.c.toFinset = {7, 8} := by simp [mA]
  rw [hc, Finset.sum_pair (by norm_num), (holds_mA [1] rfl).1, (holds_mA [1] rfl).2] at this
  convert this using 1
  norm_num

theorem lib2_sg (s : Nat) {t : ℝ} (h1 : 300 ≤ t) (h2 : t ≤ 600) :
    (∃ a, (lib2.gas s).s t = some a) ∧ ∃ a, (lib2.gas s).g t = some a := by
  by_cases h : s = 7
  · have : lib2.gas s = ig constData := by simp [lib2, h]
    rw [this]
    exact ⟨⟨_, const_piece t (by linarith) h2 _ (fun c T => (Sho.s c T, Sho.sT c T))⟩,
      ⟨_, const_piece t (by linarith) h2 _ (fun c T => (Sho.g c T, Sho.gT c T))⟩⟩
  · have : lib2.gas s = ig data8 := by simp [lib2, h, data8]
    rw [this]
    exact ⟨⟨_, piece8 t h1 (by linarith) _ (fun c T => (Sho.s c T, Sho.sT c T))⟩, ⟨_, piece8 t h1 (by linarith) _ (fun c T => (Sho.g c T, Sho.gT c T))⟩⟩

theorem own_sg (s : Nat) {t : ℝ} (p : ℝ) (h1 : 300 ≤ t) (h2 : t ≤ 600) :
    (∃ y, mS envK (lib2.gas s) [.scalar t, .scalar p] [] = .ok [some y]) ∧
    ∃ y, mG envK (lib2.gas s) [.scalar t, .scalar p] [] = .ok [some y] := by
  have hm : 0 < (lib2.gas s).mw := lib2_weighs ⟨[s], ⟨[1, 1], fun _ => 1⟩⟩ s (by simp)
  have k := method_Tp envK_uses hm.ne' t p
    (by rw [kelvin_id]; exact (lib2_lo s).trans h1) (by rw [kelvin_id]; exact h2.trans (lib2_hi s))
  obtain ⟨⟨a, ha⟩, b, hb⟩ := lib2_sg s h1 h2
  constructor
  · have := k .s
    simp only [value, Gas.sI, Option.bind_some, kelvin_id, ha, Option.map_some] at this
    exact ⟨_, this⟩
  · have := k .g
    simp only [value, Gas.gI, Option.bind_some, kelvin_id, hb, Option.map_some] at this
    exact ⟨_, this⟩

theorem call_one : SuppliesM [num 400, num 100000] [] "T" (num 400) "p" (num 100000) where
  len := by simp
  args := List.Perm.refl _
  ok := by constructor <;> decide

/-- At one temperature, entropy, Gibbs and Helmholtz energy are answered, and the entropy is the sum
of the entropies of the two gases at 3/8 and 5/8 of the pressure. -/
example : (∃ x, Shows (iG envK lib2 mA [num 400, num 100000] []) [0] x) ∧
    (∃ x, Shows (iF envK lib2 mA [num 400, num 100000] []) [0] x) ∧
    ∃ x y7 y8, Shows (iS envK lib2 mA [num 400, num 100000] []) [0] x ∧
      mS envK (lib2.gas 7) [.scalar 400, .scalar (100000 * (3 / 8))] [] = .ok [some y7] ∧
      mS envK (lib2.gas 8) [.scalar 400, .scalar (100000 * (5 / 8))] [] = .ok [some y8] ∧
      x = 3 * y7 + 5 * y8 := by
  have hn : mA.c.Nodup := by simp [mA]
  have hi : Within [0] mA.shape := .cons (by norm_num) .nil
  obtain ⟨a1, a2, a3, a4, ⟨x, a5⟩, a6, a7⟩ := C81_answers_entropy_partial envK sysK envK_uses lib2 mA
    (lib2_weighs _) hn (by simp [mA]) (by simp [mA, Mix.shape]) (by simp [lib2]) _ _ _ _ call_one
    (by simp [mA, Mix.shape]) (Or.inl rfl) (Or.inl rfl)
    (by
      intro j _
      rw [kelvin_id]
      have : (num 400).val j = 400 := rfl
      rw [this]
      exact ⟨⟨7, by simp [mA], (lib2_lo 7).trans (by norm_num)⟩,
        ⟨7, by simp [mA], le_trans (by norm_num) (lib2_hi 7)⟩⟩)
    [0] hi
    (lib2_valid (by simp [entry, num]; norm_num) (by simp [entry, num]; norm_num))
    (fun s _ => (own_sg s _ (by simp [entry, num]; norm_num) (by simp [entry, num]; norm_num)).1)
    (fun s _ => (own_sg s _ (by simp [entry, num]; norm_num) (by simp [entry, num]; norm_num)).2)
  have e1 : entry (num 400) [0] = 400 := rfl
  have e2 : entry (num 100000) [0] = 100000 := rfl
  rw [e1] at a3
  rw [e2] at a4
  obtain ⟨⟨y7, h7⟩, -⟩ := own_sg 7 (t := 400) (100000 * (3 / 8)) (by norm_num) (by norm_num)
  obtain ⟨⟨y8, h8⟩, -⟩ := own_sg 8 (t := 400) (100000 * (5 / 8)) (by norm_num) (by norm_num)
  refine ⟨a6, a7, x, y7, y8, a5, h7, h8, ?_⟩
  have hc : mA.c.toFinset = {7, 8} := by simp [mA]
  have am7 : amount mA 7 [0] = 3 := by simp [amount, mA, Finset.sum_range_succ]
  have am8 : amount mA 8 [0] = 5 := by simp [amount, mA, Finset.sum_range_succ]
  have hk : kmols mA [0] = 8 := by
    unfold kmols
    rw [hc, Finset.sum_pair (by norm_num), place_within hi, am7, am8]; norm_num
  have := C81_entropy_partial envK sysK envK_uses lib2 mA (lib2_weighs _) hn _ _ [0] hi
    (by
      intro s hs
      have : s = 7 ∨ s = 8 := by simpa [mA] using hs
      rcases this with rfl | rfl
      · rw [am7]; norm_num
      · rw [am8]; norm_num)
    x 400 100000 (fun s => if s = 7 then y7 else y8) a1 a2 a5 a3 a4
    (lib2_valid (by norm_num) (by norm_num))
    (by
      intro s hs _
      have : s = 7 ∨ s = 8 := by simpa [mA] using hs
      unfold molFrac
      rw [hk, place_within hi]
      rcases this with rfl | rfl
      · rw [am7]; simpa using h7
      · rw [am8]; simpa using h8)
  rw [hc, Finset.sum_pair (by norm_num), (holds_mA [0] rfl).1, (holds_mA [0] rfl).2] at this
  simpa using this

theorem constData_wf' : WellFormed constData := by constructor <;> norm_num [constData]

theorem lib2_coherent (s : Nat) : Coherent (lib2.gas s) := by
  by_cases h : s = 7
  · have : lib2.gas s = ig constData := by simp [lib2, h]
    rw [this]; exact coherent_ig _ constData_wf'
  · have : lib2.gas s = ig data8 := by simp [lib2, h, data8]
    rw [this]; exact coherent_ig _ data8_wf

theorem mA_amounts {i : List Nat} (hi : i.length = 1) :
    amount mA 7 (place mA i) = 3 ∧ amount mA 8 (place mA i) = 5 ∧ kmols mA i = 8 := by
  match i, hi with
  | [k], _ =>
    have hc : mA.c.toFinset = {7, 8} := by simp [mA]
    have a7 : amount mA 7 (place mA [k]) = 3 := by
      simp [amount, mA, place, src, Mix.shape, Finset.sum_range_succ]
    have a8 : amount mA 8 (place mA [k]) = 5 := by
      simp [amount, mA, place, src, Mix.shape, Finset.sum_range_succ]
    refine ⟨a7, a8, ?_⟩
    unfold kmols
    rw [hc, Finset.sum_pair (by norm_num), a7, a8]
    norm_num

theorem mA_nonneg {i : List Nat} (hi : i.length = 1) : ∀ s ∈ mA.c, 0 ≤ amount mA s (place mA i) := by
  intro s hs
  have : s = 7 ∨ s = 8 := by simpa [mA] using hs
  obtain ⟨a7, a8, -⟩ := mA_amounts hi
  rcases this with rfl | rfl
  · rw [a7]; norm_num
  · rw [a8]; norm_num

/-- 8 kmol at 300 K and 500 K: at the second position the energy is the enthalpy less `8 R · 500`. -/
example : ∃ R cp cv gam h e, Shows (iR envK lib2 mA) [1] R ∧
    Shows (iCp envK lib2 mA [twoT, num 100000] []) [1] cp ∧
    Shows (iCv envK lib2 mA [twoT, num 100000] []) [1] cv ∧
    Shows (iGam envK lib2 mA [twoT, num 100000] []) [1] gam ∧
    Shows (iH envK lib2 mA [twoT, num 100000] []) [1] h ∧
    Shows (iE envK lib2 mA [twoT, num 100000] []) [1] e ∧
    cp - cv = 8 * R ∧ (cv ≠ 0 → gam = cp / cv) ∧ e = h - 8 * R * 500 := by
  have e : entry twoT [1] = 500 := by simp [entry, twoT, src]
  obtain ⟨R, cp, cv, gam, h, e1, x1, x2, x3, x4, x5, x6, i1, i2, i3⟩ :=
    C82_answers envK sysK envK_uses lib2 mA (lib2_weighs _) (by simp [mA])
    (fun s _ => lib2_coherent s) (by simp [lib2])
    _ _ _ _ call_ok [2] (by simp) (by simp) (Or.inr (Or.inr (.cons (Or.inr rfl) .nil))) (Or.inl rfl)
    (Or.inr (Or.inl rfl)) (by simp [mA, Mix.shape]) (Or.inl rfl) twoT_in [1] (.cons (by norm_num) .nil)
    (by rw [e]; exact lib2_valid (by norm_num) (by norm_num)) (mA_nonneg rfl)
    (by rw [(mA_amounts rfl).2.2]; norm_num)
  have hc : mA.c.toFinset = {7, 8} := by simp [mA]
  have hsum : ∑ s ∈ mA.c.toFinset, holds envK sysK lib2 mA s [1] = 8 := by
    rw [hc, Finset.sum_pair (by norm_num), (holds_mA [1] rfl).1, (holds_mA [1] rfl).2]; norm_num
  have ha : absolute sysK (500 : ℝ) = 500 := by
    unfold absolute
    rw [kelvin_id]
    have : size (Units.temperature : Conv ℝ) sysK.T.name = 1.8 := rfl
    rw [this]; norm_num
  rw [hsum] at i1 i3
  rw [e, ha] at i3
  exact ⟨R, cp, cv, gam, h, e1, x1, x2, x3, x4, x5, x6, i1, i2, i3⟩

theorem in400 : InLimits sysK lib2 mA (num 400) := by
  intro j _
  rw [kelvin_id]
  have : (num 400).val j = 400 := rfl
  rw [this]
  exact ⟨⟨7, by simp [mA], (lib2_lo 7).trans (by norm_num)⟩,
    ⟨7, by simp [mA], le_trans (by norm_num) (lib2_hi 7)⟩⟩

/-- At 400 K the Gibbs energy is `h - 400 s` and the Helmholtz energy `e - 400 s`. -/
example : ∃ h e s g f, Shows (iH envK lib2 mA [num 400, num 100000] []) [0] h ∧
    Shows (iE envK lib2 mA [num 400, num 100000] []) [0] e ∧
    Shows (iS envK lib2 mA [num 400, num 100000] []) [0] s ∧
    Shows (iG envK lib2 mA [num 400, num 100000] []) [0] g ∧
    Shows (iF envK lib2 mA [num 400, num 100000] []) [0] f ∧
    g = h - 400 * s ∧ f = e - 400 * s := by
  have hn : mA.c.Nodup := by simp [mA]
  have hi : Within [0] mA.shape := .cons (by norm_num) .nil
  have h1 : ∀ n ∈ mA.shape, n ≠ 0 := by simp [mA, Mix.shape]
  have hmn : mA.shape ≠ [] := by simp [mA, Mix.shape]
  have hvv : ValidAt sysK lib2 mA (entry (num 400) [0]) :=
    lib2_valid (by simp [entry, num]; norm_num) (by simp [entry, num]; norm_num)
  obtain ⟨a1, a2, a3, a4, ⟨s, a5⟩, ⟨g, a6⟩, f, a7⟩ := C81_answers_entropy_partial envK sysK envK_uses
    lib2 mA (lib2_weighs _) hn (by simp [mA]) hmn (by simp [lib2]) _ _ _ _ call_one
    h1 (Or.inl rfl) (Or.inl rfl) in400 [0] hi hvv
    (fun s _ => (own_sg s _ (by simp [entry, num]; norm_num) (by simp [entry, num]; norm_num)).1)
    (fun s _ => (own_sg s _ (by simp [entry, num]; norm_num) (by simp [entry, num]; norm_num)).2)
  obtain ⟨R, cp, cv, gam, h, e, x1, x2, x3, x4, x5, x6, -⟩ :=
    C82_answers envK sysK envK_uses lib2 mA (lib2_weighs _) (by simp [mA])
    (fun s _ => lib2_coherent s) (by simp [lib2])
    _ _ _ _ call_one mA.shape hmn h1 (Or.inl rfl) (Or.inl rfl)
    (Or.inr (Or.inl rfl)) hmn (Or.inr (Or.inr rfl)) in400 [0] hi hvv (mA_nonneg rfl)
    (by rw [(mA_amounts rfl).2.2]; norm_num)
  obtain ⟨r, hr, -, -, -, -, -, ⟨AH, ah, sh⟩, ⟨AE, ae, se⟩, -⟩ :=
    C84_answered envK sysK envK_uses lib2 mA (by simp [mA])
    _ _ _ _ call_one mA.shape hmn h1 (Or.inl rfl) (Or.inl rfl)
    (Or.inr (Or.inl rfl)) hmn in400
  obtain rfl := hr (Or.inr (Or.inr rfl))
  have e1 : entry (num 400) [0] = 400 := rfl
  rw [e1] at a3 hvv
  have ha : absolute sysK (400 : ℝ) = 400 := by
    unfold absolute
    rw [kelvin_id]
    have : size (Units.temperature : Conv ℝ) sysK.T.name = 1.8 := rfl
    rw [this]; norm_num
  have := C82_free_energies_partial envK sysK envK_uses lib2 mA hn (fun s _ => lib2_coherent s) _ _ [0] hi
    400 _ h e s g f a1 a2 a3 a4 hvv x5 x6 ⟨AH, ah, by rw [sh]; exact hi⟩ ⟨AE, ae, by rw [se]; exact hi⟩
    a5 a6 a7
  rw [ha] at this
  exact ⟨h, e, s, g, f, x5, x6, a5, a6, a7, this⟩

end PyroMat.Igt.Props
