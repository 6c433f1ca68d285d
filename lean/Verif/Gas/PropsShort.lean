import Verif.Gas.PropsCalls
import Verif.Gas.Examples
import Mathlib.Analysis.SpecialFunctions.Log.Deriv

/-!
# Short-hand inverses, and the slopes the inverses use (C30)
-/

namespace PyroMat.Gas.Props

open PyroMat PyroMat.Units PyroMat.Gas PyroMat.Gas.Spec
open Filter Topology

theorem mT_any (E : Env) (G : Gas) {varg : List (Val ℝ)} {kw : Kw} {a b : String} {va vb : Val ℝ}
    (h : Supplies varg kw a va b vb) : mT E G [] [(a, va), (b, vb)] = mT E G varg kw := by
  have hc := supplies_count h
  have hn : (given varg kw).Nodup := by
    rw [← supplied_names varg kw h.len]
    have := (h.args.map (·.1)).nodup_iff.mpr (by simpa using h.ok.distinct)
    exact this
  have e1 : mTdefault E varg kw = kw := by
    unfold mTdefault
    rw [if_neg (by omega)]
  have e2 : mTdefault E [] [(a, va), (b, vb)] = [(a, va), (b, vb)] := by
    unfold mTdefault
    simp
  unfold mT
  rw [e1, e2, C29_positional E G varg kw h.len hn,
    C29_keyword_order E G [] (supplied varg kw) _ h.args (by rw [supplied_names varg kw h.len]; exact hn)]

/-- C30, short-hand inverses.  `T_s(s, p)`, `T_s(s, d=d)`, `T_h(h, p)` and `T_h(h, d=d)` are the
temperature that `T()` returns for those two properties, however they are written; so the theorems on
states given by entropy or enthalpy apply to them. -/
theorem C30_short_hand (E : Env) (G : Gas) (varg : List (Val ℝ)) (kw : Kw) (x y : Val ℝ)
    (z : Option (Val ℝ)) :
    (Supplies varg kw "s" x "p" y → mT_s E G x (some y) z = mT E G varg kw) ∧
    (Supplies varg kw "s" x "d" y → mT_s E G x none (some y) = mT E G varg kw) ∧
    (Supplies varg kw "h" x "p" y → mT_h E G x (some y) z = mT E G varg kw) ∧
    (Supplies varg kw "h" x "d" y → mT_h E G x none (some y) = mT E G varg kw) :=
  ⟨mT_any E G, mT_any E G, mT_any E G, mT_any E G⟩

/-- Near `T` the routine returns the values of `f`, and at `T` the derivative of `f` with it. -/
def Slope (r : ℝ → Option (ℝ × ℝ)) (T : ℝ) : Prop :=
  ∃ f f', (∀ᶠ x in 𝓝 T, (r x).map (·.1) = some (f x)) ∧ r T = some (f T, f') ∧ HasDerivAt f f' T

/-- C30, slopes.  Where the enthalpy, Gibbs energy and entropy come with their temperature
derivatives, so do the energy, the free energy and the entropy at constant density that are
solved for temperature. -/
theorem C30_slopes (G : Gas) (T : ℝ) (hT : 0 < T) (hp : 0 < G.pref) :
    (Slope G.h T → Slope G.e T) ∧ (Slope G.g T → Slope G.f T) ∧
    (Slope G.s T → ∀ d, 0 < d → Slope (G.sditer d) T) := by
  have lin : ∀ r : ℝ → Option (ℝ × ℝ), Slope r T →
      Slope (fun T => (r T).map (fun r => (r.1 - Ru * T, r.2 - Ru))) T := by
    rintro r ⟨f, f', h1, h2, h3⟩
    refine ⟨fun x => f x - Ru * x, f' - Ru, ?_, by simp [h2], ?_⟩
    · filter_upwards [h1] with x hx
      cases hr : r x with
      | none => rw [hr] at hx; simp at hx
      | some q => rw [hr] at hx; simp at hx; simp [hx]
    · have := h3.sub ((hasDerivAt_id T).const_mul Ru)
      exact this.congr_deriv (by simp)
  refine ⟨lin G.h, lin G.g, ?_⟩
  rintro ⟨f, f', h1, h2, h3⟩ d hd
  have hRu : (0:ℝ) < Ru := by norm_num [Ru, const_Ru, const_k, const_Na]
  refine ⟨fun x => f x - Ru * Real.log (d * (1000 * Ru) * x / G.pref), f' - Ru / T, ?_,
    by simp [Gas.sditer, h2], ?_⟩
  · filter_upwards [h1] with x hx
    unfold Gas.sditer
    cases hr : G.s x with
    | none => rw [hr] at hx; simp at hx
    | some q => rw [hr] at hx; simp at hx; simp [hx]
  · have hl : HasDerivAt (fun x : ℝ => d * (1000 * Ru) * x / G.pref) (d * (1000 * Ru) / G.pref) T := by
      simpa using ((hasDerivAt_id T).const_mul (d * (1000 * Ru))).div_const G.pref
    have := (hl.log (by positivity)).const_mul Ru
    refine h3.sub (this.congr_deriv ?_)
    field_simp

/-- A call that gives entropy and pressure. -/
example (s p : Val ℝ) : Supplies [] [("p", p), ("s", s)] "s" s "p" p :=
  ⟨by simp, List.Perm.swap _ _ _, ⟨by simp, by simp, by simp, by simp, by simp⟩⟩

/-- The enthalpy of the constant gas comes with its derivative. -/
example : Slope (ig constData).h 300 := by
  have hp : ∀ x : ℝ, 200 ≤ x → x ≤ 600 → (ig constData).h x
      = some (Sho.h ⟨30, 0, 0, 0, 0, 0, 200⟩ x, Sho.hT ⟨30, 0, 0, 0, 0, 0, 200⟩ x) := fun x h1 h2 =>
    const_piece x h1 h2 _ (fun c T => (Sho.h c T, Sho.hT c T))
  have hf : (fun x => Sho.h ⟨30, 0, 0, 0, 0, 0, 200⟩ x)
      = fun x => 30 * x + Sho.h ⟨30, 0, 0, 0, 0, 0, 200⟩ 0 := by
    funext x; simp only [Sho.h]; ring
  refine ⟨fun x => Sho.h ⟨30, 0, 0, 0, 0, 0, 200⟩ x, 30, ?_, ?_, ?_⟩
  · filter_upwards [Icc_mem_nhds (show (200:ℝ) < 300 by norm_num) (show (300:ℝ) < 600 by norm_num)] with x hx
    rw [hp x hx.1 hx.2]; rfl
  · rw [hp 300 (by norm_num) (by norm_num)]; norm_num [Sho.hT]
  · rw [hf]
    have := ((hasDerivAt_id (300:ℝ)).const_mul 30).add_const (Sho.h ⟨30, 0, 0, 0, 0, 0, 200⟩ 0)
    exact this.congr_deriv (by simp)

end PyroMat.Gas.Props
