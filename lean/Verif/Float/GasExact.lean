import Verif.Float.Gas
import Verif.Gas.PropsThermo
import Verif.Shipped.Basic

/-!
# With exact arithmetic the rounded model is the model
-/

set_option linter.unusedSimpArgs false

namespace PyroMat.Float

open PyroMat PyroMat.Units PyroMat.Units.Spec PyroMat.Units.Props PyroMat.Gas PyroMat.Gas.Spec PyroMat.Gas.Props

theorem exact_Ru : RuE.eval exact = Ru := rfl

theorem exact_sho (C : Coef) (T : ℝ) : (Sho.cp C T).eval exact = Gas.Sho.cp C T ∧ (Sho.h C T).eval exact = Gas.Sho.h C T ∧
    (Sho.s C T).eval exact = Gas.Sho.s C T ∧ (Sho.g C T).eval exact = Gas.Sho.g C T := ⟨rfl, rfl, rfl, rfl⟩

theorem exact_nasa (C : Coef) (T : ℝ) : (Nasa.cp C T).eval exact = Gas.Nasa.cp C T ∧
    (Nasa.h C T).eval exact = Gas.Nasa.h C T ∧ (Nasa.s C T).eval exact = Gas.Nasa.s C T ∧
    (Nasa.g C T).eval exact = Gas.Nasa.g C T := by
  refine ⟨rfl, ?_, ?_, ?_⟩
  · simp only [Nasa.h, Gas.Nasa.h, Gas.Nasa.hLoop, Gas.Nasa.hStep, List.foldl, Sm.eval, cf, nm, Ex.eval, exact, exact_Ru]
    norm_num
    left
    rfl
  · simp only [Nasa.s, Gas.Nasa.s, Gas.Nasa.sLoop, Gas.Nasa.sStep, List.foldl, Sm.eval, cf, nm, Ex.eval, exact, exact_Ru]
    norm_num
    left
    rfl
  · simp only [Nasa.g, Gas.Nasa.g, List.foldl, Sm.eval, cf, nm, Ex.eval, exact, exact_Ru, neg_one_mul]
    rfl

end PyroMat.Float
