import Verif.Mp.Helm
import Verif.Mp.Spec

/-!
# Vocabulary for the Helmholtz and saturation properties
-/

namespace PyroMat.Mp.Spec

open PyroMat PyroMat.Mp

/-- The documented saturation fits. -/
noncomputable def satAt : Nat → List Group1 → ℝ → ℝ
  | 0, gs, t => poly1At gs t
  | 1, gs, t => poly1At gs (1 - t)
  | 2, gs, t => Real.exp (poly1At gs (1 - t))
  | _, gs, t => Real.exp (1 / t * poly1At gs (1 - t))

/-- The documented ideal-gas part:
`log dd + logt log tt + tlogt tt log tt + p(tt) + sum of c log(1 - exp(-theta tt))`. -/
noncomputable def aoVal (g : AOgroup) (t d : ℝ) : ℝ :=
  Real.log d + g.logt.getD 0 * Real.log t + g.tlogt.getD 0 * t * Real.log t +
    poly1At (g.coef0.getD []) t +
    (g.coef1.map (fun r => r.2 * Real.log (1 - Real.exp (-r.1 * t)))).sum

/-- A Gaussian term: `c dd^d tt^t exp(-a (dd-ep)^2 - b (tt-gam)^2)`. -/
noncomputable def gaussVal (r : Row1) (t d : ℝ) : ℝ :=
  r.c * d ^ r.d * t ^ r.t * Real.exp (-r.a * (d - r.ep) ^ 2 - r.b * (t - r.gam) ^ 2)

/-- The distance function of a non-analytic term:
`[(1-tt) + A |dd-1|^(1/m)]^2 + B |dd-1|^(2a)`. -/
noncomputable def deltaVal (r : Row2) (t d : ℝ) : ℝ :=
  ((1 - t) + r.A * |d - 1| ^ (1 / r.m)) ^ 2 + r.B * |d - 1| ^ (2 * r.a)

/-- A non-analytic term: `c dd Delta^b exp(-C (dd-1)^2 - D (tt-1)^2)`. -/
noncomputable def naVal (r : Row2) (t d : ℝ) : ℝ :=
  r.c * d * deltaVal r t d ^ r.b * Real.exp (-r.C * (d - 1) ^ 2 - r.D * (t - 1) ^ 2)

/-- The polynomials, the k-th multiplied by `exp(-dd^k)`, counting from `k`. -/
noncomputable def expsVal (t d : ℝ) : List (List Group2) → Nat → ℝ
  | [], _ => 0
  | gs :: rest, k => Real.exp (-d ^ k) * poly2At gs t d + expsVal t d rest (k + 1)

/-- The documented residual part: the first polynomial, the polynomials times `exp(-dd^k)`, the
Gaussian terms and the non-analytic terms. -/
noncomputable def arVal (g : ARgroup) (t d : ℝ) : ℝ :=
  poly2At (g.coef0.headD []) t d + expsVal t d g.coef0.tail 1 +
    (g.coef1.map (fun r => gaussVal r t d)).sum + (g.coef2.map (fun r => naVal r t d)).sum

end PyroMat.Mp.Spec
