import Verif.Spec.Score
import Mathlib.MeasureTheory.Integral.Bochner.Basic
import Mathlib.MeasureTheory.Constructions.Pi
import Mathlib.MeasureTheory.Measure.Lebesgue.Basic

/-!
# Specification: what the score estimate converges to
-/

namespace DPFC.Spec
open MeasureTheory

variable {d m : ℕ}

/-- A linear combination of the kernels of the inducing points. -/
noncomputable def comb (l : Fin d → ℝ) (Z : Fin m → Fin d → ℝ) (c : Fin m → ℝ) (x : Fin d → ℝ) : ℝ :=
  ∑ i, c i * gauss l x (Z i)

/-- The score-matching objective of a function `s` for the law `μ` in coordinate `j`: the expectation of
`s^2 + 2 ds/dx_j`. -/
noncomputable def matching (μ : Measure (Fin d → ℝ)) (j : Fin d) (s : (Fin d → ℝ) → ℝ) : ℝ :=
  ∫ x, (s x ^ 2 + 2 * pderiv s j x) ∂μ

/-- `c` are the coefficients of the only minimiser of the score-matching objective among the combinations of the kernels
of the inducing points. -/
def BestMatch (μ : Measure (Fin d → ℝ)) (l : Fin d → ℝ) (Z : Fin m → Fin d → ℝ) (j : Fin d) (c : Fin m → ℝ) : Prop :=
  ∀ c', c' ≠ c → matching μ j (comb l Z c) < matching μ j (comb l Z c')

/-- The law has the density `p`: positive, integrable, with an integrable partial derivative in coordinate `j`. -/
structure HasDensity (μ : Measure (Fin d → ℝ)) (p : (Fin d → ℝ) → ℝ) (j : Fin d) : Prop where
  pos : ∀ x, 0 < p x
  int : Integrable p
  diff : ∀ x, DifferentiableAt ℝ (fun s => p (Function.update x j s)) (x j)
  int' : Integrable (fun x => pderiv p j x)
  law : μ = volume.withDensity fun x => ENNReal.ofReal (p x)

end DPFC.Spec
