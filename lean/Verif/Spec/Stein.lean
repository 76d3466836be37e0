import Verif.Spec.Score

/-!
# Specification for C112: the two parts of the fitted objective

Independent of the model of the code.
-/

namespace DPFC.Spec

/-- The combination `x ↦ ∑ b_m k(x, z_m)` of the kernels of the inducing points. -/
noncomputable def combo {m d : ℕ} (l : Fin d → ℝ) (Z : Fin m → Fin d → ℝ) (b : Fin m → ℝ) (x : Fin d → ℝ) : ℝ :=
  ∑ i, b i * gauss l x (Z i)

/-- The empirical score-matching functional of a function `f` in coordinate `j`:
`∑_n (f(x_n)^2/2 + ∂_j f(x_n))`. -/
noncomputable def fit {n d : ℕ} (X : Fin n → Fin d → ℝ) (j : Fin d) (f : (Fin d → ℝ) → ℝ) : ℝ :=
  ∑ s, (f (X s) ^ 2 / 2 + pderiv f j (X s))

/-- The regularised inner product of two combinations: `∑ a_m k(z_m, z_m') b_m' + 1e-3 ∑ a_m b_m`. -/
noncomputable def inner {m d : ℕ} (l : Fin d → ℝ) (Z : Fin m → Fin d → ℝ) (a b : Fin m → ℝ) : ℝ :=
  ∑ i, ∑ i', a i * gauss l (Z i) (Z i') * b i' + 1/1000 * ∑ i, a i * b i

end DPFC.Spec
