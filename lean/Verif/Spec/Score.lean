import Mathlib.Analysis.SpecialFunctions.Exp
import Mathlib.Analysis.Calculus.Deriv.Basic
import Mathlib.LinearAlgebra.Matrix.NonsingularInverse

/-!
# Specification of the regularised kernel score estimate

Mathematical definitions over the reals, independent of the model of the code.
-/

namespace DPFC.Spec

/-- The Gaussian kernel with lengthscale `l k` in coordinate `k`. -/
noncomputable def gauss {d : ℕ} (l : Fin d → ℝ) (x y : Fin d → ℝ) : ℝ :=
  Real.exp (-∑ k, (x k - y k) ^ 2 / (2 * l k ^ 2))

/-- Partial derivative of a function of `x` in coordinate `j`. -/
noncomputable def pderiv {d : ℕ} (f : (Fin d → ℝ) → ℝ) (j : Fin d) (x : Fin d → ℝ) : ℝ :=
  deriv (fun s => f (Function.update x j s)) (x j)

/-- Kernel matrix between two point sets (rows are points). -/
noncomputable def kmat {n m d : ℕ} (l : Fin d → ℝ) (X : Fin n → Fin d → ℝ) (Z : Fin m → Fin d → ℝ) :
    Matrix (Fin n) (Fin m) ℝ := Matrix.of fun i j => gauss l (X i) (Z j)

/-- The jittered Gram matrix `K_zz + 1e-3 I` of the inducing points. -/
noncomputable def gramReg {m d : ℕ} (l : Fin d → ℝ) (Z : Fin m → Fin d → ℝ) :
    Matrix (Fin m) (Fin m) ℝ := kmat l Z Z + (1/1000 : ℝ) • (1 : Matrix (Fin m) (Fin m) ℝ)

/-- The matrix of the linear system solved by the estimator:
`K_zx K_xz + (C + 1e-3) (K_zz + 1e-3 I)`. -/
noncomputable def sysMat {n m d : ℕ} (C : ℝ) (l : Fin d → ℝ) (X : Fin n → Fin d → ℝ)
    (Z : Fin m → Fin d → ℝ) : Matrix (Fin m) (Fin m) ℝ :=
  (kmat l X Z).transpose * kmat l X Z + (C + 1/1000) • gramReg l Z

/-- Right hand side: for each inducing point the derivative of its kernel in coordinate `j`,
summed over the samples. -/
noncomputable def gradSum {n m d : ℕ} (l : Fin d → ℝ) (X : Fin n → Fin d → ℝ)
    (Z : Fin m → Fin d → ℝ) (j : Fin d) : Fin m → ℝ :=
  fun i => ∑ s, pderiv (fun x => gauss l x (Z i)) j (X s)

/-- The coefficients of the estimate in the kernels of the inducing points. -/
noncomputable def coef {n m d : ℕ} (C : ℝ) (l : Fin d → ℝ) (X : Fin n → Fin d → ℝ)
    (Z : Fin m → Fin d → ℝ) (j : Fin d) : Fin m → ℝ :=
  -((sysMat C l X Z)⁻¹.mulVec (gradSum l X Z j))

/-- The score estimate in coordinate `j` at the point `x`, from samples `X` and inducing points
`Z`. -/
noncomputable def score {n m d : ℕ} (C : ℝ) (l : Fin d → ℝ) (X : Fin n → Fin d → ℝ)
    (Z : Fin m → Fin d → ℝ) (j : Fin d) (x : Fin d → ℝ) : ℝ :=
  ∑ i, coef C l X Z j i * gauss l x (Z i)

end DPFC.Spec
