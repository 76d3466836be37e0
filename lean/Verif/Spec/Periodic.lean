import Verif.Spec.Score
import Mathlib.Analysis.SpecialFunctions.Trigonometric.Basic

/-!
# Score estimates for an arbitrary kernel, and the periodic kernel

Mathematical definitions over the reals, independent of the model of the code.
-/

namespace DPFC.Spec

variable {n m d : ℕ}

/-- The periodic kernel with lengthscale `l k` in coordinate `k` (period `2π` in every coordinate). -/
noncomputable def periodic (l : Fin d → ℝ) (x y : Fin d → ℝ) : ℝ :=
  Real.exp (-2 * ∑ k, Real.sin ((x k - y k) / 2) ^ 2 / l k ^ 2)

/-- Kernel matrix of the kernel `κ` between two point sets. -/
def kernMat (κ : (Fin d → ℝ) → (Fin d → ℝ) → ℝ) (X : Fin n → Fin d → ℝ) (Z : Fin m → Fin d → ℝ) :
    Matrix (Fin n) (Fin m) ℝ := Matrix.of fun i j => κ (X i) (Z j)

/-- Jittered Gram matrix of the inducing points. -/
noncomputable def kernGram (κ : (Fin d → ℝ) → (Fin d → ℝ) → ℝ) (Z : Fin m → Fin d → ℝ) :
    Matrix (Fin m) (Fin m) ℝ := kernMat κ Z Z + (1/1000 : ℝ) • (1 : Matrix (Fin m) (Fin m) ℝ)

/-- The matrix of the linear system solved by the estimator. -/
noncomputable def kernSys (κ : (Fin d → ℝ) → (Fin d → ℝ) → ℝ) (C : ℝ) (X : Fin n → Fin d → ℝ)
    (Z : Fin m → Fin d → ℝ) : Matrix (Fin m) (Fin m) ℝ :=
  (kernMat κ X Z).transpose * kernMat κ X Z + (C + 1/1000) • kernGram κ Z

/-- Summed derivatives of the kernel, per inducing point. -/
noncomputable def kernGradSum (κ : (Fin d → ℝ) → (Fin d → ℝ) → ℝ) (X : Fin n → Fin d → ℝ)
    (Z : Fin m → Fin d → ℝ) (j : Fin d) : Fin m → ℝ :=
  fun i => ∑ s, pderiv (fun x => κ x (Z i)) j (X s)

/-- The score estimate in coordinate `j` at `x` with kernel `κ`. For `κ = gauss l` this is `score`. -/
noncomputable def kernScore (κ : (Fin d → ℝ) → (Fin d → ℝ) → ℝ) (C : ℝ) (X : Fin n → Fin d → ℝ)
    (Z : Fin m → Fin d → ℝ) (j : Fin d) (x : Fin d → ℝ) : ℝ :=
  ∑ i, -((kernSys κ C X Z)⁻¹.mulVec (kernGradSum κ X Z j)) i * κ x (Z i)

/-- Move every coordinate of every point by its own integer multiple of `2π`. -/
noncomputable def wind (p : Fin n → Fin d → ℤ) (X : Fin n → Fin d → ℝ) : Fin n → Fin d → ℝ :=
  fun i k => X i k + p i k * (2 * Real.pi)

/-- No sample shares a coordinate `j` with an inducing point. -/
def Apart (X : Fin n → Fin d → ℝ) (Z : Fin m → Fin d → ℝ) (j : Fin d) : Prop :=
  ∀ i s, X i j ≠ Z s j

end DPFC.Spec
