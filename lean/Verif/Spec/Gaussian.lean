import Verif.Model.Gaussian
import Verif.Inst.Real
import Verif.Spec.Flow
import Mathlib.LinearAlgebra.Matrix.NonsingularInverse

/-!
# Specification of the linear-Gaussian theory script
-/

namespace DPFC.Spec
open Matrix
variable {ρ : Type} {d n : ℕ}

/-- Score at `x` of the normal distribution with mean `m` and covariance `C + 1e-6 I`. -/
noncomputable def normalScore (C : Matrix (Fin d) (Fin d) ℝ) (m x : Fin d → ℝ) : Fin d → ℝ :=
  -((C + (1/1000000 : ℝ) • (1 : Matrix (Fin d) (Fin d) ℝ))⁻¹ *ᵥ (x - m))

/-- Log density of that distribution, up to a constant. -/
noncomputable def logNormal (C : Matrix (Fin d) (Fin d) ℝ) (m x : Fin d → ℝ) : ℝ :=
  -(1/2) * ((x - m) ⬝ᵥ ((C + (1/1000000 : ℝ) • (1 : Matrix (Fin d) (Fin d) ℝ))⁻¹ *ᵥ (x - m)))

/-- As many stored means and matrices as time points, and the matrices have nonnegative quadratic forms (they need not be
symmetric). -/
structure Covariances (k : ℕ) (G : GaussModel d ℝ) : Prop where
  lm : G.mt.length = k
  lC : G.Ct.length = k
  lmb : G.mtb.length = k
  lCb : G.Ctb.length = k
  psd : ∀ C ∈ G.Ct, ∀ v : Fin d → ℝ, 0 ≤ v ⬝ᵥ (Matrix.of C *ᵥ v)
  psdb : ∀ C ∈ G.Ctb, ∀ v : Fin d → ℝ, 0 ≤ v ⬝ᵥ (Matrix.of C *ᵥ v)

/-- The control at time index `i`: `s s^T` times (score of the flow from the target at index `k-1-i` minus score of the
forward flow at `i`), with the transposes of the stored matrices. -/
def IsGaussControl (G : GaussModel d ℝ) (k i : ℕ) (x u : Fin d → ℝ) : Prop :=
  ∃ mq Cq mp Cp, G.mtb[k-1-i]? = some mq ∧ G.Ctb[k-1-i]? = some Cq ∧ G.mt[i]? = some mp ∧ G.Ct[i]? = some Cp ∧
    u = (Matrix.of G.s * (Matrix.of G.s)ᵀ) *ᵥ (normalScore (Matrix.of Cq)ᵀ mq x - normalScore (Matrix.of Cp)ᵀ mp x)

/-- Controlled Euler-Maruyama paths with drift `F x`, control of `G` and noise matrix `s`; `rs i` is the random state before
the noise of step `i -> i+1` is drawn. -/
def GaussSimulation (env : Env ρ ℝ) (F s : Matrix (Fin d) (Fin d) ℝ) (G : GaussModel d ℝ) (y1 : Fin d → ℝ) (k : ℕ)
    (X : ℕ → Fin d → Fin n → ℝ) (rs : ℕ → ρ) : Prop :=
  (X 0 = fun a _ => y1 a) ∧ ∀ i, i + 1 < k → ∀ j, ∃ u, IsGaussControl G k i (fun a => X i a j) u ∧
    (fun a => X (i+1) a j) = (fun a => X i a j) + (1/1000 : ℝ) • (F *ᵥ (fun a => X i a j) + u)
      + Real.sqrt (1/1000) • (s *ᵥ fun a => normals env d n (rs i) a j)

end DPFC.Spec
