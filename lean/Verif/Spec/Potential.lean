import Mathlib.Analysis.Calculus.Deriv.Basic
import Mathlib.Analysis.SpecialFunctions.Pow.Real

/-!
# Potentials

Reference notions for C100: the potential of the planar system and noise-free Euler steps.
-/

namespace DPFC.Spec

/-- `(1 - x)^2 + b (y - x^2)^2` -/
def bananaPotential (b : ℝ) (p : Fin 2 → ℝ) : ℝ := (1 - p 0) ^ 2 + b * (p 1 - p 0 ^ 2) ^ 2

/-- `drift` is minus the gradient of `P`: at each point each component is minus the derivative of `P` along that
coordinate. -/
def GradientSystem {d : ℕ} (drift : (Fin d → ℝ) → Fin d → ℝ) (P : (Fin d → ℝ) → ℝ) : Prop :=
  ∀ p a, HasDerivAt (fun s => P (Function.update p a s)) (-(drift p a)) (p a)

/-- The states visited by the noise-free Euler scheme with the library's step 0.001. -/
noncomputable def eulerIter (drift : ℝ → ℝ) (x0 : ℝ) : ℕ → ℝ
  | 0 => x0
  | n + 1 => eulerIter drift x0 n + (1 / 1000) * drift (eulerIter drift x0 n)

end DPFC.Spec
