import Mathlib.Data.Real.Basic
import Mathlib.Algebra.BigOperators.Fin

/-!
# Specification for C111: rotations and renumbered coordinates

Independent of the model of the code.
-/

namespace DPFC.Spec

/-- `R` is an orthogonal matrix: its columns are orthonormal (a rotation, possibly with a reflection). -/
def Orthogonal {d : ℕ} (R : Fin d → Fin d → ℝ) : Prop :=
  ∀ a b, ∑ k, R k a * R k b = if a = b then 1 else 0

/-- Each row of `X` (a point) multiplied by `R`. -/
def turn {n d : ℕ} (R : Fin d → Fin d → ℝ) (X : Fin n → Fin d → ℝ) : Fin n → Fin d → ℝ :=
  fun i k => ∑ a, R k a * X i a

/-- Each row of `X` with coordinate `σ k` put in place `k`, multiplied by the sign `e k`. -/
def renumber {n d : ℕ} (σ : Equiv.Perm (Fin d)) (e : Fin d → ℝ) (X : Fin n → Fin d → ℝ) :
    Fin n → Fin d → ℝ := fun i k => e k * X i (σ k)

end DPFC.Spec
