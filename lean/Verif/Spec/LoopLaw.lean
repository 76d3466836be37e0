import Verif.Spec.Law
import Verif.Spec.Loop

/-! Specification vocabulary for the laws of closed-loop simulations (C108). -/

namespace DPFC.Spec
open MeasureTheory ProbabilityTheory
variable {d n : ℕ}

/-- The drift of the simulated system acts on each path separately, by `φ`. -/
def ActsPathwise (f : (Fin d → Fin n → ℝ) → Fin d → Fin n → ℝ) (φ : (Fin d → ℝ) → Fin d → ℝ) : Prop :=
  ∀ x a j, f x a j = φ (particle x j) a

/-- `X` is the Euler-Maruyama path of `dX = φ dt + g^2 c dt + g dW` from `y` with feedback controls `c i` (`dt = 1/1000`), the
standard normals of step `i -> i + 1` being `ξ i`. -/
def EMPath (φ : (Fin d → ℝ) → Fin d → ℝ) (g : ℝ) (y : Fin d → ℝ) (c : ℕ → (Fin d → ℝ) → Fin d → ℝ) (ξ : ℕ → Fin d → ℝ)
    (X : ℕ → Fin d → ℝ) : Prop :=
  X 0 = y ∧ ∀ i a, X (i+1) a = X i a + (φ (X i) a + g ^ 2 * c (i+1) (X i) a) * (1/1000) + g * (Real.sqrt (1/1000) * ξ i a)

/-- The law of `d` independent standard normals. -/
noncomputable def stdNormals (d : ℕ) : Measure (Fin d → ℝ) := Measure.pi fun _ => gaussianReal 0 1

end DPFC.Spec
