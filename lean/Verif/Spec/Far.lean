import Verif.Spec.Control

/-!
# Specification for C113: points far from the particles
-/

namespace DPFC.Spec
variable {d N : ℕ}

/-- In coordinate `e` the number `v` is at least `R` away from every value between the extreme particles of both clouds
together. -/
def FarFrom (z b : Fin d → Fin N → ℝ) (e : Fin d) (R v : ℝ) : Prop :=
  v + R ≤ hullLow z b e ∨ hullHigh z b e + R ≤ v

end DPFC.Spec
