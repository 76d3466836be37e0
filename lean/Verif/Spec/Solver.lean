import Verif.Spec.Transport
import Verif.Model.TorchDPFC

/-!
# Specification vocabulary for the transport solver
-/

namespace DPFC.Spec
variable {ρ K : Type} {n d N : ℕ}

/-- The same random numbers with the transport solver `S`. -/
def withSolver (env : Env ρ K) (S : {n : ℕ} → (Fin n → K) → (Fin n → K) → Mat n n K → Except PyErr (Mat n n K)) : Env ρ K :=
  ⟨env.normal, env.uniform, S⟩

/-- The problems of transporting positive probability weights `a` onto the uniform weights `b`. -/
def OntoUniform (a b : Fin n → ℝ) : Prop := (∀ i, 0 < a i) ∧ ∑ i, a i = 1 ∧ b = fun _ => 1 / (n : ℝ)

/-- A cost that is a (pseudo)metric. -/
def IsMetric (C : Fin n → Fin n → ℝ) : Prop :=
  (∀ i, C i i = 0) ∧ (∀ i j, C i j = C j i) ∧ (∀ i j, 0 ≤ C i j) ∧ ∀ i j k, C i k ≤ C i j + C j k

/-- A symmetric cost with values in the unit interval, 0 on the diagonal, with maximum 1 unless it vanishes. -/
def IsUnitCost (C : Fin n → Fin n → ℝ) : Prop :=
  (∀ i, C i i = 0) ∧ (∀ i j, C i j = C j i) ∧ (∀ i j, 0 ≤ C i j ∧ C i j ≤ 1) ∧ ((∃ i j, C i j = 1) ∨ ∀ i j, C i j = 0)

end DPFC.Spec
