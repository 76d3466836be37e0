import Verif.Spec.Recurrence

/-! Couplings and optimal transport plans between weight vectors. -/

namespace DPFC.Spec
variable {ρ : Type} {n : ℕ}

/-- A probability vector. -/
def IsProb (a : Fin n → ℝ) : Prop := (∀ i, 0 ≤ a i) ∧ ∑ i, a i = 1

/-- `T` is a transport plan from `a` to `b`. -/
def IsCoupling (a b : Fin n → ℝ) (T : Fin n → Fin n → ℝ) : Prop :=
  (∀ i j, 0 ≤ T i j) ∧ (∀ i, ∑ j, T i j = a i) ∧ ∀ j, ∑ i, T i j = b j

/-- Cost of a plan. -/
def planCost (C T : Fin n → Fin n → ℝ) : ℝ := ∑ i, ∑ j, T i j * C i j

/-- `T` is a transport plan of minimal cost. -/
def IsOptimal (a b : Fin n → ℝ) (C T : Fin n → Fin n → ℝ) : Prop :=
  IsCoupling a b T ∧ ∀ T', IsCoupling a b T' → planCost C T ≤ planCost C T'

/-- The solver, called on probability vectors, returns only transport plans. -/
def SolverCouples (env : Env ρ ℝ) : Prop :=
  ∀ (n : ℕ) (a b : Fin n → ℝ) (C T : Fin n → Fin n → ℝ), IsProb a → IsProb b →
    env.emd a b C = .ok T → IsCoupling a b T

/-- The solver, called on probability vectors and a non-negative cost, returns an optimal plan. -/
def SolverOptimal (env : Env ρ ℝ) : Prop :=
  ∀ (n : ℕ) (a b : Fin n → ℝ) (C : Fin n → Fin n → ℝ), IsProb a → IsProb b → (∀ i j, 0 ≤ C i j) →
    ∃ T, env.emd a b C = .ok T ∧ IsOptimal a b C T

end DPFC.Spec
