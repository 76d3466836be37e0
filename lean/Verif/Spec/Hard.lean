import Verif.Inst.XREmbeds
import Verif.Spec.Transport
import Verif.Model.TorchDPFC

/-!
# Hard path constraints

A constraint that takes the value minus infinity forbids positions. The scalars are the reals with infinities and
NaN (`XR`).
-/

namespace DPFC.Spec
variable {ρ : Type} {d N : ℕ}

/-- A cloud of numbers. -/
def cloudOf (X : Fin d → Fin N → ℝ) : Mat d N XR := fun a n => .fin (X a n)

/-- The values `u` of a constraint: the number `v n` on the allowed particles, minus infinity on all others. -/
def Forbids (A : Finset (Fin N)) (v : Fin N → ℝ) (u : Fin N → XR) : Prop :=
  (∀ n ∈ A, u n = .fin (v n)) ∧ ∀ n, n ∉ A → u n = .ninf

/-- The solver, called with numbers that form probability vectors, returns only transport plans. -/
def SolverCouplesX (env : Env ρ XR) : Prop :=
  ∀ (n : ℕ) (a b : Fin n → ℝ) (C : Fin n → Fin n → ℝ) (T : Mat n n XR), IsProb a → IsProb b →
    env.emd (fun i => .fin (a i)) (fun i => .fin (b i)) (fun i j => .fin (C i j)) = .ok T →
    ∃ P, (T = fun i j => .fin (P i j)) ∧ IsCoupling a b P

/-- The solver, called with probability vectors and a non-negative cost, returns an optimal plan. -/
def SolverOptimalX (env : Env ρ XR) : Prop :=
  ∀ (n : ℕ) (a b : Fin n → ℝ) (C : Fin n → Fin n → ℝ), IsProb a → IsProb b → (∀ i j, 0 ≤ C i j) →
    ∃ P, env.emd (fun i => .fin (a i)) (fun i => .fin (b i)) (fun i j => .fin (C i j))
      = .ok (fun i j => .fin (P i j)) ∧ IsOptimal a b C P

/-- Mean of the allowed particles with weights proportional to `exp v`. -/
noncomputable def allowedMean (A : Finset (Fin N)) (v : Fin N → ℝ) (X : Fin d → Fin N → ℝ) (a : Fin d) : ℝ :=
  (∑ n ∈ A, Real.exp (v n) * X a n) / ∑ n ∈ A, Real.exp (v n)

/-- What a hard constraint should do to a cloud: the new cloud consists of numbers, its plain mean is the weighted
mean of the allowed particles, and it lies in every convex set that contains the allowed particles. -/
def HardResult (A : Finset (Fin N)) (v : Fin N → ℝ) (X : Fin d → Fin N → ℝ) (y : Mat d N XR) : Prop :=
  ∃ Y : Fin d → Fin N → ℝ, y = cloudOf Y ∧ (∀ a, (∑ n, Y a n) / N = allowedMean A v X a) ∧
    ∀ S : Set (Fin d → ℝ), Convex ℝ S → (∀ m ∈ A, particle X m ∈ S) → ∀ n, particle Y n ∈ S

end DPFC.Spec
