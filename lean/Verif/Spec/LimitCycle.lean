import Verif.Model.LimitCycle
import Mathlib.Analysis.SpecialFunctions.Exp
import Mathlib.Analysis.SpecialFunctions.Log.Deriv

/-!
# Specification of the limit-cycle example

`dt = 1/1000`. The system is `x' = - y + x (1 - x^2 - y^2)`, `y' = x + y (1 - x^2 - y^2)` with noise of strength `g`.
-/

namespace DPFC.Spec
variable {ρ : Type}

/-- First component of the vector field. -/
def cycleX (x y : ℝ) : ℝ := - y + x * (1 - x ^ 2 - y ^ 2)

/-- Second component of the vector field. -/
def cycleY (x y : ℝ) : ℝ := x + y * (1 - x ^ 2 - y ^ 2)

/-- A stationary density of `dX = f dt + σ dW`, up to its normalisation. -/
noncomputable def cycleDensity (σ x y : ℝ) : ℝ := Real.exp (- (x ^ 2 + y ^ 2 - 1) ^ 2 / (2 * σ ^ 2))

/-- A single state as a `2 x 1` array. -/
def point (x y : ℝ) : Fin 2 → Fin 1 → ℝ := fun a _ => if a = 0 then x else y

/-- The Euler-Maruyama path from `(x, y)`: the state `i` steps later, with the generator; a step draws two normals. -/
noncomputable def cyclePath (env : Env ρ ℝ) (g x y : ℝ) (r : ρ) : ℕ → ℝ × ℝ × ρ
  | 0 => (x, y, r)
  | i+1 =>
    let s := cyclePath env g x y r i
    let u := env.normal s.2.2
    let v := env.normal u.2
    (s.1 + 1/1000 * cycleX s.1 s.2.1 + g * (Real.sqrt (1/1000) * u.1),
     s.2.1 + 1/1000 * cycleY s.1 s.2.1 + g * (Real.sqrt (1/1000) * v.1), v.2)

/-- State `i` of the path. -/
noncomputable def cycleState (env : Env ρ ℝ) (g x y : ℝ) (r : ρ) (i : ℕ) : Fin 2 → ℝ :=
  fun a => if a = 0 then (cyclePath env g x y r i).1 else (cyclePath env g x y r i).2.1

/-- Squared distance from the origin. -/
noncomputable def cycleR2 (env : Env ρ ℝ) (g x y : ℝ) (r : ρ) (i : ℕ) : ℝ :=
  (cyclePath env g x y r i).1 ^ 2 + (cyclePath env g x y r i).2.1 ^ 2

/-- Squared radius of the circle on which the Euler scheme without noise settles. -/
noncomputable def cycleLimit : ℝ := 1001 - 1000 * Real.sqrt (1 - (1/1000) ^ 2)

/-- The numbers of script_1.py. -/
noncomputable def script1 : LcSetup ℝ := ⟨500, fun a => if a = 0 then 0 else -1, 1/10, 2000, 10, 100⟩

/-- The numbers of Bridge_2D_on_Limit_Cycle.py. -/
noncomputable def bridgeScript : LcSetup ℝ := ⟨500, fun a => if a = 0 then 0 else -1, 1/10, 4000, 100, 100⟩

/-- The numbers of test_torch_bridge_on_LC.py. -/
noncomputable def torchScript : LcSetup ℝ := ⟨50, fun a => if a = 0 then 0 else -1, 1/10, 500, 100, 100⟩

/-- The indices used by the script exist: `T/dt` points are simulated. -/
def LongEnough (s : LcSetup ℝ) : Prop :=
  ((s.timeIx + s.steps : ℕ) : ℝ) < 1000 * s.T ∧ ((s.stateIx + s.steps : ℕ) : ℝ) < 1000 * s.T

end DPFC.Spec
