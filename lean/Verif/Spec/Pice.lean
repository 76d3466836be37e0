import Verif.Model.Pice
import Verif.Inst.Real
import Verif.Spec.Phenotype
import Mathlib.LinearAlgebra.Matrix.NonsingularInverse

/-!
# Specification of the path-integral comparison

Over the reals. Arrays over the `k` time points are functions of the time index; `X i a j` is coordinate `a` of path `j`
at time index `i`. Of the model it uses the records of settings and variables, and `piceIter` to say which states of the
variables are reachable.
-/

namespace DPFC.Spec
variable {ρ : Type} {n b : ℕ}

/-- Exponents of the monomials in the order of the script. -/
def exponents (l : ℕ) : ℕ × ℕ :=
  [(0,0), (1,0), (0,1), (1,1), (2,0), (0,2), (2,1), (1,2), (3,0), (0,3), (2,2), (2,2), (3,1), (1,3), (0,4), (0,4)].getD l (0,0)

/-- The monomial number `l`. -/
noncomputable def mono (x : Fin 2 → ℝ) (l : ℕ) : ℝ := x 0 ^ (exponents l).1 * x 1 ^ (exponents l).2

/-- The polynomial control with coefficients `A`. -/
noncomputable def polyControl (A : Fin 2 → Fin (b+1) → ℝ) (x : Fin 2 → ℝ) : Fin 2 → ℝ :=
  fun a => ∑ l, A a l * mono x l.val

/-- `n` paths on `k` time points of `dX = f dt + g u dt + g dW` from `y`, Euler-Maruyama with `dt = 0.001`, with the
polynomial control `u` of coefficients `A i` at time index `i`. `U` are the controls, `E` the noise increments `g dW`;
both are zero at the last time index. `rs i` is the random state before step `i -> i+1`. -/
structure PiceSimulation (env : Env ρ ℝ) (f : (Fin 2 → ℝ) → Fin 2 → ℝ) (g : ℝ) (y : Fin 2 → ℝ) (k : ℕ)
    (A : ℕ → Fin 2 → Fin (b+1) → ℝ) (Z U E : ℕ → Fin 2 → Fin n → ℝ) (rs : ℕ → ρ) : Prop where
  start : Z 0 = fun a _ => y a
  noise : ∀ i, i + 1 < k → E i = fun a j => g * (Real.sqrt (1/1000) * normals env 2 n (rs i) a j)
  random : ∀ i, i + 1 < k → rs (i+1) = normalsNext env 2 n (rs i)
  control : ∀ i, i + 1 < k → U i = fun a j => polyControl (A i) (fun c => Z i c j) a
  step : ∀ i, i + 1 < k → Z (i+1) = fun a j =>
    Z i a j + 1/1000 * (f (fun c => Z i c j) a + g * U i a j) + E i a j
  last : U (k-1) = 0 ∧ E (k-1) = 0

/-- Running cost of path `j`: control energy and stochastic term. -/
noncomputable def runCost (k : ℕ) (U E : ℕ → Fin 2 → Fin n → ℝ) (j : Fin n) : ℝ :=
  ∑ i ∈ Finset.range k, ∑ a, (1/2 * U i a j ^ 2 * (1/1000) + U i a j * E i a j)

/-- End cost: *every* coordinate of the end point is compared with *every* coordinate of the target. -/
noncomputable def endCost (x2 alph z : Fin 2 → ℝ) : ℝ := ∑ a, ∑ i, alph i * |z a - x2 i|

/-- Importance weights of the paths: exponentials of the negative costs, normalised. -/
noncomputable def pathWeight (x2 alph : Fin 2 → ℝ) (k : ℕ) (U E : ℕ → Fin 2 → Fin n → ℝ) (z : Fin 2 → Fin n → ℝ)
    (j : Fin n) : ℝ :=
  Real.exp (-(runCost k U E j + endCost x2 alph fun a => z a j))
    / ∑ j', Real.exp (-(runCost k U E j' + endCost x2 alph fun a => z a j'))

/-- Mean of the end points of the paths. -/
noncomputable def endMean (z : Fin 2 → Fin n → ℝ) (a : Fin 2) : ℝ := (∑ j, z a j) / n

/-- Moore-Penrose inverse. -/
structure IsPinv {m : ℕ} (A P : Matrix (Fin m) (Fin m) ℝ) : Prop where
  h1 : A * P * A = A
  h2 : P * A * P = P
  h3 : (A * P).transpose = A * P
  h4 : (P * A).transpose = P * A

/-- Weighted squared error of the linear predictor with coefficients `c` from features `h` for the values `v`. -/
noncomputable def sqError {m : ℕ} (w : Fin n → ℝ) (h : Fin m → Fin n → ℝ) (v : Fin n → ℝ) (c : Fin m → ℝ) : ℝ :=
  ∑ j, w j * (v j - ∑ l, c l * h l j) ^ 2

/-- `c` minimises the error, and every other minimiser is longer. -/
def ShortestLeastSquares {m : ℕ} (w : Fin n → ℝ) (h : Fin m → Fin n → ℝ) (v : Fin n → ℝ) (c : Fin m → ℝ) : Prop :=
  (∀ c', sqError w h v c ≤ sqError w h v c') ∧
    ∀ c', sqError w h v c' = sqError w h v c → c' ≠ c → ∑ l, c l ^ 2 < ∑ l, c' l ^ 2

/-- The state of the variables and of the random stream before iteration `i`. -/
inductive PiceReach (env : Env ρ ℝ) (c : PicePars ℝ) (pinv : Mat (b+1) (b+1) ℝ → Mat (b+1) (b+1) ℝ) (grid : List ℝ)
    (r : ρ) : ℕ → PiceState n b ℝ → ρ → Prop
  | init : PiceReach env c pinv grid r 0 (piceInit c n b grid.length) r
  | next {i s s' q q'} : PiceReach env c pinv grid r i s q → i + 1 < c.maxIter →
      piceIter env c pinv grid i s q = .ok ((false, s'), q') → PiceReach env c pinv grid r (i+1) s' q'

end DPFC.Spec
