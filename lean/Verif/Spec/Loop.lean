import Verif.Model.Loop
import Verif.Spec.Control
import Verif.Spec.Equivariance

/-!
# Specification of the closed loop

`dt = 1/1000`; `x a j` is coordinate `a` of path `j`.
-/

namespace DPFC.Spec
variable {ρ : Type} {d N M n : ℕ}

/-- Euler-Maruyama step of `dX = f dt + g^2 u dt + g dW` with standard normals `ξ`. -/
noncomputable def controlledStep (f : (Fin d → Fin n → ℝ) → Fin d → Fin n → ℝ) (g : ℝ)
    (x u ξ : Fin d → Fin n → ℝ) : Fin d → Fin n → ℝ :=
  fun a j => x a j + (f x a j + g ^ 2 * u a j) * (1/1000) + g * (Real.sqrt (1/1000) * ξ a j)

/-- `F` (controlled), `G` (uncontrolled) and `U` (controls) are the arrays of a closed-loop run on `k` time points
from `y`: the ensembles start at `y`; step `i - 1 -> i` first queries the controls at index `i` and at the current
states, then moves both ensembles with independent normals. `rs i` is the random state before step `i`. -/
structure LoopRun (env : Env ρ ℝ) (query : (Fin n → Fin d → ℝ) → ℕ → ρ → Except PyErr (Mat d n ℝ × ρ))
    (f : (Fin d → Fin n → ℝ) → Fin d → Fin n → ℝ) (g : ℝ) (y : Fin d → ℝ) (k : ℕ)
    (F G U : List (Fin d → Fin n → ℝ)) (rs : ℕ → ρ) : Prop where
  lenF : F.length = k - 1
  lenG : G.length = k - 1
  lenU : U.length = k
  startF : F[0]? = some fun a _ => y a
  startG : G[0]? = some fun a _ => y a
  firstU : U[0]? = some fun _ _ => 0
  lastU : U[k-1]? = some fun _ _ => 0
  step : ∀ i x w, 1 ≤ i → i < k - 1 → F[i-1]? = some x → G[i-1]? = some w →
    ∃ u q, query (fun j a => x a j) i (rs i) = .ok (u, q) ∧ U[i]? = some u ∧
      F[i]? = some (controlledStep f g x u (normals env d n q)) ∧
      G[i]? = some (controlledStep f g w (fun _ _ => 0) (normals env d n (normalsNext env d n q))) ∧
      rs (i+1) = normalsNext env d n (normalsNext env d n q)

/-- The objects differ at most in the first and the last time slice of their flows. -/
structure SameInside {K : Type} (o o' : Obj d N M K) : Prop where
  cfg : o'.cfg = o.cfg
  time : o'.timegrid = o.timegrid
  lenB : o.B.length = o.timegrid.length ∧ o'.B.length = o.timegrid.length
  lenZ : o.Z.length = o.timegrid.length ∧ o'.Z.length = o.timegrid.length
  B : ∀ i, 1 ≤ i → i < o.timegrid.length - 1 → o'.B[i]? = o.B[i]?
  Z : ∀ i, 1 ≤ i → i < o.timegrid.length - 1 → o'.Z[i]? = o.Z[i]?
  tr : match o.Ztr, o'.Ztr with
    | none, none => True
    | some T, some T' => T.length = o.timegrid.length ∧ T'.length = o.timegrid.length ∧
        ∀ i, 1 ≤ i → i < o.timegrid.length - 1 → T'[i]? = T[i]?
    | _, _ => False

end DPFC.Spec

namespace DPFC.Spec
variable {ρ : Type} {d n : ℕ}

/-- The closed-loop results `p` and `q` are the same run in the coordinates `x` and `s x + v`: same exception, or
both return, with the same random state afterwards, paths converted and controls divided by `s`. -/
def MovedPaths (s : ℝ) (v : Fin d → ℝ) (p q : Except PyErr (Paths d n ℝ × ρ)) : Prop :=
  match p, q with
  | .error e, .error e' => e = e'
  | .ok (P, r), .ok (P', r') => r' = r ∧ P'.cont = P.cont.map (moved s v) ∧ P'.free = P.free.map (moved s v) ∧
      P'.used = P.used.map fun u a j => u a j / s
  | _, _ => False

end DPFC.Spec
