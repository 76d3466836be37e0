import Verif.Model.Phenotype
import Verif.Spec.Kuramoto

/-!
# Specification of the phenotype-differentiation example

Over the reals, with the vocabulary of `Spec.Flow` and `Spec.Recurrence`; of the model it uses the record `PhenoCfg` of
constructor arguments and the environment `Env`.
-/

namespace DPFC.Spec
variable {ρ : Type} {d N M n : ℕ}

/-- The acceptance test for a path whose first coordinate one step after the start is `v`: `v` is closer than
`4 g^2 sqrt(dt)` to the first coordinate of one Euler step from `y1`. -/
def Accepted (c : PhenoCfg (d+2) N ℝ) (v : ℝ) : Prop :=
  |v - (c.y1 0 + 1/1000 * c.f1 c.y1 c.t1 0)| < 4 * c.g^2 * Real.sqrt (1/1000)

/-- The recurrence of the forward flow, with times `t` and random states `rs i` before step `i -> i+1`. -/
def PhenoForwardRec (env : Env ρ ℝ) (M : ℕ) (c : PhenoCfg d N ℝ) (Z : ℕ → Option (Fin d → Fin N → ℝ))
    (t : ℕ → Option ℝ) (rs : ℕ → ρ) : Prop :=
  ∀ i x y ti, Z i = some x → Z (i+1) = some y → t i = some ti →
    ForwardStep env M ⟨c.f, none⟩ c.g i ti x y (rs i) (rs (i+1))

/-- The recurrence of the backward flow on `k` grid points: `B j` is computed from `B (j+1)` and the forward slice
`Z j` of the *same* index, with the drift at the time of index `j+1`; random states `rs j` before and `rs (j-1)` after;
noisy for `j = k-2`. -/
def PhenoBackwardRec (env : Env ρ ℝ) (M : ℕ) (c : PhenoCfg d N ℝ) (k : ℕ)
    (Z B : ℕ → Option (Fin d → Fin N → ℝ)) (t : ℕ → Option ℝ) (rs : ℕ → ρ) : Prop :=
  ∀ j z b y tj, 1 ≤ j → j + 2 ≤ k → Z j = some z → B (j+1) = some b → B j = some y → t (j+1) = some tj →
    (j + 2 = k → rs (j-1) = normalsNext env d N (unifsNext env d M (rs j)) ∧
      (Spread z → y = fun a n => b a n - c.f b tj a n * (1/1000)
        + 1/1000 * c.g^2 * scoreRho z b (unifs env d M (rs j)) a n
        + c.g * (Real.sqrt (1/1000) * normals env d N (unifsNext env d M (rs j)) a n))) ∧
    (j + 2 ≠ k → rs (j-1) = unifsNext env d M (unifsNext env d M (rs j)) ∧
      (Spread z → Spread b → y = fun a n => b a n - 1/1000 * (c.f b tj a n
        - c.g^2 * scoreRho z b (unifs env d M (rs j)) a n
        + c.g^2/2 * scoreB z b (unifs env d M (unifsNext env d M (rs j))) a n)))

/-- The control from the accepted backward paths `b` and the forward particles `z`, with inducing points `P`, at the
point `y`: difference of the score estimates, *both* with the lengthscales of `b`. -/
noncomputable def phenoControl (b : Fin d → Fin n → ℝ) (z : Fin d → Fin N → ℝ) (P : Fin M → Fin d → ℝ) (y : Fin d → ℝ) :
    Fin d → ℝ := fun a =>
  score (1/1000) (fun k => 2 * sdev (b k)) (particle b) P a y - score (1/1000) (fun k => 2 * sdev (b k)) (particle z) P a y

/-- The gene circuit: self-activation and mutual inhibition with Hill exponent 4 and linear decay, thresholds
`p1, p2, p3, p4`; the numerator of the inhibition of the second gene is `p2^4`. -/
noncomputable def circuit (p : PhenoPars ℝ) (x : Fin 2 → ℝ) : Fin 2 → ℝ :=
  ![x 0 ^ 4 / (p.p1 ^ 4 + x 0 ^ 4) + p.p2 ^ 4 / (p.p2 ^ 4 + x 1 ^ 4) - x 0,
    x 1 ^ 4 / (p.p3 ^ 4 + x 1 ^ 4) + p.p2 ^ 4 / (p.p4 ^ 4 + x 0 ^ 4) - x 1]

/-- One Euler-Maruyama step of length 0.001 with drift `f`, control `u`, noise strength `g`, standard normals `ξ`. -/
noncomputable def phenoEM (f : (Fin 2 → ℝ) → Fin 2 → ℝ) (g : ℝ) (x u ξ : Fin 2 → ℝ) : Fin 2 → ℝ :=
  fun a => x a + 1/1000 * (f x a + g^2 * u a) + g * (Real.sqrt (1/1000) * ξ a)

/-- The control law of the closed loop on `k` time points: `lin x (k - i)` in the last four steps `i`, before that the one
column returned by `bridge` for the state and the index `i`. -/
def switched (bridge : (Fin 2 → Fin 1 → ℝ) → ℤ → ρ → Except PyErr ((Fin 2 → Fin 1 → ℝ) × ρ))
    (lin : (Fin 2 → ℝ) → ℤ → Except PyErr (Fin 2 → ℝ)) (k : ℕ) (x : Fin 2 → ℝ) (i : ℕ) (q : ρ) :
    Except PyErr ((Fin 2 → ℝ) × ρ) :=
  if k ≤ i + 4 then
    match lin x ((k : ℤ) - i) with
    | .ok u => .ok (u, q)
    | .error e => .error e
  else
    match bridge (fun a _ => x a) i q with
    | .ok (u, q') => .ok (fun a => u a 0, q')
    | .error e => .error e

/-- `F` (controlled), `G` (uncontrolled) and `U` (controls) are the arrays of one closed-loop run on `k` time points from
`y`: step `i - 1 -> i` takes the control `ctl x i` of the current controlled state, then moves both states with
independent normals. -/
structure PhenoRun (env : Env ρ ℝ) (ctl : (Fin 2 → ℝ) → ℕ → ρ → Except PyErr ((Fin 2 → ℝ) × ρ))
    (f : (Fin 2 → ℝ) → Fin 2 → ℝ) (g : ℝ) (y : Fin 2 → ℝ) (k : ℕ) (F G U : List (Fin 2 → ℝ)) (rs : ℕ → ρ) : Prop where
  len : F.length = k ∧ G.length = k ∧ U.length = k
  start : F[0]? = some y ∧ G[0]? = some y ∧ U[0]? = some (fun _ => 0)
  step : ∀ i x w, 1 ≤ i → i < k → F[i-1]? = some x → G[i-1]? = some w →
    ∃ u q, ctl x i (rs i) = .ok (u, q) ∧ U[i]? = some u ∧
      F[i]? = some (phenoEM f g x u (vnormals env 2 q)) ∧
      G[i]? = some (phenoEM f g w (fun _ => 0) (vnormals env 2 (vnormalsNext env 2 q))) ∧
      rs (i+1) = vnormalsNext env 2 (vnormalsNext env 2 q)

end DPFC.Spec
