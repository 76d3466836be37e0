import Verif.Model.Kuramoto
import Verif.Spec.Recurrence
import Mathlib.Analysis.SpecialFunctions.Trigonometric.Basic
import Mathlib.Analysis.SpecialFunctions.Complex.Circle
import Mathlib.Algebra.Order.Floor.Ring

/-!
# Specification of the phase-oscillator example

Angles over the reals, the Kuramoto model and the recurrences of the two flows. Of the model it uses the record
`PhaseCfg` of constructor arguments and the environment `Env`.
-/

namespace DPFC.Spec
variable {ρ : Type} {d N M : ℕ}

/-- The representative of an angle in `[0, 2π)`. -/
noncomputable def phase (x : ℝ) : ℝ := 2 * Real.pi * Int.fract (x / (2 * Real.pi))

/-- `x` and `y` are the same angle. -/
def SameAngle (x y : ℝ) : Prop := ∃ m : ℤ, y = x + 2 * Real.pi * m

/-- All entries are in `[0, 2π)`. -/
def OnCircle (x : Fin d → Fin N → ℝ) : Prop := ∀ a n, 0 ≤ x a n ∧ x a n < 2 * Real.pi

/-- The initial cloud: a Gaussian around `y` with variance `g/2` in each coordinate, from standard normals `ξ`. -/
noncomputable def gaussStart (y : Fin d → ℝ) (g : ℝ) (ξ : Fin N → Fin d → ℝ) : Fin d → Fin N → ℝ :=
  fun a n => y a + Real.sqrt (g / 2) * ξ n a

/-- `y` is the cloud `x` transported with log-weights `v` and reduced to `[0, 2π)`: plan of the solver for the cost
"squared distance divided by its maximum". Says nothing if all particles coincide. -/
def PhaseTransportedTo (env : Env ρ ℝ) (v : Fin N → ℝ) (x y : Fin d → Fin N → ℝ) : Prop :=
  (∃ i j, sqdist x i j ≠ 0) → ∃ T, env.emd (softmax v) (fun _ => 1 / N)
      (fun i j => sqdist x i j / hi fun i => hi fun j => sqdist x i j) = .ok T ∧
    ∀ a n, y a n = phase (∑ m, N * x a m * T m n)

/-- The recurrence of the forward flow: step `i -> i+1` from random state `rs i`; the first step is noisy, the others
follow the probability flow; all results are reduced to `[0, 2π)`; with reweighting the result is transported with
log-weights `U(.)`. -/
def PhaseForwardRec (env : Env ρ ℝ) (M : ℕ) (c : PhaseCfg d N ℝ) (Z : ℕ → Option (Fin d → Fin N → ℝ))
    (t : ℕ → Option ℝ) (rs : ℕ → ρ) : Prop :=
  ∀ i x y ti, Z i = some x → Z (i+1) = some y → t i = some ti →
    ∃ raw : Fin d → Fin N → ℝ,
      (i = 0 → rs (i+1) = normalsNext env d N (rs i) ∧ raw = fun a n => phase (x a n + c.dt * c.f x ti a n
        + c.g * (Real.sqrt c.dt * normals env d N (rs i) a n))) ∧
      (i ≠ 0 → rs (i+1) = unifsNext env d M (rs i) ∧ (Spread x → raw = fun a n => phase (x a n + c.dt *
        (c.f x ti a n - c.g^2/2 * cloudScore x
          (inducing (fun a => lo (x a)) (fun a => hi (x a)) (unifs env d M (rs i))) x a n)))) ∧
      (c.reweight = false → y = raw) ∧
      (c.reweight = true → ∃ U, c.U = some U ∧ PhaseTransportedTo env (U raw) raw y)

/-- The recurrence of the backward flow on `k` grid points: `B j` is computed from `B (j+1)` and the forward slice
`Z j` of the *same* index, with the drift at the time of index `j+1`; random states `rs j` before and `rs (j-1)` after;
noisy for `j = k-2`. -/
def PhaseBackwardRec (env : Env ρ ℝ) (M : ℕ) (c : PhaseCfg d N ℝ) (k : ℕ)
    (Z B : ℕ → Option (Fin d → Fin N → ℝ)) (t : ℕ → Option ℝ) (rs : ℕ → ρ) : Prop :=
  ∀ j z b y tj, 1 ≤ j → j + 2 ≤ k → Z j = some z → B (j+1) = some b → B j = some y → t (j+1) = some tj →
    (j + 2 = k → rs (j-1) = normalsNext env d N (unifsNext env d M (rs j)) ∧
      (Spread z → y = fun a n => phase (b a n - c.f b tj a n * c.dt
        + c.dt * c.g^2 * scoreRho z b (unifs env d M (rs j)) a n
        + c.g * (Real.sqrt c.dt * normals env d N (unifsNext env d M (rs j)) a n)))) ∧
    (j + 2 ≠ k → rs (j-1) = unifsNext env d M (unifsNext env d M (rs j)) ∧
      (Spread z → Spread b → y = fun a n => phase (b a n - c.dt * (c.f b tj a n
        - c.g^2 * scoreRho z b (unifs env d M (rs j)) a n
        + c.g^2/2 * scoreB z b (unifs env d M (unifsNext env d M (rs j))) a n))))

/-! ### Kuramoto oscillators -/

/-- The order parameter: modulus of the mean of the points `exp(i x_j)` of the unit circle. -/
noncomputable def orderR (x : Fin d → ℝ) : ℝ := ‖(∑ j, Complex.exp (x j * Complex.I)) / (d : ℂ)‖

/-- The Kuramoto vector field with frequencies `w` and coupling `κ`. -/
noncomputable def kuramoto (w : Fin d → ℝ) (κ : ℝ) (x : Fin d → ℝ) (j : Fin d) : ℝ :=
  w j + κ / d * ∑ i, Real.sin (x i - x j)

end DPFC.Spec

namespace DPFC.Spec
variable {ρ : Type} {d N M n : ℕ}

/-- The control of the phase-oscillator class from clouds `b` (backward) and `z` (forward) with inducing points `P`, at
the point `y`: difference of the score estimates, *both* with the lengthscales of `b`. -/
noncomputable def phaseControl (b z : Fin d → Fin N → ℝ) (P : Fin M → Fin d → ℝ) (y : Fin d → ℝ) : Fin d → ℝ := fun a =>
  score (1/1000) (fun k => 2 * sdev (b k)) (particle b) P a y - score (1/1000) (fun k => 2 * sdev (b k)) (particle z) P a y

/-- Standard normals for one state, and the random state after. -/
abbrev vnormals (env : Env ρ ℝ) (d : ℕ) (r : ρ) : Fin d → ℝ := (drawVec env.normal d r).1
@[inherit_doc vnormals] abbrev vnormalsNext (env : Env ρ ℝ) (d : ℕ) (r : ρ) : ρ := (drawVec env.normal d r).2

/-- One Euler-Maruyama step of length `h` of oscillators with drift `f`, control `u` and noise strength `g`, reduced to
`[0, 2π)`. -/
noncomputable def phaseEM (f : (Fin d → ℝ) → Fin d → ℝ) (g h : ℝ) (x u ξ : Fin d → ℝ) : Fin d → ℝ :=
  fun a => phase (x a + h * (f x a + g^2 * u a) + g * (Real.sqrt h * ξ a))

/-- `F` (controlled), `G` (uncontrolled), `U` (controls) and `RF`, `RG` (order parameters) are the arrays of one
closed-loop run on `k` time points from `y`: step `i - 1 -> i` queries the control at index `i` and the current
controlled state, then moves both states with independent normals. -/
structure PhaseRun (env : Env ρ ℝ) (query : (Fin d → ℝ) → ℕ → ρ → Except PyErr (Mat d 1 ℝ × ρ))
    (f : (Fin d → ℝ) → Fin d → ℝ) (g h : ℝ) (y : Fin d → ℝ) (k : ℕ) (F G U : List (Fin d → ℝ)) (RF RG : List ℝ)
    (rs : ℕ → ρ) : Prop where
  len : F.length = k ∧ G.length = k ∧ U.length = k ∧ RF.length = k ∧ RG.length = k
  start : F[0]? = some y ∧ G[0]? = some y
  first : U[0]? = some (fun _ => 0) ∧ RF[0]? = some 0 ∧ RG[0]? = some 0
  last : U[k-1]? = some (fun _ => 0) ∧ RF[k-1]? = some 0 ∧ RG[k-1]? = some 0
  step : ∀ i x w, 1 ≤ i → i < k - 1 → F[i-1]? = some x → G[i-1]? = some w →
    ∃ u q x' w', query x i (rs i) = .ok (u, q) ∧ U[i]? = some (fun a => u a 0) ∧
      F[i]? = some x' ∧ x' = phaseEM f g h x (fun a => u a 0) (vnormals env d q) ∧
      G[i]? = some w' ∧ w' = phaseEM f g h w (fun _ => 0) (vnormals env d (vnormalsNext env d q)) ∧
      RF[i]? = some (orderR x') ∧ RG[i]? = some (orderR w') ∧
      rs (i+1) = vnormalsNext env d (vnormalsNext env d q)

end DPFC.Spec
