import Verif.Model.DPFC
import Verif.Spec.Flow

/-!
# Specification of the particle recurrences over the reals

Written with mathematical vocabulary only (`Spec.Flow`, `Spec.Score`); of the model it uses the records
of constructor arguments (`Cfg`), drift and constraint callables and the environment `Env`.
`dt = 1/1000`. `Z i`, `B i` are slices: `x a n` is coordinate `a` of particle `n`.
-/

namespace DPFC.Spec

variable {ρ : Type} {d N M : ℕ}

/-- Euclidean distance of particles `i` and `j`. -/
noncomputable def pdist (x : Fin d → Fin N → ℝ) (i j : Fin N) : ℝ :=
  Real.sqrt (∑ a, (x a i - x a j) ^ 2)

/-- Probability weights proportional to `exp v`. -/
noncomputable def softmax (v : Fin N → ℝ) : Fin N → ℝ := fun n => Real.exp (v n) / ∑ m, Real.exp (v m)

/-- `y` is the cloud `x` transported with log-weights `v`: the plan `T` of the solver between the
weights `softmax v` and the uniform weights, cost the Euclidean distance, is applied as
`y_n = sum_m x_m * (T_mn * N)`. -/
def TransportedTo (env : Env ρ ℝ) (v : Fin N → ℝ) (x y : Fin d → Fin N → ℝ) : Prop :=
  ∃ T, env.emd (softmax v) (fun _ => 1 / N) (pdist x) = .ok T ∧
    ∀ a n, y a n = ∑ m, x a m * (T m n * N)

/-- All coordinates of the cloud have spread (otherwise lengthscales are 0 and the code divides by
zero). -/
def Spread (x : Fin d → Fin N → ℝ) : Prop := ∀ a, sdev (x a) ≠ 0

/-- Euler-Maruyama step of the whole cloud with standard normals `ξ`. -/
noncomputable def noisy (f : Drift d N ℝ) (g : ℝ) (x : Fin d → Fin N → ℝ) (t : ℝ)
    (ξ : Fin d → Fin N → ℝ) : Fin d → Fin N → ℝ :=
  fun a n => x a n + 1/1000 * f.call2 x t a n + g * (Real.sqrt (1/1000) * ξ a n)

/-- Euler step of the probability flow: drift minus `g^2/2` times the score estimate of the cloud,
inducing points in its bounding box from standard uniforms `u`. -/
noncomputable def flowing (f : Drift d N ℝ) (g : ℝ) (x : Fin d → Fin N → ℝ) (t : ℝ)
    (u : Fin d → Fin M → ℝ) : Fin d → Fin N → ℝ :=
  fun a n => x a n + 1/1000 * (f.call2 x t a n
    - g^2/2 * cloudScore x (inducing (fun a => lo (x a)) (fun a => hi (x a)) u) x a n)

/-- One deterministic forward step `i -> i+1` before reweighting, from random state `r` to `r'`:
noisy for `i = 0`, probability flow for `i >= 1`. -/
def ForwardStep (env : Env ρ ℝ) (M : ℕ) (f : Drift d N ℝ) (g : ℝ) (i : ℕ) (t : ℝ)
    (x y : Fin d → Fin N → ℝ) (r r' : ρ) : Prop :=
  (i = 0 → y = noisy f g x t (normals env d N r) ∧ r' = normalsNext env d N r) ∧
  (i ≠ 0 → (Spread x → y = flowing f g x t (unifs env d M r)) ∧ r' = unifsNext env d M r)

/-- The recurrence of the deterministic forward flow `Z` with times `t`, random states `rs i` before
step `i -> i+1`; with reweighting, the result of the step is transported with log-weights
`U(., t_{i+1}) dt`. -/
def ForwardRec (env : Env ρ ℝ) (c : Cfg d N M ℝ) (Z : ℕ → Option (Fin d → Fin N → ℝ))
    (t : ℕ → Option ℝ) (rs : ℕ → ρ) : Prop :=
  ∀ i x y ti, Z i = some x → Z (i+1) = some y → t i = some ti →
    ∃ raw, ForwardStep env M c.f c.g i ti x raw (rs i) (rs (i+1)) ∧
      (c.reweight = false → y = raw) ∧
      (c.reweight = true → ∃ U, c.U = some U ∧
        TransportedTo env (fun n => U.call2 raw (ti + 1/1000) n * (1/1000)) raw y)

/-- The recurrence of the true-drift flow: no reweighting. -/
def TrueRec (env : Env ρ ℝ) (c : Cfg d N M ℝ) (Z : ℕ → Option (Fin d → Fin N → ℝ))
    (t : ℕ → Option ℝ) (rs : ℕ → ρ) : Prop :=
  ∃ f, c.fTrue = some f ∧ ∀ i x y ti, Z i = some x → Z (i+1) = some y → t i = some ti →
    ForwardStep env M f c.g i ti x y (rs i) (rs (i+1))

/-- Score of the forward particles `z` (resp. backward particles `b`) at `b`; inducing points
between the bounds `max(min z, min b)` and `min(max z, max b)`. -/
noncomputable def scoreRho (z b : Fin d → Fin N → ℝ) (u : Fin d → Fin M → ℝ) :=
  cloudScore z (inducing (fun a => max (lo (z a)) (lo (b a))) (fun a => min (hi (z a)) (hi (b a))) u) b
@[inherit_doc scoreRho] noncomputable def scoreB (z b : Fin d → Fin N → ℝ) (u : Fin d → Fin M → ℝ) :=
  cloudScore b (inducing (fun a => max (lo (z a)) (lo (b a))) (fun a => min (hi (z a)) (hi (b a))) u) b

/-- The recurrence of the backward flow on a grid with `k` points: `B j` is computed from
`B (j+1)` and `Z (j+1)`, for `k-2 >= j >= 1`, random states `rs j` before and `rs (j-1)` after. The
noisy form is used for `j = k-2` and, in stochastic mode, always. -/
def BackwardRec (env : Env ρ ℝ) (c : Cfg d N M ℝ) (k : ℕ) (Z B : ℕ → Option (Fin d → Fin N → ℝ))
    (t : ℕ → Option ℝ) (rs : ℕ → ρ) : Prop :=
  ∀ j z b y tj, 1 ≤ j → j + 2 ≤ k → Z (j+1) = some z → B (j+1) = some b → B j = some y →
    t (j+1) = some tj →
    ((j + 2 = k ∨ c.deterministic = false) →
      (Spread z → y = fun a n => b a n - c.f.call2 b tj a n * (1/1000)
        + 1/1000 * c.g^2 * scoreRho z b (unifs env d M (rs j)) a n
        + c.g * (Real.sqrt (1/1000) * normals env d N (unifsNext env d M (rs j)) a n)) ∧
      rs (j-1) = normalsNext env d N (unifsNext env d M (rs j))) ∧
    (¬ (j + 2 = k ∨ c.deterministic = false) →
      (Spread z → Spread b → y = fun a n => b a n - 1/1000 * (c.f.call2 b tj a n
        - c.g^2 * scoreRho z b (unifs env d M (rs j)) a n
        + c.g^2/2 * scoreB z b (unifs env d M (unifsNext env d M (rs j))) a n)) ∧
      rs (j-1) = unifsNext env d M (unifsNext env d M (rs j)))

/-- Standard normals drawn particle by particle (`N` blocks of `d`), and the random state after. -/
abbrev pnormals (env : Env ρ ℝ) (d N : ℕ) (r : ρ) : Fin N → Fin d → ℝ :=
  (drawVec (drawVec env.normal d) N r).1
@[inherit_doc pnormals] abbrev pnormalsNext (env : Env ρ ℝ) (d N : ℕ) (r : ρ) : ρ :=
  (drawVec (drawVec env.normal d) N r).2

/-- The recurrence of the stochastic numpy forward flow for the slices before the last one: each
particle takes an Euler-Maruyama step with the drift called without a time; with reweighting, the
result is transported with log-weights `U(.)` (one argument, no factor `dt`). -/
def StochRec (env : Env ρ ℝ) (c : Cfg d N M ℝ) (k : ℕ) (Z : ℕ → Option (Fin d → Fin N → ℝ))
    (rs : ℕ → ρ) : Prop :=
  (∀ i, i + 1 < k → rs (i+1) = pnormalsNext env d N (rs i)) ∧
  ∀ i x y, i + 2 < k → Z i = some x → Z (i+1) = some y →
    ∃ raw : Fin d → Fin N → ℝ,
      (∀ n, ∃ f1, c.f.call1 = some f1 ∧ ∀ a, raw a n = x a n + 1/1000 * f1 (particle x n) a
        + c.g * (Real.sqrt (1/1000) * pnormals env d N (rs i) n a)) ∧
      (c.reweight = false → y = raw) ∧
      (c.reweight = true → ∃ U v, c.U = some U ∧ U.call1 = some v ∧ TransportedTo env (v raw) raw y)

/-! ### torch -/

/-- Squared Euclidean distance of particles. -/
noncomputable def sqdist (x : Fin d → Fin N → ℝ) (i j : Fin N) : ℝ := ∑ a, (x a i - x a j) ^ 2

/-- Transport of the torch class: cost the squared distance divided by its maximum; says nothing if
all particles coincide (the code then divides zero by zero). -/
def TorchTransportedTo (env : Env ρ ℝ) (v : Fin N → ℝ) (x y : Fin d → Fin N → ℝ) : Prop :=
  (∃ i j, sqdist x i j ≠ 0) → ∃ T, env.emd (softmax v) (fun _ => 1 / N)
      (fun i j => sqdist x i j / hi fun i => hi fun j => sqdist x i j) = .ok T ∧
    ∀ a n, y a n = ∑ m, N * x a m * T m n

/-- Inducing points in torch order. -/
def tinducing (l h : Fin d → ℝ) (u : Fin M → Fin d → ℝ) (m : Fin M) : Fin d → ℝ :=
  fun a => l a + u m a * (h a - l a)

/-- Score estimate with the lengthscales of the torch class (sample standard deviation). -/
noncomputable def tcloudScore (x : Fin d → Fin N → ℝ) (P : Fin M → Fin d → ℝ)
    (y : Fin d → Fin N → ℝ) : Fin d → Fin N → ℝ :=
  cloudScoreL (fun k => 2 * sampleSdev (x k)) x P y

/-- One deterministic forward step of the torch class before reweighting. -/
def TorchForwardStep (env : Env ρ ℝ) (M : ℕ) (f : Drift d N ℝ) (g : ℝ) (i : ℕ) (t : ℝ)
    (x y : Fin d → Fin N → ℝ) (r r' : ρ) : Prop :=
  (i = 0 → y = noisy f g x t (normals env d N r) ∧ r' = normalsNext env d N r) ∧
  (i ≠ 0 → (∀ a, lo (x a) < hi (x a)) ∧ r' = tunifsNext env d M r ∧
    y = fun a n => x a n + 1/1000 * (f.call2 x t a n - g^2/2 * tcloudScore x
      (tinducing (fun a => lo (x a)) (fun a => hi (x a)) (tunifs env d M r)) x a n))

/-- The recurrence of the deterministic forward flow of the torch class. -/
def TorchForwardRec (env : Env ρ ℝ) (c : Cfg d N M ℝ) (Z : ℕ → Option (Fin d → Fin N → ℝ))
    (t : ℕ → Option ℝ) (rs : ℕ → ρ) : Prop :=
  ∀ i x y ti, Z i = some x → Z (i+1) = some y → t i = some ti →
    ∃ raw, TorchForwardStep env M c.f c.g i ti x raw (rs i) (rs (i+1)) ∧
      (c.reweight = false → y = raw) ∧
      (c.reweight = true → ∃ U, c.U = some U ∧
        TorchTransportedTo env (fun n => U.call2 raw (ti + 1/1000) n * (1/1000)) raw y)

/-- The recurrence of the stochastic forward flow of the torch class: the whole cloud moves with the
drift called with time. -/
def TorchStochRec (env : Env ρ ℝ) (c : Cfg d N M ℝ) (Z : ℕ → Option (Fin d → Fin N → ℝ))
    (t : ℕ → Option ℝ) (rs : ℕ → ρ) : Prop :=
  ∀ i x y ti, Z i = some x → Z (i+1) = some y → t i = some ti →
    ∃ raw, raw = noisy c.f c.g x ti (normals env d N (rs i)) ∧ rs (i+1) = normalsNext env d N (rs i) ∧
      (c.reweight = false → y = raw) ∧
      (c.reweight = true → ∃ U v, c.U = some U ∧ U.call1 = some v ∧
        TorchTransportedTo env (v raw) raw y)

open Classical in
/-- Lower and upper bounds of the inducing points of `density_estimation` in the torch class: the
forward box where the backward particles have no spread, else the hull of both boxes. -/
noncomputable def tlow (z b : Fin d → Fin N → ℝ) (a : Fin d) : ℝ :=
  if lo (b a) = hi (b a) then lo (z a) else min (lo (z a)) (lo (b a))
open Classical in
@[inherit_doc tlow] noncomputable def thigh (z b : Fin d → Fin N → ℝ) (a : Fin d) : ℝ :=
  if lo (b a) = hi (b a) then hi (z a) else max (hi (z a)) (hi (b a))

/-- Scores used by the backward simulation of the torch class. -/
noncomputable def tscoreRho (z b : Fin d → Fin N → ℝ) (u : Fin M → Fin d → ℝ) :=
  tcloudScore z (tinducing (tlow z b) (thigh z b) u) b
@[inherit_doc tscoreRho] noncomputable def tscoreB (z b : Fin d → Fin N → ℝ)
    (u : Fin M → Fin d → ℝ) :=
  tcloudScore b (tinducing (fun a => min (lo (z a)) (lo (b a))) (fun a => max (hi (z a)) (hi (b a))) u) b

/-- The recurrence of the backward flow of the torch class. -/
def TorchBackwardRec (env : Env ρ ℝ) (c : Cfg d N M ℝ) (k : ℕ)
    (Z B : ℕ → Option (Fin d → Fin N → ℝ)) (t : ℕ → Option ℝ) (rs : ℕ → ρ) : Prop :=
  ∀ j z b y tj, 1 ≤ j → j + 2 ≤ k → Z (j+1) = some z → B (j+1) = some b → B j = some y →
    t (j+1) = some tj →
    ((j + 2 = k ∨ c.deterministic = false) →
      (Spread z → y = fun a n => b a n - c.f.call2 b tj a n * (1/1000)
        + 1/1000 * c.g^2 * tscoreRho z b (tunifs env d M (rs j)) a n
        + c.g * (Real.sqrt (1/1000) * normals env d N (tunifsNext env d M (rs j)) a n)) ∧
      rs (j-1) = normalsNext env d N (tunifsNext env d M (rs j))) ∧
    (¬ (j + 2 = k ∨ c.deterministic = false) →
      (Spread z → Spread b → y = fun a n => b a n - 1/1000 * (c.f.call2 b tj a n
        - c.g^2 * tscoreRho z b (tunifs env d M (rs j)) a n
        + c.g^2/2 * tscoreB z b (tunifs env d M (tunifsNext env d M (rs j))) a n)) ∧
      rs (j-1) = tunifsNext env d M (tunifsNext env d M (rs j)))

end DPFC.Spec
