import Verif.Spec.Arrays
import Verif.Spec.TorchTrue

/-!
# Array-valued diffusion coefficients: the runs of the torch class

`G a n` is the coefficient of coordinate `a` of particle `n`. Compare `Verif.Spec.Recurrence` and
`Verif.Spec.TorchTrue`, where the coefficient is a number.
-/

namespace DPFC.Spec

variable {ρ : Type} {d N M : ℕ}

/-- An Euler-Maruyama step with coefficients `G`. -/
noncomputable def noisyA (f : Drift d N ℝ) (G x : Fin d → Fin N → ℝ) (t : ℝ) (ξ : Fin d → Fin N → ℝ) :
    Fin d → Fin N → ℝ :=
  fun a n => x a n + 1/1000 * f.call2 x t a n + G a n * (Real.sqrt (1/1000) * ξ a n)

/-- One deterministic forward step of the torch class before reweighting. -/
def TorchForwardStepA (env : Env ρ ℝ) (M : ℕ) (f : Drift d N ℝ) (G : Fin d → Fin N → ℝ) (i : ℕ) (t : ℝ)
    (x y : Fin d → Fin N → ℝ) (r r' : ρ) : Prop :=
  (i = 0 → y = noisyA f G x t (normals env d N r) ∧ r' = normalsNext env d N r) ∧
  (i ≠ 0 → (∀ a, lo (x a) < hi (x a)) ∧ r' = tunifsNext env d M r ∧
    y = fun a n => x a n + 1/1000 * (f.call2 x t a n - (G a n)^2/2 * tcloudScore x
      (tinducing (fun a => lo (x a)) (fun a => hi (x a)) (tunifs env d M r)) x a n))

/-- The recurrence of the deterministic forward flow. -/
def TorchForwardRecA (env : Env ρ ℝ) (c : Cfg d N M ℝ) (G : Fin d → Fin N → ℝ)
    (Z : ℕ → Option (Fin d → Fin N → ℝ)) (t : ℕ → Option ℝ) (rs : ℕ → ρ) : Prop :=
  ∀ i x y ti, Z i = some x → Z (i+1) = some y → t i = some ti →
    ∃ raw, TorchForwardStepA env M c.f G i ti x raw (rs i) (rs (i+1)) ∧
      (c.reweight = false → y = raw) ∧
      (c.reweight = true → ∃ U, c.U = some U ∧
        TorchTransportedTo env (fun n => U.call2 raw (ti + 1/1000) n * (1/1000)) raw y)

/-- One step of the true-drift flow (the score has coordinates and particles exchanged, see C12). -/
def TorchTrueStepA (env : Env ρ ℝ) (M : ℕ) (f : Drift d N ℝ) (G : Fin d → Fin N → ℝ) (i : ℕ) (t : ℝ)
    (x y : Fin d → Fin N → ℝ) (r r' : ρ) : Prop :=
  (i = 0 → y = noisyA f G x t (normals env d N r) ∧ r' = normalsNext env d N r) ∧
  (i ≠ 0 → (∀ a, lo (x a) < hi (x a)) ∧ r' = tunifsNext env d M r ∧
    ∀ a n, ∃ w, SwappedScore x
        (tinducing (fun a => lo (x a)) (fun a => hi (x a)) (tunifs env d M r)) a n w ∧
      y a n = x a n + 1/1000 * (f.call2 x t a n - (G a n)^2/2 * w))

/-- The recurrence of the true-drift flow: no reweighting. -/
def TorchTrueRecA (env : Env ρ ℝ) (c : Cfg d N M ℝ) (G : Fin d → Fin N → ℝ)
    (Z : ℕ → Option (Fin d → Fin N → ℝ)) (t : ℕ → Option ℝ) (rs : ℕ → ρ) : Prop :=
  ∃ f, c.fTrue = some f ∧ ∀ i x y ti, Z i = some x → Z (i+1) = some y → t i = some ti →
    TorchTrueStepA env M f G i ti x y (rs i) (rs (i+1))

/-- The recurrence of the stochastic forward flow. -/
def TorchStochRecA (env : Env ρ ℝ) (c : Cfg d N M ℝ) (G : Fin d → Fin N → ℝ)
    (Z : ℕ → Option (Fin d → Fin N → ℝ)) (t : ℕ → Option ℝ) (rs : ℕ → ρ) : Prop :=
  ∀ i x y ti, Z i = some x → Z (i+1) = some y → t i = some ti →
    ∃ raw, raw = noisyA c.f G x ti (normals env d N (rs i)) ∧ rs (i+1) = normalsNext env d N (rs i) ∧
      (c.reweight = false → y = raw) ∧
      (c.reweight = true → ∃ U v, c.U = some U ∧ U.call1 = some v ∧
        TorchTransportedTo env (v raw) raw y)

/-- The recurrence of the backward flow. -/
def TorchBackwardRecA (env : Env ρ ℝ) (c : Cfg d N M ℝ) (G : Fin d → Fin N → ℝ) (k : ℕ)
    (Z B : ℕ → Option (Fin d → Fin N → ℝ)) (t : ℕ → Option ℝ) (rs : ℕ → ρ) : Prop :=
  ∀ j z b y tj, 1 ≤ j → j + 2 ≤ k → Z (j+1) = some z → B (j+1) = some b → B j = some y →
    t (j+1) = some tj →
    ((j + 2 = k ∨ c.deterministic = false) →
      (Spread z → y = fun a n => b a n - c.f.call2 b tj a n * (1/1000)
        + 1/1000 * (G a n)^2 * tscoreRho z b (tunifs env d M (rs j)) a n
        + G a n * (Real.sqrt (1/1000) * normals env d N (tunifsNext env d M (rs j)) a n)) ∧
      rs (j-1) = normalsNext env d N (tunifsNext env d M (rs j))) ∧
    (¬ (j + 2 = k ∨ c.deterministic = false) →
      (Spread z → Spread b → y = fun a n => b a n - 1/1000 * (c.f.call2 b tj a n
        - (G a n)^2 * tscoreRho z b (tunifs env d M (rs j)) a n
        + (G a n)^2/2 * tscoreB z b (tunifs env d M (tunifsNext env d M (rs j))) a n)) ∧
      rs (j-1) = tunifsNext env d M (tunifsNext env d M (rs j)))

end DPFC.Spec
