import Verif.Model.Base
import Verif.Spec.Score
import Mathlib.Analysis.SpecialFunctions.Sqrt
import Mathlib.Order.ConditionallyCompleteLattice.Basic

/-!
# Specification vocabulary for particle clouds over the reals

A cloud is a `d x N` array; `x a n` is coordinate `a` of particle `n`.
-/

namespace DPFC.Spec

variable {d N M : ℕ}

/-- Mean of a list of values. -/
noncomputable def avg (v : Fin N → ℝ) : ℝ := (∑ i, v i) / N

/-- Population variance. -/
noncomputable def variance (v : Fin N → ℝ) : ℝ := (∑ i, (v i - avg v) ^ 2) / N

/-- Population standard deviation. -/
noncomputable def sdev (v : Fin N → ℝ) : ℝ := Real.sqrt (variance v)

/-- Smallest and largest value. -/
noncomputable def lo (v : Fin N → ℝ) : ℝ := ⨅ i, v i
@[inherit_doc lo] noncomputable def hi (v : Fin N → ℝ) : ℝ := ⨆ i, v i

/-- Particle `n` of a cloud as a point. -/
def particle (x : Fin d → Fin N → ℝ) (n : Fin N) : Fin d → ℝ := fun a => x a n

/-- The `m`-th inducing point built from standard uniforms `u a m`: uniformly between `l a` and
`h a` in each coordinate. -/
def inducing (l h : Fin d → ℝ) (u : Fin d → Fin M → ℝ) (m : Fin M) : Fin d → ℝ :=
  fun a => l a + (h a - l a) * u a m

/-- Sample standard deviation (divisor `N-1`). -/
noncomputable def sampleSdev (v : Fin N → ℝ) : ℝ := Real.sqrt ((∑ i, (v i - avg v) ^ 2) / (N - 1))

/-- Standard normals for a `d x N` cloud, drawn row by row from the random state `r`, and the random
state after these draws. -/
abbrev normals {ρ : Type} (env : Env ρ ℝ) (d N : Nat) (r : ρ) : Mat d N ℝ :=
  (drawVec (drawVec env.normal N) d r).1
@[inherit_doc normals] abbrev normalsNext {ρ : Type} (env : Env ρ ℝ) (d N : Nat) (r : ρ) : ρ :=
  (drawVec (drawVec env.normal N) d r).2

/-- Standard uniforms for `d x M` inducing coordinates, drawn row by row (numpy order), and the
random state after these draws. -/
abbrev unifs {ρ : Type} (env : Env ρ ℝ) (d M : Nat) (r : ρ) : Mat d M ℝ :=
  (drawVec (drawVec env.uniform M) d r).1
@[inherit_doc unifs] abbrev unifsNext {ρ : Type} (env : Env ρ ℝ) (d M : Nat) (r : ρ) : ρ :=
  (drawVec (drawVec env.uniform M) d r).2

/-- Standard uniforms for `M x d` inducing coordinates, point by point (torch order), and the
random state after these draws. -/
abbrev tunifs {ρ : Type} (env : Env ρ ℝ) (d M : Nat) (r : ρ) : Mat M d ℝ :=
  (drawVec (drawVec env.uniform d) M r).1
@[inherit_doc tunifs] abbrev tunifsNext {ρ : Type} (env : Env ρ ℝ) (d M : Nat) (r : ρ) : ρ :=
  (drawVec (drawVec env.uniform d) M r).2

/-- Score estimate of the cloud `x` at the points of the cloud `y`, with inducing points `P` and
lengthscales `l`, regularisation `C = 1e-3`. -/
noncomputable def cloudScoreL (l : Fin d → ℝ) (x : Fin d → Fin N → ℝ) (P : Fin M → Fin d → ℝ)
    (y : Fin d → Fin N → ℝ) : Fin d → Fin N → ℝ :=
  fun a n => score (1/1000) l (particle x) P a (particle y n)

/-- Score estimate of the cloud `x` at the points of the cloud `y`, with inducing points `P`,
lengthscales twice the standard deviations of `x`, regularisation `C = 1e-3`. -/
noncomputable def cloudScore (x : Fin d → Fin N → ℝ) (P : Fin M → Fin d → ℝ)
    (y : Fin d → Fin N → ℝ) : Fin d → Fin N → ℝ :=
  fun a n => score (1/1000) (fun k => 2 * sdev (x k)) (particle x) P a (particle y n)

end DPFC.Spec
