import Verif.Spec.Recurrence
import Mathlib.Analysis.SpecialFunctions.Log.Deriv
import Mathlib.Analysis.SpecialFunctions.Trigonometric.Basic

/-!
# Specification vocabulary for the queries `calculate_u` and `check_if_covered`

Points are given as rows: `x j a` is coordinate `a` of query point `j`; the control `u a j` is
coordinate `a` of the control at point `j`.
-/

namespace DPFC.Spec
variable {ρ : Type} {d N M n : ℕ}

/-- Python indexing of a sequence: negative indices count from the end, `none` out of range. -/
def pyAt {α : Type} (l : List α) (i : Int) : Option α :=
  if 0 ≤ i then l[i.toNat]?
  else if 0 ≤ i + l.length then l[(i + l.length).toNat]? else none

/-- Slice `ti` of the flow that plays the role of the uncontrolled flow in `calculate_u`: the true-drift
flow in reweighted Brownian-bridge mode, otherwise the forward flow. -/
def reference {K : Type} (o : Obj d N M K) (ti : Int) : Option (Mat d N K) :=
  if o.cfg.reweight && o.cfg.brownBridge then o.Ztr.bind fun T => pyAt T ti else pyAt o.Z ti

/-- The time indices at which the flows are treated as Gaussian. -/
def Edge (k : ℕ) (ti : Int) : Prop := ti ≤ 5 ∨ (k : Int) - 5 ≤ ti

instance (k : ℕ) (ti : Int) : Decidable (Edge k ti) := by unfold Edge; infer_instance

/-- Density of the normal distribution with mean `μ` and standard deviation `s`. -/
noncomputable def normalPdf (μ s x : ℝ) : ℝ :=
  Real.exp (-(x - μ) ^ 2 / (2 * s ^ 2)) / (s * Real.sqrt (2 * Real.pi))

/-- Derivative of the logarithm of the normal density with the mean and standard deviation of the
values `v`. -/
noncomputable def gaussScore (v : Fin N → ℝ) (x : ℝ) : ℝ :=
  deriv (fun y => Real.log (normalPdf (avg v) (sdev v) y)) x

/-- The same with the sample standard deviation (divisor `N-1`). -/
noncomputable def sampleGaussScore (v : Fin N → ℝ) (x : ℝ) : ℝ :=
  deriv (fun y => Real.log (normalPdf (avg v) (sampleSdev v) y)) x

/-- Bounds of the inducing points of the torch class for the clouds `z` and `b`: the range of both clouds
together. -/
noncomputable def hullLow (z b : Fin d → Fin N → ℝ) (a : Fin d) : ℝ := min (lo (z a)) (lo (b a))
@[inherit_doc hullLow] noncomputable def hullHigh (z b : Fin d → Fin N → ℝ) (a : Fin d) : ℝ :=
  max (hi (z a)) (hi (b a))

/-- `v` lies between `p` and `q`, whichever is smaller. -/
def Between (p q v : ℝ) : Prop := min p q ≤ v ∧ v ≤ max p q

/-- Score estimate of the cloud `x` at single points (rows of `y`), lengthscales twice the standard
deviations of `x`, `C = 1e-3`. -/
noncomputable def pointScore (x : Fin d → Fin N → ℝ) (P : Fin M → Fin d → ℝ)
    (y : Fin n → Fin d → ℝ) : Fin d → Fin n → ℝ :=
  fun a j => score (1/1000) (fun k => 2 * sdev (x k)) (particle x) P a (y j)

/-- The same with the sample standard deviation (torch). -/
noncomputable def tpointScore (x : Fin d → Fin N → ℝ) (P : Fin M → Fin d → ℝ)
    (y : Fin n → Fin d → ℝ) : Fin d → Fin n → ℝ :=
  fun a j => score (1/1000) (fun k => 2 * sampleSdev (x k)) (particle x) P a (y j)

/-- All uniform draws of the environment lie in `[0, 1)`. -/
def UnitUniform (env : Env ρ ℝ) : Prop := ∀ r, 0 ≤ (env.uniform r).1 ∧ (env.uniform r).1 < 1

/-- Bounds of the inducing points of the numpy class for the clouds `z` and `b`. -/
noncomputable def ibLow (z b : Fin d → Fin N → ℝ) (a : Fin d) : ℝ := max (lo (z a)) (lo (b a))
@[inherit_doc ibLow] noncomputable def ibHigh (z b : Fin d → Fin N → ℝ) (a : Fin d) : ℝ :=
  min (hi (z a)) (hi (b a))

/-- The point at which the forward score of component `a` is evaluated in reweighted Brownian-bridge
mode for `dim = 2`: both coordinates are clipped against mixed-up bounds, built from the range of the
true-drift particles in coordinate `a` alone. -/
noncomputable def bridgePoint (z : Fin 2 → Fin N → ℝ) (a : Fin 2) (y : Fin 2 → ℝ) : Fin 2 → ℝ :=
  if a = 0 then ![min 0 (max (y 0) (lo (z 0))), min 0 (max (y 1) (hi (z 0)))]
  else ![min (lo (z 1)) (max (y 0) 0), min (hi (z 1)) (max (y 1) 0)]

end DPFC.Spec
