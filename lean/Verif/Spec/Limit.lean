import Verif.Model.DPFC
import Mathlib.Topology.Instances.Real.Lemmas

/-!
# Specification vocabulary for limits of runs

Families of arguments, drifts and stored flows, indexed by `i` and approaching a limit along a filter `F` (for
instance a sequence, or all points near a point).
-/

namespace DPFC.Spec
open Filter Topology

variable {ι : Type} {d N M : ℕ}

/-- The drifts `f i` approach `f0`: where the arguments converge, the values converge. -/
def DriftApproach (F : Filter ι) (f : ι → Drift d N ℝ) (f0 : Drift d N ℝ) : Prop :=
  ∀ (t : ℝ) (X : ι → Fin d → Fin N → ℝ) (X0 : Fin d → Fin N → ℝ), Tendsto X F (𝓝 X0) →
    Tendsto (fun i => (f i).call2 (X i) t) F (𝓝 (f0.call2 X0 t))

/-- The arguments `c i` differ from `c0` only in initial and target state, drift and noise amplitude, and these
approach those of `c0`. -/
structure CfgApproach (F : Filter ι) (c : ι → Cfg d N M ℝ) (c0 : Cfg d N M ℝ) : Prop where
  same : ∀ i, c i = { c0 with y1 := (c i).y1, y2 := (c i).y2, f := (c i).f, g := (c i).g }
  y1 : Tendsto (fun i => (c i).y1) F (𝓝 c0.y1)
  y2 : Tendsto (fun i => (c i).y2) F (𝓝 c0.y2)
  g : Tendsto (fun i => (c i).g) F (𝓝 c0.g)
  f : DriftApproach F (fun i => (c i).f) c0.f

/-- The stored flows `T i` approach `T0`, slice by slice. -/
def TrajApproach (F : Filter ι) (T : ι → Traj d N ℝ) (T0 : Traj d N ℝ) : Prop :=
  (∀ᶠ i in F, (T i).length = T0.length) ∧
  ∀ j (h0 : j < T0.length) a n, Tendsto (fun i => ((T i)[j]?.getD fun _ _ => 0) a n) F (𝓝 (T0[j] a n))

end DPFC.Spec
