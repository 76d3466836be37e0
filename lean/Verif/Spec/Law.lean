import Verif.Spec.Recurrence
import Mathlib.Probability.Distributions.Gaussian.Real
import Mathlib.Probability.Independence.InfinitePi

/-!
# Specification vocabulary for random streams

A stream of random numbers is a tape; the library reads normals and uniforms one after the other.
-/

namespace DPFC.Spec
open MeasureTheory ProbabilityTheory

variable {d N M : ℕ}

/-- A transport solver. -/
abbrev Solver : Type := {n : ℕ} → (Fin n → ℝ) → (Fin n → ℝ) → Mat n n ℝ → Except PyErr (Mat n n ℝ)

/-- The generator that reads its normals off the tape `ω` and its uniforms off the tape `υ`; its state is the number of
normals and of uniforms read so far. -/
def tapeEnv (ω υ : ℕ → ℝ) (emd : Solver) : Env (ℕ × ℕ) ℝ where
  normal s := (ω s.1, s.1 + 1, s.2)
  uniform s := (υ s.2, s.1, s.2 + 1)
  emd := emd

/-- The law of a tape of independent standard normals. -/
noncomputable def gaussTape : Measure (ℕ → ℝ) := Measure.infinitePi fun _ => gaussianReal 0 1

/-- The law of a `d x N` array of independent normals with means `μ` and variance `v`. -/
noncomputable def normalLaw (μ : Fin d → Fin N → ℝ) (v : NNReal) : Measure (Fin d → Fin N → ℝ) :=
  Measure.pi fun a => Measure.pi fun n => gaussianReal (μ a n) v

/-- The law of a tape of independent uniforms on the unit interval. -/
noncomputable def unifTape : Measure (ℕ → ℝ) := Measure.infinitePi fun _ => volume.restrict (Set.Icc (0:ℝ) 1)

/-- The law of the two tapes: independent. -/
noncomputable def tapes : Measure ((ℕ → ℝ) × (ℕ → ℝ)) := gaussTape.prod unifTape

/-- The tape that reads `w` before position `p` and `ω` from there on. -/
def splice (p : ℕ) (w ω : ℕ → ℝ) : ℕ → ℝ := fun i => if i < p then w i else ω i

/-- The drift acts on each particle separately. -/
def ActsBy (f : Drift d N ℝ) (φ : (Fin d → ℝ) → ℝ → Fin d → ℝ) : Prop :=
  ∀ x t a n, f.call2 x t a n = φ (particle x n) t a

/-- The flows have spread wherever a score is estimated from them. -/
def KeepsSpread (o : Obj d N M ℝ) : Prop :=
  (∀ j x, 1 ≤ j → o.Z[j]? = some x → Spread x) ∧
  ∀ j x, 2 ≤ j → j + 1 < o.timegrid.length → o.B[j]? = some x → Spread x

end DPFC.Spec
