import Verif.Spec.SymReweight
import Verif.Spec.Law

/-!
# Specification vocabulary for the law of reweighted runs
-/

namespace DPFC.Spec
variable {ρ : Type} {d N M : ℕ}

/-- What the user sees of a construction: an exception, or the forward, backward and (if there is one) true-drift flow. -/
abbrev Seen (d N : ℕ) : Type := Except PyErr (Traj d N ℝ × Traj d N ℝ × Option (Traj d N ℝ))

/-- The visible part of an outcome. -/
def seen (x : Except PyErr (Obj d N M ℝ × ρ)) : Seen d N := x.map fun p => (p.1.Z, p.1.B, p.1.Ztr)

/-- The same in new coordinates. -/
def Symmetry.seen (S : Symmetry d N M) (x : Seen d N) : Seen d N :=
  x.map fun p => (p.1.map S.cloud, p.2.1.map S.cloud, p.2.2.map (List.map S.cloud))

/-- A solver whose answers do not depend on the numbering of the particles. -/
def Symmetry.Impartial (S : Symmetry d N M) (emd : Solver) : Prop :=
  ∀ (w b : Fin N → ℝ) (D : Fin N → Fin N → ℝ),
    emd (fun i => w (S.part i)) (fun i => b (S.part i)) (fun i j => D (S.part i) (S.part j))
      = (emd w b D).map fun T i j => T (S.part i) (S.part j)

/-- A path constraint that charges every particle for its own state only. -/
def ChargesBy (U : Constraint d N ℝ) (V : (Fin d → ℝ) → ℝ → ℝ) : Prop := ∀ x t k, U.call2 x t k = V (fun a => x a k) t

end DPFC.Spec
