import Verif.Spec.Symmetry

/-!
# Specification vocabulary for symmetries of problems with a path constraint

Complements `Spec/Symmetry.lean` by the arguments used only when reweighting: the path constraint, the true drift and the
optimal-transport solver.
-/

namespace DPFC.Spec.Symmetry
variable {ρ ρ' : Type} {d N M : ℕ} (S : Symmetry d N M)

/-- The path constraint `U'` in the new coordinates charges every particle what `U` charged it in the old ones. Both are
missing or both are given. -/
def SameCost : Option (Constraint d N ℝ) → Option (Constraint d N ℝ) → Prop
  | none, none => True
  | some U, some U' => ∀ x t k, U'.call2 (S.cloud x) t k = U.call2 x t (S.part k)
  | _, _ => False

/-- The optional drift `f'` is the optional drift `f` in the new coordinates. -/
def SameDrift : Option (Drift d N ℝ) → Option (Drift d N ℝ) → Prop
  | none, none => True
  | some f, some f' => ∀ x t, f'.call2 (S.cloud x) t = S.cloud (f.call2 x t)
  | _, _ => False

/-- The problem `c'` is the problem `c` in the new coordinates, path constraint and true drift included. -/
structure PosesAll (c c' : Cfg d N M ℝ) : Prop where
  same : c' = { c with y1 := S.point c.y1, y2 := S.point c.y2, f := c'.f, U := c'.U, fTrue := c'.fTrue }
  drift : ∀ x t, c'.f.call2 (S.cloud x) t = S.cloud (c.f.call2 x t)
  cost : S.SameCost c.U c'.U
  trueDrift : S.SameDrift c.fTrue c'.fTrue

/-- The solver of `env'` answers a renumbered transport problem between the particles with the renumbered answer of the
solver of `env` (the same exception if that raises one). If the particles keep their numbers this only says that both give
the same answers. -/
def SameSolver (env : Env ρ ℝ) (env' : Env ρ' ℝ) : Prop :=
  ∀ (w b : Fin N → ℝ) (D : Fin N → Fin N → ℝ),
    env'.emd (fun i => w (S.part i)) (fun i => b (S.part i)) (fun i j => D (S.part i) (S.part j))
      = (env.emd w b D).map fun T i j => T (S.part i) (S.part j)

/-- Two outcomes of constructions in the old and in the new coordinates: the same exception, or objects on the same time
grid whose flows correspond, with coupled generator states afterwards. -/
def SameOutcome (R : ρ → ρ' → Prop) : Except PyErr (Obj d N M ℝ × ρ) → Except PyErr (Obj d N M ℝ × ρ') → Prop
  | .error e, .error e' => e = e'
  | .ok (o, r), .ok (o', r') => o'.timegrid = o.timegrid ∧ o'.Z = o.Z.map S.cloud ∧ o'.B = o.B.map S.cloud ∧
      o'.Ztr = o.Ztr.map (List.map S.cloud) ∧ R r r'
  | _, _ => False

end DPFC.Spec.Symmetry
