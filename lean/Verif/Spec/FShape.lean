import Verif.Spec.Arrays
import Verif.Model.FShape

/-! How the values of drift and constraint functions are read by broadcasting. -/

namespace DPFC.Spec
variable {K : Type} {d N M : ℕ}

/-- The drift of every coordinate of every particle that the arrays returned by `f` stand for. -/
def readDrift (f : ADrift d N K) : Drift d N K :=
  ⟨fun x t => coeff (f.call2 x t) d N, f.call1.map fun f1 x => coeff1 (f1 x) d⟩

/-- The value at every particle that the arrays returned by `U` stand for. -/
def readConstraint (U : AConstraint d N K) : Constraint d N K :=
  ⟨fun x t => coeff1 (U.call2 x t) N, U.call1.map fun u x => coeff1 (u x) N⟩

/-- The configuration with these functions. -/
def readCfg (c : Cfg d N M K) (F : AFns d N K) : Cfg d N M K :=
  { c with f := readDrift F.f, fTrue := F.fTrue.map readDrift, U := F.U.map readConstraint }

/-- All values of the functions on whole clouds have a shape that broadcasts. -/
def GoodShapes (F : AFns d N K) : Prop :=
  (∀ x t, BroadcastsTo (F.f.call2 x t).rshape [N, d]) ∧
  (∀ ft, F.fTrue = some ft → ∀ x t, BroadcastsTo (ft.call2 x t).rshape [N, d]) ∧
  (∀ U, F.U = some U → (∀ x t, BroadcastsTo (U.call2 x t).rshape [N]) ∧
    ∀ u, U.call1 = some u → ∀ x, BroadcastsTo (u x).rshape [N])

end DPFC.Spec
