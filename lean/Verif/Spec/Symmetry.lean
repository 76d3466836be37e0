import Verif.Spec.Control
import Mathlib.Logic.Equiv.Defs

/-!
# Specification vocabulary for mirror images and relabellings

The coordinates may be exchanged and mirrored, the particles and the inducing points renumbered.
-/

namespace DPFC.Spec

/-- A symmetry of the setting: new coordinate `a` is the old coordinate `coord a`, mirrored if `sign a = -1`; new
particle `n` is the old particle `part n`; new inducing point `m` is the old one `ind m`. -/
structure Symmetry (d N M : ℕ) where
  sign : Fin d → ℝ
  unit : ∀ a, sign a = 1 ∨ sign a = -1
  coord : Equiv.Perm (Fin d)
  part : Equiv.Perm (Fin N)
  ind : Equiv.Perm (Fin M)

namespace Symmetry
variable {ρ ρ' : Type} {d N M n : ℕ} (S : Symmetry d N M)

/-- A point in the new coordinates. -/
def point (p : Fin d → ℝ) : Fin d → ℝ := fun a => S.sign a * p (S.coord a)

/-- A cloud in the new coordinates, particles renumbered. -/
def cloud (x : Fin d → Fin N → ℝ) : Fin d → Fin N → ℝ := fun a k => S.sign a * x (S.coord a) (S.part k)

/-- A standard uniform number seen in the new coordinate `a`: mirrored if the coordinate is. -/
noncomputable def flip (a : Fin d) (u : ℝ) : ℝ := if S.sign a = 1 then u else 1 - u

/-- Controls at `n` points in the new coordinates. -/
def control (u : Fin d → Fin n → ℝ) : Fin d → Fin n → ℝ := fun a j => S.sign a * u (S.coord a) j

/-- The problem `c'` is the problem `c` in the new coordinates: same options, transformed states, and a drift that
maps the transformed cloud to the transformed drift. -/
structure Poses (c c' : Cfg d N M ℝ) : Prop where
  same : c' = { c with y1 := S.point c.y1, y2 := S.point c.y2, f := c'.f }
  drift : ∀ x t, c'.f.call2 (S.cloud x) t = S.cloud (c.f.call2 x t)

/-- Two random generators whose states are coupled by `R`: from coupled states, the second delivers the normals of the
first in the new coordinates and the mirrored uniforms (drawn row by row, as numpy does), and the states after these draws
are coupled again. -/
structure Coupled (env : Env ρ ℝ) (env' : Env ρ' ℝ) (R : ρ → ρ' → Prop) : Prop where
  normals : ∀ r r', R r r' → Spec.normals env' d N r' = S.cloud (Spec.normals env d N r)
  normalsNext : ∀ r r', R r r' → R (Spec.normalsNext env d N r) (Spec.normalsNext env' d N r')
  unifs : ∀ r r', R r r' → ∀ a m, Spec.unifs env' d M r' a m = S.flip a (Spec.unifs env d M r (S.coord a) (S.ind m))
  unifsNext : ∀ r r', R r r' → R (Spec.unifsNext env d M r) (Spec.unifsNext env' d M r')

/-- The same for the torch class, which draws the uniforms point by point. -/
structure TorchCoupled (env : Env ρ ℝ) (env' : Env ρ' ℝ) (R : ρ → ρ' → Prop) : Prop where
  normals : ∀ r r', R r r' → Spec.normals env' d N r' = S.cloud (Spec.normals env d N r)
  normalsNext : ∀ r r', R r r' → R (Spec.normalsNext env d N r) (Spec.normalsNext env' d N r')
  unifs : ∀ r r', R r r' → ∀ m a, Spec.tunifs env' d M r' m a = S.flip a (Spec.tunifs env d M r (S.ind m) (S.coord a))
  unifsNext : ∀ r r', R r r' → R (Spec.tunifsNext env d M r) (Spec.tunifsNext env' d M r')

end Symmetry
end DPFC.Spec
