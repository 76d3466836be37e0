import Verif.Inst.Real
import Verif.Inst.XR

/-!
# Sizes of controls

Reference notions for C101, independent of the model: entries of a stored array, Euclidean size of one control, total
and mean squared size. `k` is the number of stored times.
-/

namespace DPFC.Spec

variable {d R : ℕ}

/-- Entry `a` of repetition `r` at time index `t` of an array with slices `u`. -/
def entry (u : List (Mat d R ℝ)) (t : ℕ) (a : Fin d) (r : Fin R) : ℝ := (u.getD t fun _ _ => 0) a r

/-- Euclidean norm of the control of repetition `r` at time index `t`. -/
noncomputable def csize (u : List (Mat d R ℝ)) (r : Fin R) (t : ℕ) : ℝ := √(∑ a, entry u t a r ^ 2)

/-- The numbers of an array with special values: NaN becomes zero, finite values are kept. -/
noncomputable def nanToZero : XR → ℝ
  | .fin a => a
  | _ => 0

/-- Neither of the infinities. -/
def NotInf (x : XR) : Prop := x ≠ .pinf ∧ x ≠ .ninf

end DPFC.Spec
