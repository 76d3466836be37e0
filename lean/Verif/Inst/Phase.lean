import Verif.Inst.Real
import Verif.Model.Kuramoto

/-! Angles in exact real arithmetic. -/

namespace DPFC

/-- `np.pi` and `%` (floored remainder, as in Python) over the reals
(systematic_multi_N_kuramoto_inhomogeneous_for_cluster.py:644). Simplification: no rounding. -/
noncomputable instance instPhaseOpsReal : PhaseOps ℝ where
  pi := Real.pi
  mod x y := x - y * ⌊x / y⌋

end DPFC
