import Verif.Model.Loop
import Verif.Model.TorchDPFC

/-!
# The limit-cycle example

`DeterministicParticleFlowControl/script_1.py` (S.py below), its longer version
`notebooks/Stochastic_bridge_on_Limit_Cycle_2D/Bridge_2D_on_Limit_Cycle.py` (E.py) and the torch version
`tests/test_torch_bridge_on_LC.py` (L.py): a long path of a planar system with a limit cycle is simulated, two of its
states are taken as initial and terminal states of a bridge, and the constrained system is simulated again with the
controls. The numbers written in the three files are parameters here (`LcSetup`); plots are left out.
-/

namespace DPFC
section
variable {K ρ : Type} [Add K] [Sub K] [Mul K] [Div K] [Neg K] [NumOps K]
variable {N M n : Nat}

/-- The drift `f` on a `2 x n` array, `n = 1` for a single state (S.py:28-31; E.py:33-36; L.py:15-25). `t` is not
used. -/
def lcF (x : Mat 2 n K) : Mat 2 n K := fun a j =>
  if a = 0 then -(x 1 j) + x 0 j * (lit 1 1 - sq (x 0 j) - sq (x 1 j))
  else x 0 j + x 1 j * (lit 1 1 - sq (x 0 j) - sq (x 1 j))

/-- `f` as an argument of the constructor: `t=0` is optional (S.py:28; E.py:33; L.py:15). -/
def lcDrift : Drift 2 N K where
  call2 x _ := lcF x
  call1 := some fun v a => lcF (n := 1) (fun b _ => v b) a 0

/-- `glnfss(x, sigma)`, "analytic gradient for passing for comparison calculations" (S.py:33-36; L.py:27-30). -/
def lcScore (x : Mat 2 n K) (sigma : K) : Mat 2 n K := fun a j =>
  -(x a j) * (sq (x 0 j) + sq (x 1 j) - lit 1 1) / (lit 1 2 * sq sigma)

/-- Body of the loop filling `F` (S.py:51-55; E.py:54-59; L.py:45-49). -/
def refBody (env : Env ρ K) (g : K) (x0 : Fin 2 → K) (ti : Nat) (_t : K) (F : Traj 2 1 K) : RandM ρ (Traj 2 1 K) :=
  if ti = 0 then (setSlice F ti fun a _ => x0 a : Except PyErr (Traj 2 1 K))
  else do
    let x ← (pyGet F ((ti : Int) - 1) : Except PyErr (Mat 2 1 K))
    let xi ← normalVec env (NumOps.sqrt dtc) 2
    (setSlice F ti fun a j => x a j + dtc * lcF x a j + g * xi a : Except PyErr (Traj 2 1 K))

/-- `timegridall = np.arange(0, T, dt)` (S.py:47; E.py:51; L.py:41). -/
def refGrid (T : K) : List K := npArange (lit 0 1) T dtc

/-- The reference path `F` (S.py:47-55; E.py:51-59; L.py:41-49). -/
def refPath (env : Env ρ K) (g : K) (x0 : Fin 2 → K) (T : K) : RandM ρ (Traj 2 1 K) :=
  enumLoop (refBody env g x0) 0 (refGrid T) (zerosT 2 1 (refGrid T).length)

/-- The numbers written in the scripts: `T`, `x0`, `g`, `steps`, the index of `t1` in `timegridall` and the index of
`y1` in `F` (S.py:43-64: 500, (0, -1), 0.1, 2000, 10, 100; E.py:39-81: 500, (0, -1), 0.1, 4000, 100, 100; L.py:37-58: 50,
(0, -1), 0.1, 500, 100, 100). -/
structure LcSetup (K : Type) where
  T : K
  x0 : Fin 2 → K
  g : K
  steps : Nat
  timeIx : Nat
  stateIx : Nat

/-- The arguments of the constructor call (S.py:68; E.py:85; L.py:62): all other options have their default values
(F.py:156, 811-814). -/
def lcCfg (g t1 t2 : K) (y1 y2 : Fin 2 → K) : Cfg 2 N M K where
  t1 := t1
  t2 := t2
  y1 := y1
  y2 := y2
  f := lcDrift
  g := g
  reweight := false
  U := none
  densEst := "nonparametric"
  reject := true
  kern := "RBF"
  fTrue := none
  brownBridge := false
  deterministic := true

/-- `t1 = timegridall[..]`, `t2`, `y1 = F[:, ..]`, `y2` and the call arguments (S.py:61-68; E.py:74-85; L.py:55-62). -/
def lcArgs (s : LcSetup K) (F : Traj 2 1 K) : Except PyErr (Cfg 2 N M K) := do
  let t1 ← pyGet (refGrid s.T) s.timeIx
  let t2 ← pyGet (refGrid s.T) ((s.timeIx : Int) + s.steps)
  let y1 ← pyGet F s.stateIx
  let y2 ← pyGet F ((s.stateIx : Int) + s.steps)
  pure (lcCfg s.g t1 t2 (fun a => y1 a 0) (fun a => y2 a 0))

/-- The script up to the object `bridg2d`: the path `F` and the object (S.py:39-68; E.py:38-85). -/
def lcBridge (env : Env ρ K) (N M : Nat) (s : LcSetup K) : RandM ρ (Traj 2 1 K × Obj 2 N M K) := do
  let F ← refPath env s.g s.x0 s.T
  let c ← (lcArgs s F : Except PyErr (Cfg 2 N M K))
  let o ← construct env c
  pure (F, o)

/-- The torch script (L.py:32-62). -/
def lcTorch (env : Env ρ K) (N M : Nat) (s : LcSetup K) : RandM ρ (Traj 2 1 K × Obj 2 N M K) := do
  let F ← refPath env s.g s.x0 s.T
  let c ← (lcArgs s F : Except PyErr (Cfg 2 N M K))
  let o ← torchConstruct env c
  pure (F, o)

/-- The whole of E.py: path, object and the controlled and uncontrolled ensembles of `reps = n` paths
(E.py:38-175). -/
def lcExample (env : Env ρ K) (N M n : Nat) (s : LcSetup K) : RandM ρ (Traj 2 1 K × Obj 2 N M K × Paths 2 n K) := do
  let (F, o) ← lcBridge env N M s
  let P ← closedLoop env o (lcF (n := n)) s.g o.cfg.y1
  pure (F, o, P)

end
end DPFC
