import Verif.Model.DPFC

/-!
# The closed loop of the example

notebooks/Stochastic_bridge_on_Limit_Cycle_2D/Bridge_2D_on_Limit_Cycle.py:139-175 (E.py below): an ensemble of
controlled and an ensemble of uncontrolled paths is simulated, the controls are queried along the way.
-/

namespace DPFC
section
variable {K ρ : Type} [Add K] [Sub K] [Mul K] [Div K] [Neg K] [NumOps K]
variable {N M d n : Nat}

/-- The arrays `Fcont`, `Fnon` (`dim x (k-1) x reps`) and `used_u` (`dim x k x reps`), each as the list of its
slices `[:, ti]` (E.py:148-153). -/
structure Paths (d n : Nat) (K : Type) where
  cont : Traj d n K
  free : Traj d n K
  used : Traj d n K

/-- One Euler-Maruyama step `x + dt*f(x) + g*normal` (E.py:174-175). `f` is called without time. -/
def freeStep (env : Env ρ K) (f : Mat d n K → Mat d n K) (g : K) (x : Mat d n K) : RandM ρ (Mat d n K) := do
  let xi ← normalMat env (NumOps.sqrt dtc) d n
  pure fun i j => x i j + dtc * f x i j + g * xi i j

/-- One controlled step `x + dt*f(x) + dt*g**2*uu + g*normal` (E.py:172-173). -/
def contStep (env : Env ρ K) (f : Mat d n K → Mat d n K) (g : K) (x u : Mat d n K) : RandM ρ (Mat d n K) := do
  let xi ← normalMat env (NumOps.sqrt dtc) d n
  pure fun i j => x i j + dtc * f x i j + dtc * sq g * u i j + g * xi i j

/-- Body of the loop (E.py:154-175). `ctl x ti` is `bridg2d.calculate_u(x, ti)`. -/
def loopBody (env : Env ρ K) (ctl : Mat n d K → Int → RandM ρ (Mat d n K)) (f : Mat d n K → Mat d n K) (g : K)
    (y1 : Fin d → K) (ti : Nat) (_tt : K) (s : Paths d n K) : RandM ρ (Paths d n K) :=
  if ti = 0 then do
    let F ← (setSlice s.cont ti fun a _ => y1 a : Except PyErr (Traj d n K))
    let G ← (setSlice s.free ti fun a _ => y1 a : Except PyErr (Traj d n K))
    pure ⟨F, G, s.used⟩
  else do
    let x ← (pyGet s.cont ((ti : Int) - 1) : Except PyErr (Mat d n K))
    let uu ← ctl (tr x) ti
    let U ← (setSlice s.used ti uu : Except PyErr (Traj d n K))
    let x' ← contStep env f g x uu
    let F ← (setSlice s.cont ti x' : Except PyErr (Traj d n K))
    let y ← (pyGet s.free ((ti : Int) - 1) : Except PyErr (Mat d n K))
    let y' ← freeStep env f g y
    let G ← (setSlice s.free ti y' : Except PyErr (Traj d n K))
    pure ⟨F, G, U⟩

/-- The simulation of `reps = n` controlled and uncontrolled paths from `y1` (E.py:147-175). -/
def closedLoop (env : Env ρ K) (o : Obj d N M K) (f : Mat d n K → Mat d n K) (g : K) (y1 : Fin d → K) :
    RandM ρ (Paths d n K) :=
  enumLoop (loopBody env (calculateU env o) f g y1) 0 o.timegrid.dropLast
    ⟨zerosT d n (o.timegrid.length - 1), zerosT d n (o.timegrid.length - 1), zerosT d n o.timegrid.length⟩

end
end DPFC
