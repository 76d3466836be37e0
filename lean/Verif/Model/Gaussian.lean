import Verif.Model.DPFC

/-!
# The linear-Gaussian theory script

DeterministicParticleFlowControl/data/scripts_for_plots/evolutionary_process/gaussian_phenotype_compute_theoretical.py
(H.py below): linear drifts, covariance equations, scores and controls of linear-Gaussian bridges with correlated and with
uncorrelated noise (`0`), and their simulation (H.py:18-124). The script is two-dimensional; the model has any dimension.
The matrix square roots `sqrtm` and the solutions of the ODE solvers `odeint`, `odeintw` are arguments of the model.
Left out: plots (from H.py:126), the never called `grad_log_p_Gaussold`.
-/

namespace DPFC

section
variable {K ρ : Type} [Add K] [Sub K] [Mul K] [Div K] [Neg K] [NumOps K]
variable {d n : Nat}

/-- `K0 = np.diag(np.diag(K))` (H.py:31) -/
def diagDiag (A : Mat d d K) : Mat d d K := fun a b => if a = b then A a a else lit 0 1

/-- `A = -2*K @ C` (H.py:47, 50, 64, 68) -/
def minusTwo (Kc C : Mat d d K) : Mat d d K := mm (fun a b => lit (-2) 1 * Kc a b) C

/-- `f(x, t) = -2*K @ C@x` (H.py:46-50), the same for `f0` with `K0`. -/
def gaussDrift (Kc C : Mat d d K) (x : Mat d n K) : Mat d n K := mm (minusTwo Kc C) x

/-- `f_var(C, t)` (H.py:63-65): the argument `C` hides the matrix `C` of the drift. With `s = s' = sigma`; `f_var0`
(H.py:67-69) is the same with `K0`, `s = sigma0`, `s' = sigma`. -/
def gaussVar (Kc s s' : Mat d d K) (C : Mat d d K) : Mat d d K := fun a b =>
  mm (minusTwo Kc C) C a b + mm C (tr (minusTwo Kc C)) a b + mm s (tr s') a b

/-- `grad_log_p_Gauss(x, m_t, C_t)` (H.py:91-94): `-inv(C_t.T + 1e-6*eye) @ (x - m_t)` -/
def gaussScoreM (x : Mat d n K) (m : Fin d → K) (C : Mat d d K) : Except PyErr (Mat d n K) := do
  let I ← NumOps.inv fun a b => tr C a b + lit 1 1000000 * eye a b
  .ok (mm (negM I) fun a j => x a j - m a)

/-- What defines one of the two bridges: noise matrix, forward means and covariances, those of the flow from the target
(H.py:73-84). -/
structure GaussModel (d : Nat) (K : Type) where
  s : Mat d d K
  mt : List (Fin d → K)
  Ct : List (Mat d d K)
  mtb : List (Fin d → K)
  Ctb : List (Mat d d K)

/-- The control `u(x, ti)` (H.py:97-107): `sigma@sigma.T@(grad_log_q(x,ti) - grad_log_p(x,ti))`, `k = timegrid.size`. -/
def gaussCtl (G : GaussModel d K) (k : Nat) (x : Mat d n K) (ti : Int) : Except PyErr (Mat d n K) := do
  let mq ← pyGet G.mtb ((k : Int) - ti - 1)
  let Cq ← pyGet G.Ctb ((k : Int) - ti - 1)
  let q ← gaussScoreM x mq Cq
  let mp ← pyGet G.mt ti
  let Cp ← pyGet G.Ct ti
  let p ← gaussScoreM x mp Cp
  .ok (mm (mm G.s (tr G.s)) fun a j => q a j - p a j)

/-- One controlled path ensemble and the one of the uncorrelated theory: `AFcont`, `AFcont0` (H.py:112-113). -/
structure GaussPaths (d n : Nat) (K : Type) where
  A : Traj d n K
  A0 : Traj d n K

/-- One update: `x + h*f(x) + h*u(x, ti-1) + g@noise` (H.py:123-124). -/
def gaussStep (env : Env ρ K) (f : Mat d n K → Mat d n K) (s : Mat d d K) (G : GaussModel d K) (k ti : Nat)
    (X : Traj d n K) : RandM ρ (Traj d n K) := do
  let x ← (pyGet X ((ti : Int) - 1) : Except PyErr (Mat d n K))
  let u ← (gaussCtl G k x ((ti : Int) - 1) : Except PyErr (Mat d n K))
  let xi ← normalMat env (NumOps.sqrt dtc) d n
  (setSlice X ti (fun a j => x a j + dtc * f x a j + dtc * u a j + mm s xi a j) : Except PyErr (Traj d n K))

/-- Body of the simulation loop (H.py:114-124): the drift `f` and the noise matrix of `G` are used for both ensembles, the
ensemble of the uncorrelated theory `G0` is drawn first. -/
def gaussBody (env : Env ρ K) (f : Mat d n K → Mat d n K) (G G0 : GaussModel d K) (y1 : Fin d → K) (k ti : Nat) (_tt : K)
    (s : GaussPaths d n K) : RandM ρ (GaussPaths d n K) :=
  if ti = 0 then do
    let A ← (setSlice s.A ti (fun a _ => y1 a) : Except PyErr (Traj d n K))
    let A0 ← (setSlice s.A0 ti (fun a _ => y1 a) : Except PyErr (Traj d n K))
    pure ⟨A, A0⟩
  else do
    let A0 ← gaussStep env f G.s G0 k ti s.A0
    let A ← gaussStep env f G.s G k ti s.A
    pure ⟨A, A0⟩

/-- The simulation of `n` repetitions (H.py:110-124). -/
def gaussRun (env : Env ρ K) (f : Mat d n K → Mat d n K) (G G0 : GaussModel d K) (y1 : Fin d → K) (grid : List K) :
    RandM ρ (GaussPaths d n K) :=
  enumLoop (gaussBody env f G G0 y1 grid.length) 0 grid ⟨zerosT d n grid.length, zerosT d n grid.length⟩

end
end DPFC
