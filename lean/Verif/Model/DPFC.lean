import Verif.Model.Score

/-!
# The numpy class `DPFC`

Models `DeterministicParticleFlowControl.py:78-726` (class `DPFC`) and
`reweighting/optimal_transport_reweighting.py`. `F.py` below abbreviates
`DeterministicParticleFlowControl/DeterministicParticleFlowControl.py`.

Simplifications: `y2` has as many entries as `y1` (other shapes: `Verif.Model.States`); `g` is a scalar (its admissible shapes are the
subject of `Verif.Model.Shape`); `reweight`, `brown_bridge`, `deterministic` are booleans; user
functions are pure (side effects: `Verif.Model.Effects`) and return arrays of the right shape; the plots drawn for
non-finite bounds (F.py:348-351, 461-464; but not the indexing errors of that branch, see `plotGuard`) and
logging are left out.
-/

namespace DPFC

/-- A drift callable. `call2 x t` is `f(x, t)` on a `d x N` array. `call1`, when present, is the call
`f(x)` with a single 1-d state, possible only if the time argument is optional. -/
structure Drift (d N : Nat) (K : Type) where
  call2 : Mat d N K → K → Mat d N K
  call1 : Option ((Fin d → K) → (Fin d → K))

/-- A path constraint callable: `call2 x t` is `U(x, t)`, `call1` the call `U(x)` if possible. -/
structure Constraint (d N : Nat) (K : Type) where
  call2 : Mat d N K → K → (Fin N → K)
  call1 : Option (Mat d N K → (Fin N → K))

/-- Constructor arguments of `DPFC` (F.py:156); `d = y1.size`, `N` particles, `M` inducing
points. `U = none`, `fTrue = none` are Python's `None`. -/
structure Cfg (d N M : Nat) (K : Type) where
  t1 : K
  t2 : K
  y1 : Fin d → K
  y2 : Fin d → K
  f : Drift d N K
  g : K
  reweight : Bool
  U : Option (Constraint d N K)
  densEst : String
  reject : Bool
  kern : String
  fTrue : Option (Drift d N K)
  brownBridge : Bool
  deterministic : Bool

/-- The object after construction. `Ztr` exists only if `reweight and brown_bridge`. -/
structure Obj (d N M : Nat) (K : Type) where
  cfg : Cfg d N M K
  timegrid : List K
  Z : Traj d N K
  B : Traj d N K
  Ztr : Option (Traj d N K)

section
variable {K ρ : Type} [Add K] [Sub K] [Mul K] [Div K] [Neg K] [NumOps K]
variable {N M d : Nat}

/-- `self.dt = 0.001` (F.py:181, 845) -/
def dtc : K := lit 1 1000

/-- `self.timegrid = np.arange(self.t1, self.t2+self.dt/2, self.dt)` (F.py:189) -/
def mkGrid (t1 t2 : K) : List K := npArange t1 (t2 + dtc / lit 2 1) dtc

/-- `self.kern`: 'periodic' is replaced by 'RBF' (F.py:166-171, 830-835). -/
def effKern (kern : String) : String := if kern = "periodic" then "RBF" else kern

/-- `np.zeros((dim, N, k))` -/
def zerosT (d N k : Nat) : Traj d N K := List.replicate k fun _ _ => lit 0 1

/-- `for di in range(dim): T[di, :, t] = y[di]` (F.py:262-263, 387-388, 531-532, 550-551). -/
def pinRows (T : Traj d N K) (t : Int) (y : Fin d → K) : Except PyErr (Traj d N K) :=
  forFin d (fun di T => setRow T di.val t (y di)) T

/-- `reweight_optimal_transport_multidim(samples, weights)`
(optimal_transport_reweighting.py:17-57), `samples` of shape `(N, dim)`:
Euclidean distance matrix (zero diagonal from `squareform(pdist(.))`), uniform target, plan
times `N`. -/
def reweightOT (env : Env ρ K) (samples : Mat N d K) (w : Fin N → K) :
    Except PyErr (Mat N N K) := do
  let covar : Mat N N K := fun i j =>
    if i = j then lit 0 1 else NumOps.sqrt (NumOps.sum fun k => sq (samples i k - samples j k))
  let b : Fin N → K := fun _ => lit 1 1 / lit N 1
  let T ← env.emd w b covar
  .ok fun i j => T i j * lit N 1

/-- `W[:, 0] = e; W = W/np.sum(W)` (F.py:254-255, 439-440). -/
def normWeights (e : Fin N → K) : Fin N → K := fun n => e n / NumOps.sum e

/-- Bounding box of a cloud: `bnds[ii] = [np.min(x[ii,:]), np.max(x[ii,:])]`
(F.py:298-300, 344-346). -/
def boxOf (x : Mat d N K) : Except PyErr (Fin d → K × K) :=
  seqM d fun ii => do
    let lo ← npMin (x ii)
    let hi ← npMax (x ii)
    .ok (lo, hi)

/-- `bnds[ii] = [max(np.min(Z), np.min(B)), min(np.max(Z), np.max(B))]`
(F.py:457-459, 499-501, 632-637, 719-721). -/
def interBox (z b : Mat d N K) : Except PyErr (Fin d → K × K) :=
  seqM d fun ii => do
    let zlo ← npMin (z ii)
    let blo ← npMin (b ii)
    let zhi ← npMax (z ii)
    let bhi ← npMax (b ii)
    .ok (pyMax zlo blo, pyMin zhi bhi)

/-- `lnthsc = 2*np.std(x, axis=1)` (F.py:305, 357, 456, 497, 628-629, 687) -/
def lengthScales (x : Mat d N K) : Fin d → K := fun ii => lit 2 1 * npStd (x ii)

/-- The check for unreasonable bounds (F.py:347-351, 460-464): if `np.sum(bnds)` is NaN or infinite, the first
two dimensions of the trajectories are plotted, which needs a second dimension (IndexError from `self.Z[1]` or
`self.B[1]` otherwise). The plot itself is left out. Returns the bounds. -/
def plotGuard (bnds : Fin d → K × K) : Except PyErr (Fin d → K × K) :=
  if NumOps.isFinite (NumOps.sum fun ii => (bnds ii).1 + (bnds ii).2) then .ok bnds
  else if 2 ≤ d then .ok bnds
  else .error .indexError

/-- The gradient-log-density estimate at the particles used by `f_seperate` and
`f_seperate_true` (F.py:296-309, 340-359): box, inducing points, lengthscales, one call of
`score_function_multid_seperate` per dimension. Only `f_seperate` checks the bounds (`plot`). -/
def scoreAtParticles (plot : Bool) (env : Env ρ K) (M : Nat) (kern : String) (x : Mat d N K) :
    RandM ρ (Mat d N K) := do
  let bnds ← boxOf x
  let bnds ← (if plot then plotGuard bnds else .ok bnds : Except PyErr (Fin d → K × K))
  let Sxx ← npInducing env bnds M
  seqM d fun ii =>
    (scoreSep (tr x) (tr Sxx) (lit 1 1000) kern (.vec (lengthScales x)) (ii.val + 1) :
      Except PyErr (Fin N → K))

/-- `f_seperate(x, t)` with drift `f` (F.py:315-361); with `f_true` and without the check of the bounds it is
`f_seperate_true` (F.py:272-310). -/
def fSeperate (plot : Bool) (env : Env ρ K) (M : Nat) (kern : String) (g : K) (f : Drift d N K)
    (x : Mat d N K) (t : K) : RandM ρ (Mat d N K) := do
  let gpsi ← scoreAtParticles plot env M kern x
  pure fun i n => f.call2 x t i n - lit 1 2 * sq g * gpsi i n

/-- The stochastic first step `x + dt*f(x, t) + g*np.random.normal(...)` (F.py:392-393, 431-432). -/
def noisyStep (env : Env ρ K) (g : K) (f : Drift d N K) (x : Mat d N K) (t : K) :
    RandM ρ (Mat d N K) := do
  let xi ← normalMat env (NumOps.sqrt dtc) d N
  pure fun i n => x i n + dtc * f.call2 x t i n + g * xi i n

/-- The deterministic step `x + dt*f_seperate(x, t)` (F.py:395, 434). -/
def ottoStep (plot : Bool) (env : Env ρ K) (M : Nat) (kern : String) (g : K) (f : Drift d N K)
    (x : Mat d N K) (t : K) : RandM ρ (Mat d N K) := do
  let v ← fSeperate plot env M kern g f x t
  pure fun i n => x i n + dtc * v i n

/-- The reweighting of one slice in `forward_sampling_Otto` (F.py:436-449):
weights `exp(U(x, tt)*dt)`, normalised, transport, `Z @ Tstar`. `U=None` is not callable. -/
def ottoReweight (env : Env ρ K) (U : Option (Constraint d N K)) (x : Mat d N K) (tt : K) :
    Except PyErr (Mat d N K) :=
  match U with
  | none => .error .typeError
  | some U => do
    let w := normWeights fun n => NumOps.exp (U.call2 x tt n * dtc)
    let Tstar ← reweightOT env (tr x) w
    .ok (mm x Tstar)

/-- Body of the loop of `forward_sampling_Otto` for one `(ti, tt)` (F.py:419-449). -/
def ottoBody (env : Env ρ K) (c : Cfg d N M K) (ti : Nat) (tt : K) (Z : Traj d N K) :
    RandM ρ (Traj d N K) := do
  let Z ←
    if ti = 0 then
      (forFin d (fun di Z => do
        let Z ← setRow Z di.val 0 (c.y1 di)
        if c.brownBridge then setRow Z di.val (-1) (c.y2 di) else .ok Z) Z :
        Except PyErr (Traj d N K))
    else if ti = 1 then do
      let x ← (pyGet Z ((ti : Int) - 1) : Except PyErr (Mat d N K))
      let y ← noisyStep env c.g c.f x (tt - dtc)
      (setSlice Z ti y : Except PyErr (Traj d N K))
    else do
      let x ← (pyGet Z ((ti : Int) - 1) : Except PyErr (Mat d N K))
      let y ← ottoStep true env M (effKern c.kern) c.g c.f x (tt - dtc)
      (setSlice Z ti y : Except PyErr (Traj d N K))
  if c.reweight && decide (0 < ti) then do
    let x ← (pyGet Z (ti : Int) : Except PyErr (Mat d N K))
    let y ← (ottoReweight env c.U x tt : Except PyErr (Mat d N K))
    (setSlice Z ti y : Except PyErr (Traj d N K))
  else pure Z

/-- `for ti, tt in enumerate(ts, start)` -/
def enumLoop {σ : Type} (body : Nat → K → σ → RandM ρ σ) : Nat → List K → σ → RandM ρ σ
  | _, [], s => pure s
  | ti, tt :: ts, s => do
    let s' ← body ti tt s
    enumLoop body (ti + 1) ts s'

/-- `forward_sampling_Otto` (F.py:402-451). -/
def forwardOtto (env : Env ρ K) (c : Cfg d N M K) (timegrid : List K) (Z : Traj d N K) :
    RandM ρ (Traj d N K) :=
  enumLoop (ottoBody env c) 0 timegrid Z

/-- Body of the loop of `forward_sampling_Otto_true` (F.py:384-395). `f_true=None` is not
callable. -/
def ottoTrueBody (env : Env ρ K) (c : Cfg d N M K) (ti : Nat) (tt : K) (Z : Traj d N K) :
    RandM ρ (Traj d N K) :=
  if ti = 0 then (pinRows Z 0 c.y1 : Except PyErr (Traj d N K))
  else do
    let x ← (pyGet Z ((ti : Int) - 1) : Except PyErr (Mat d N K))
    match c.fTrue with
    | none => RandM.raise .typeError
    | some ft => do
      let y ← if ti = 1 then noisyStep env c.g ft x (tt - dtc)
        else ottoStep false env M (effKern c.kern) c.g ft x (tt - dtc)
      (setSlice Z ti y : Except PyErr (Traj d N K))

/-- `forward_sampling_Otto_true` (F.py:365-398). Simplification: with `f_true=None` the TypeError
is raised before instead of after the score estimation (no result is returned either way). -/
def forwardOttoTrue (env : Env ρ K) (c : Cfg d N M K) (timegrid : List K) (Z : Traj d N K) :
    RandM ρ (Traj d N K) :=
  enumLoop (ottoTrueBody env c) 0 timegrid Z

/-- The particle loop of `forward_sampling` for one time index (F.py:245-249): every particle
takes an Euler-Maruyama step with `f` called without time and its own `dim` normals. -/
def stochMove (env : Env ρ K) (c : Cfg d N M K) (ti : Nat) (Z : Traj d N K) :
    RandM ρ (Traj d N K) :=
  forFin N (fun i Z => do
    let x ← (pyGet Z ((ti : Int) - 1) : Except PyErr (Mat d N K))
    match c.f.call1 with
    | none => RandM.raise .typeError
    | some f1 => do
      let xi ← normalVec env (NumOps.sqrt dtc) d
      let fx := f1 fun a => x a i
      let cur ← (pyGet Z (ti : Int) : Except PyErr (Mat d N K))
      (setSlice Z ti (fun a n => if n = i then x a i + dtc * fx a + c.g * xi a else cur a n) :
        Except PyErr (Traj d N K))) Z

/-- The reweighting in `forward_sampling` (F.py:252-260): `exp(U(x))`, one-argument call. -/
def stochReweight (env : Env ρ K) (U : Option (Constraint d N K)) (x : Mat d N K) :
    Except PyErr (Mat d N K) :=
  match U with
  | none => .error .typeError
  | some U =>
    match U.call1 with
    | none => .error .typeError
    | some u => do
      let w := normWeights fun n => NumOps.exp (u x n)
      let Tstar ← reweightOT env (tr x) w
      .ok (mm x Tstar)

/-- Body of the loop of `forward_sampling` (F.py:239-260): at `ti == 0` only coordinates 0 and 1
are initialised. -/
def stochBody (env : Env ρ K) (c : Cfg d N M K) (ti : Nat) (_tt : K) (Z : Traj d N K) :
    RandM ρ (Traj d N K) :=
  if ti = 0 then do
    let v0 ← (pyGet (List.ofFn c.y1) 0 : Except PyErr K)
    let Z ← (setRow Z 0 0 v0 : Except PyErr (Traj d N K))
    let v1 ← (pyGet (List.ofFn c.y1) 1 : Except PyErr K)
    (setRow Z 1 0 v1 : Except PyErr (Traj d N K))
  else do
    let Z ← stochMove env c ti Z
    if c.reweight then do
      let x ← (pyGet Z (ti : Int) : Except PyErr (Mat d N K))
      let y ← (stochReweight env c.U x : Except PyErr (Mat d N K))
      (setSlice Z ti y : Except PyErr (Traj d N K))
    else pure Z

/-- `forward_sampling` (F.py:224-265). -/
def forwardStoch (env : Env ρ K) (c : Cfg d N M K) (timegrid : List K) (Z : Traj d N K) :
    RandM ρ (Traj d N K) := do
  let Z ← enumLoop (stochBody env c) 0 timegrid Z
  (pinRows Z (-1) c.y2 : Except PyErr (Traj d N K))

/-- `density_estimation(ti, rev_ti)` (F.py:453-473): score of the forward particles of slice
`rev_ti`, evaluated at the backward particles of slice `rev_ti`. -/
def densityEst (env : Env ρ K) (M : Nat) (kern : String) (Z B : Traj d N K) (rev : Int) :
    RandM ρ (Mat d N K) := do
  let z ← (pyGet Z rev : Except PyErr (Mat d N K))
  let b ← (pyGet B rev : Except PyErr (Mat d N K))
  let bnds ← (interBox z b : Except PyErr (Fin d → K × K))
  let bnds ← (plotGuard bnds : Except PyErr (Fin d → K × K))
  let Sxx ← npInducing env bnds M
  seqM d fun di =>
    (scoreSepFn (tr z) (tr Sxx) (lit 1 1000) kern (.vec (lengthScales z)) (di.val + 1) (tr b) :
      Except PyErr (Fin N → K))

/-- `bw_density_estimation(rev_ti)` (F.py:476-510): score of the backward particles of slice
`rev_ti` at themselves, inducing points from the common box of both flows. -/
def bwDensityEst (env : Env ρ K) (M : Nat) (kern : String) (Z B : Traj d N K) (rev : Int) :
    RandM ρ (Mat d N K) := do
  let z ← (pyGet Z rev : Except PyErr (Mat d N K))
  let b ← (pyGet B rev : Except PyErr (Mat d N K))
  let bnds ← (interBox z b : Except PyErr (Fin d → K × K))
  let Sxx ← npInducing env bnds M
  seqM d fun di =>
    (scoreSep (tr b) (tr Sxx) (lit 1 1000) kern (.vec (lengthScales b)) (di.val + 1) :
      Except PyErr (Fin N → K))

/-- Body of the loop of `backward_simulation` (F.py:529-548). `k` is the grid size. -/
def backwardBody (env : Env ρ K) (c : Cfg d N M K) (timegrid : List K) (Z : Traj d N K)
    (ti : Nat) (_tt : K) (B : Traj d N K) : RandM ρ (Traj d N K) :=
  if ti = 0 then (pinRows B (-1) c.y2 : Except PyErr (Traj d N K))
  else do
    let rev : Int := (timegrid.length : Int) - ti - 1
    let gro ← densityEst env M (effKern c.kern) Z B (rev + 1)
    if (ti = 1 ∧ c.deterministic = true) ∨ c.deterministic = false then do
      let b ← (pyGet B (rev + 1) : Except PyErr (Mat d N K))
      let t ← (pyGet timegrid (rev + 1) : Except PyErr K)
      let xi ← normalMat env (NumOps.sqrt dtc) d N
      (setSlice B rev (fun i n =>
        b i n - c.f.call2 b t i n * dtc + dtc * sq c.g * gro i n + c.g * xi i n) :
        Except PyErr (Traj d N K))
    else do
      let grb ← bwDensityEst env M (effKern c.kern) Z B (rev + 1)
      let b ← (pyGet B (rev + 1) : Except PyErr (Mat d N K))
      let t ← (pyGet timegrid (rev + 1) : Except PyErr K)
      (setSlice B rev (fun i n =>
        b i n - (c.f.call2 b t i n - sq c.g * gro i n + lit 1 2 * sq c.g * grb i n) * dtc) :
        Except PyErr (Traj d N K))

/-- `backward_simulation` (F.py:513-552). -/
def backwardSim (env : Env ρ K) (c : Cfg d N M K) (timegrid : List K) (Z B : Traj d N K) :
    RandM ρ (Traj d N K) := do
  let B ← enumLoop (backwardBody env c timegrid Z) 0 timegrid.dropLast B
  (pinRows B 0 c.y1 : Except PyErr (Traj d N K))

/-- `DPFC(...)` (F.py:156-221): allocate, sample forward (deterministic or stochastic), in
Brownian-bridge reweighting mode sample the true-drift flow, then sample backward. -/
def construct (env : Env ρ K) (c : Cfg d N M K) : RandM ρ (Obj d N M K) := do
  let timegrid := mkGrid c.t1 c.t2
  let k := timegrid.length
  let Ztr0 : Option (Traj d N K) := if c.reweight && c.brownBridge then some (zerosT d N k) else none
  let Z0 : Traj d N K := zerosT d N k
  let B0 : Traj d N K := zerosT d N k
  if c.deterministic then do
    let Z ← forwardOtto env c timegrid Z0
    let Ztr ← match Ztr0 with
      | some T => do
        let T' ← forwardOttoTrue env c timegrid T
        pure (some T')
      | none => pure none
    let B ← backwardSim env c timegrid Z B0
    pure ⟨c, timegrid, Z, B, Ztr⟩
  else do
    let Z ← forwardStoch env c timegrid Z0
    let B ← backwardSim env c timegrid Z B0
    pure ⟨c, timegrid, Z, B, Ztr0⟩

/-! ### Queries on a constructed object -/

/-- `u_t[di] = v` on a `c x n` array. -/
def setOut {c n : Nat} (u : Mat c n K) (di : Nat) (v : Fin n → K) : Except PyErr (Mat c n K) :=
  if di < c then .ok fun a j => if a.val = di then v j else u a j else .error .indexError

/-- `grid_x[:, di]` on an `n x c` array. -/
def gridCol {n c : Nat} (x : Mat n c K) (di : Nat) : Except PyErr (Fin n → K) :=
  if h : di < c then .ok fun j => x j ⟨di, h⟩ else .error .indexError

/-- The Gaussian formula `-(x-mutb)/stdtb**2 - (-(x-mutz)/stdtz**2)` (F.py:647, 654), with the
standard deviation `std` of the library in question. -/
def gaussU (std : {n : Nat} → (Fin n → K) → K) (b z : Fin N → K) (x : K) : K :=
  -(x - mean b) / sq (std b) - (-(x - mean z) / sq (std z))

/-- The Gaussian branch of `calculate_u` (F.py:639-654): `other` is the slice of `Z`, or of `Ztr`
in Brownian-bridge mode. -/
def edgeU (std : {n : Nat} → (Fin n → K) → K) {n c : Nat} (b other : Mat d N K) (x : Mat n c K) :
    Except PyErr (Mat c n K) :=
  forFin d (fun di u => do
    let col ← gridCol x di
    setOut u di fun j => gaussU std (b di) (other di) (col j)) (fun _ _ => lit 0 1)

/-- `np.clip(v, lo, hi)` for one entry: `minimum(hi, maximum(v, lo))`. -/
def clip1 (v lo hi : K) : K :=
  NumOps.amin (n := 1) fun a => if a.val = 0 then hi else
    NumOps.amax (n := 1) fun a => if a.val = 0 then v else lo

/-- `bndsztr` as it is when used for coordinate `di` (F.py:683-685): freshly zeroed, only row
`di` is filled. -/
def bndsZtr (ztr : Mat d N K) (di : Fin d) : Except PyErr (Mat d 2 K) := do
  let lo ← npMin (ztr di)
  let hi ← npMax (ztr di)
  .ok fun a e => if a = di then (if e.val = 0 then lo else hi) else lit 0 1

/-- `np.clip(grid_x, bndsztr[0], bndsztr[1])` (F.py:686): rows 0 and 1 of `bndsztr`
(2 entries each) are broadcast against the columns of `grid_x`. `dim=1` has no row 1; a column
count other than 2 or 1 does not broadcast. The result has 2 columns. -/
def clipGrid {n c : Nat} (bz : Mat d 2 K) (x : Mat n c K) : Except PyErr (Mat n 2 K) :=
  if h : 2 ≤ d then
    if hc : c = 2 ∨ c = 1 then
      .ok fun j e => clip1 (x j (if h2 : c = 2 then Fin.cast h2.symm e else ⟨0, by omega⟩))
        (bz ⟨0, by omega⟩ e) (bz ⟨1, by omega⟩ e)
    else .error .valueError
  else .error .indexError

/-- The loop of the kernel branch of `calculate_u` (F.py:678-690) with inducing points `Sxx`. -/
def kernelU (kern : String) (Sxx : Mat d M K) (b z : Mat d N K) (ztr : Option (Mat d N K))
    {n c : Nat} (x : Mat n c K) : Except PyErr (Mat c n K) :=
  forFin d (fun di u => do
    let sB ← scoreSepFn (tr b) (tr Sxx) (lit 1 1000) kern (.vec (lengthScales b)) (di.val + 1) x
    let sF ← match ztr with
      | none =>
        scoreSepFn (tr z) (tr Sxx) (lit 1 1000) kern (.vec (lengthScales z)) (di.val + 1) x
      | some zt => do
        let bz ← bndsZtr zt di
        let gx ← clipGrid bz x
        scoreSepFn (tr zt) (tr Sxx) (lit 1 1000) kern (.vec (lengthScales zt)) (di.val + 1) gx
    setOut u di fun j => sB j - sF j) (fun _ _ => lit 0 1)

/-- `calculate_u(grid_x, ti)` (F.py:602-696). -/
def calculateU (env : Env ρ K) (o : Obj d N M K) {n c : Nat} (x : Mat n c K) (ti : Int) :
    RandM ρ (Mat c n K) := do
  let b ← (pyGet o.B ti : Except PyErr (Mat d N K))
  let z ← (pyGet o.Z ti : Except PyErr (Mat d N K))
  let zt : Option (Mat d N K) ←
    (match o.cfg.reweight && o.cfg.brownBridge, o.Ztr with
    | true, some T => do let s ← pyGet T ti; .ok (some s)
    | true, none => .error .attributeError
    | false, _ => .ok none : Except PyErr (Option (Mat d N K)))
  let bnds ← (interBox (zt.getD z) b : Except PyErr (Fin d → K × K))
  if ti ≤ 5 ∨ (o.timegrid.length : Int) - 5 ≤ ti then
    (edgeU npStd b (zt.getD z) x : Except PyErr (Mat c n K))
  else do
    let Sxx ← npInducing env bnds M
    (kernelU (effKern o.cfg.kern) Sxx b z zt x : Except PyErr (Mat c n K))

/-- `check_if_covered(X, ti)` for a 1-d point `X` with `c` entries (F.py:699-726). -/
def checkIfCovered (o : Obj d N M K) {c : Nat} (X : Fin c → K) (ti : Int) : Except PyErr Bool :=
  forFin d (fun ii cov => do
    let z ← pyGet o.Z ti
    let b ← pyGet o.B ti
    let zlo ← npMin (z ii)
    let blo ← npMin (b ii)
    let zhi ← npMax (z ii)
    let bhi ← npMax (b ii)
    if h : ii.val < c then
      .ok (cov && (NumOps.leB (pyMax zlo blo) (X ⟨ii, h⟩) && NumOps.leB (X ⟨ii, h⟩) (pyMin zhi bhi)))
    else .error .indexError) true

end
end DPFC
