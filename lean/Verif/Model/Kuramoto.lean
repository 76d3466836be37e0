import Verif.Model.DPFC

/-!
# The phase-oscillator example

notebooks/Kuramoto_synchronisation/systematic_multi_N_kuramoto_inhomogeneous_for_cluster.py (H.py below; a copy is in
DeterministicParticleFlowControl/data/scripts_for_plots/App_fig-kuramoto-bimodal-freqdistr/): class `BRIDGE_ND_reweight` (H.py:481-852), a variant of
`DPFC` for angles, the Kuramoto model (H.py:886-951) and its closed loop (H.py:957-990). The estimator
`score_function_multid_seperate_all_dims` of the script (H.py:271-478) is the library's (`scoreAll`, `scoreAllFn`),
apart from an assertion that two ways of writing the same gradient agree.

Left out: `forward_sampling` and `reject_trajectories` (H.py:568-608, 768-787: never called), `fsquare` (H.py:878-881:
never called), printing, the output files, and the arrays `BPWE*`, `ln_roD` (never used).
-/

namespace DPFC

/-- The operations on angles used besides those of `NumOps`: `np.pi` and the floored remainder `%`. -/
class PhaseOps (K : Type) where
  pi : K
  mod : K → K → K

/-- Constructor arguments of `BRIDGE_ND_reweight` that are used (H.py:482). `k` is the number of stored time slices;
the drift is only called as `f(x, t)`, the constraint as `U(x)`. `U = none` is the default `U=1`, which is not
callable. -/
structure PhaseCfg (d N : Nat) (K : Type) where
  t1 : K
  t2 : K
  dt : K
  y1 : Fin d → K
  f : Mat d N K → K → Mat d N K
  g : K
  k : Nat
  reweight : Bool
  U : Option (Mat d N K → Fin N → K)
  kern : String

/-- The object after construction. -/
structure PhaseObj (d N : Nat) (K : Type) where
  cfg : PhaseCfg d N K
  timegrid : List K
  Z : Traj d N K
  B : Traj d N K

section
variable {K ρ : Type} [Add K] [Sub K] [Mul K] [Div K] [Neg K] [NumOps K] [PhaseOps K]
variable {N M d n : Nat}

/-- `x % (2*np.pi)` for one entry (H.py:644, 647, 680, 753, 757) -/
def wrap (x : K) : K := PhaseOps.mod x (lit 2 1 * PhaseOps.pi)

/-- `x % (2*np.pi)` for an array -/
def wrapM (x : Mat d N K) : Mat d N K := fun a n => wrap (x a n)

/-- `M.max()` of a square array (H.py:672); a zero-size array raises ValueError. -/
def npMatMax (D : Mat N N K) : Except PyErr K := do
  let rows ← seqM N fun i => npMax (D i)
  npMax rows

/-- `np.random.multivariate_normal(y1, np.eye(dim)*g/2, N).T` (H.py:640): `N` rows of `dim` standard normals, scaled
by the square root of the covariance and shifted. Simplification: `g >= 0` (numpy factorises the covariance by
a singular value decomposition, and only warns about a negative one). -/
def mvNormal (env : Env ρ K) (y1 : Fin d → K) (g : K) (N : Nat) : RandM ρ (Mat d N K) := fun r =>
  let (z, r') := drawVec (drawVec env.normal d) N r
  .ok (fun a n => NumOps.sqrt (g / lit 2 1) * z n a + y1 a, r')

/-- `f_seperate(x, t)` (H.py:611-629) -/
def phaseVel (env : Env ρ K) (M : Nat) (c : PhaseCfg d N K) (x : Mat d N K) (t : K) : RandM ρ (Mat d N K) := do
  let bnds ← (boxOf x : Except PyErr (Fin d → K × K))
  let Sxx ← npInducing env bnds M
  let gpsi ← (scoreAll (tr x) (tr Sxx) (lit 1 1000) c.kern (.vec (lengthScales x)) : Except PyErr (Mat N d K))
  pure fun i n => c.f x t i n - lit 1 2 * sq c.g * tr gpsi i n

/-- The stochastic step (H.py:643-644) -/
def phaseNoisy (env : Env ρ K) (c : PhaseCfg d N K) (x : Mat d N K) (t : K) : RandM ρ (Mat d N K) := do
  let xi ← normalMat env (NumOps.sqrt c.dt) d N
  pure (wrapM fun i n => x i n + c.dt * c.f x t i n + c.g * xi i n)

/-- The deterministic step (H.py:647) -/
def phaseFlow (env : Env ρ K) (M : Nat) (c : PhaseCfg d N K) (x : Mat d N K) (t : K) : RandM ρ (Mat d N K) := do
  let v ← phaseVel env M c x t
  pure (wrapM fun i n => x i n + c.dt * v i n)

/-- The reweighting of one slice (H.py:649-680): weights `exp(U(x))`, normalised; squared distances divided by their
maximum; `(N*Z @ T2) % (2*np.pi)`. -/
def phaseReweight (env : Env ρ K) (U : Option (Mat d N K → Fin N → K)) (x : Mat d N K) :
    Except PyErr (Mat d N K) :=
  match U with
  | none => .error .typeError
  | some U => do
    let w := normWeights fun n => NumOps.exp (U x n)
    let D : Mat N N K := fun i j => NumOps.sum fun k => sq (x k i - x k j)
    let mx ← npMatMax D
    let b : Fin N → K := fun _ => lit 1 1 / lit N 1
    let T2 ← env.emd w b fun i j => D i j / mx
    .ok (wrapM (mm (fun a n => lit N 1 * x a n) T2))

/-- Body of the loop of `forward_sampling_Otto` (H.py:635-680) -/
def phaseFwdBody (env : Env ρ K) (M : Nat) (c : PhaseCfg d N K) (ti : Nat) (tt : K) (Z : Traj d N K) :
    RandM ρ (Traj d N K) := do
  let Z ←
    if ti = 0 then do
      let y ← mvNormal env c.y1 c.g N
      (setSlice Z 0 y : Except PyErr (Traj d N K))
    else if ti = 1 then do
      let x ← (pyGet Z ((ti : Int) - 1) : Except PyErr (Mat d N K))
      let y ← phaseNoisy env c x (tt - c.dt)
      (setSlice Z ti y : Except PyErr (Traj d N K))
    else do
      let x ← (pyGet Z ((ti : Int) - 1) : Except PyErr (Mat d N K))
      let y ← phaseFlow env M c x (tt - c.dt)
      (setSlice Z ti y : Except PyErr (Traj d N K))
  if c.reweight && decide (0 < ti) then do
    let x ← (pyGet Z (ti : Int) : Except PyErr (Mat d N K))
    let y ← (phaseReweight env c.U x : Except PyErr (Mat d N K))
    (setSlice Z ti y : Except PyErr (Traj d N K))
  else pure Z

/-- `forward_sampling_Otto` (H.py:632-684) -/
def phaseForward (env : Env ρ K) (M : Nat) (c : PhaseCfg d N K) (timegrid : List K) (Z : Traj d N K) :
    RandM ρ (Traj d N K) :=
  enumLoop (phaseFwdBody env M c) 0 timegrid Z

/-- `density_estimation(ti, rev_ti)` (H.py:686-709): the forward particles of slice `rev_ti - 1`, evaluated at the
backward particles of slice `rev_ti`. -/
def phaseDensity (env : Env ρ K) (M : Nat) (kern : String) (Z B : Traj d N K) (rev : Int) : RandM ρ (Mat d N K) := do
  let z ← (pyGet Z (rev - 1) : Except PyErr (Mat d N K))
  let b ← (pyGet B rev : Except PyErr (Mat d N K))
  let bnds ← (interBox z b : Except PyErr (Fin d → K × K))
  let Sxx ← npInducing env bnds M
  let s ← (scoreAllFn (tr z) (tr Sxx) (lit 1 1000) kern (.vec (lengthScales z)) (tr b) : Except PyErr (Mat N d K))
  pure (tr s)

/-- `bw_density_estimation(ti, rev_ti)` (H.py:712-733) -/
def phaseBwDensity (env : Env ρ K) (M : Nat) (kern : String) (Z B : Traj d N K) (rev : Int) : RandM ρ (Mat d N K) := do
  let b ← (pyGet B rev : Except PyErr (Mat d N K))
  let z ← (pyGet Z (rev - 1) : Except PyErr (Mat d N K))
  let bnds ← (interBox z b : Except PyErr (Fin d → K × K))
  let Sxx ← npInducing env bnds M
  let s ← (scoreAll (tr b) (tr Sxx) (lit 1 1000) kern (.vec (lengthScales b)) : Except PyErr (Mat N d K))
  pure (tr s)

/-- `for di in range(dim): B[di, :, -1] = Z[di, :, -1]` (H.py:741-742) -/
def copyLast (Z B : Traj d N K) : Except PyErr (Traj d N K) :=
  forFin d (fun di B => do
    let z ← pyGet Z (-1)
    let j ← pyIdx B.length (-1)
    .ok (B.modify j fun S a n => if a = di then z a n else S a n)) B

/-- Body of the loop of `backward_simulation` (H.py:738-757) -/
def phaseBackBody (env : Env ρ K) (M : Nat) (c : PhaseCfg d N K) (timegrid : List K) (Z : Traj d N K)
    (ti : Nat) (_tt : K) (B : Traj d N K) : RandM ρ (Traj d N K) :=
  if ti = 0 then (copyLast Z B : Except PyErr (Traj d N K))
  else do
    let rev : Int := (timegrid.length : Int) - ti
    let gro ← phaseDensity env M c.kern Z B rev
    if ti = 1 then do
      let b ← (pyGet B rev : Except PyErr (Mat d N K))
      let t ← (pyGet timegrid rev : Except PyErr K)
      let xi ← normalMat env (NumOps.sqrt c.dt) d N
      (setSlice B (rev - 1) (wrapM fun i n =>
        b i n - c.f b t i n * c.dt + c.dt * sq c.g * gro i n + c.g * xi i n) : Except PyErr (Traj d N K))
    else do
      let grb ← phaseBwDensity env M c.kern Z B rev
      let b ← (pyGet B rev : Except PyErr (Mat d N K))
      let t ← (pyGet timegrid rev : Except PyErr K)
      (setSlice B (rev - 1) (wrapM fun i n =>
        b i n - (c.f b t i n - sq c.g * gro i n + lit 1 2 * sq c.g * grb i n) * c.dt) : Except PyErr (Traj d N K))

/-- `backward_simulation` (H.py:736-764). (The line `W = np.ones((N,1))/N` reads a variable of the script; its result
is not used.) -/
def phaseBackward (env : Env ρ K) (M : Nat) (c : PhaseCfg d N K) (timegrid : List K) (Z B : Traj d N K) :
    RandM ρ (Traj d N K) := do
  let B ← enumLoop (phaseBackBody env M c timegrid Z) 0 timegrid.dropLast B
  (pinRows B 0 c.y1 : Except PyErr (Traj d N K))

/-- `self.timegrid = np.arange(self.t1, self.t2+self.dt/2, self.dt)` (H.py:537) -/
def phaseGrid (t1 t2 dt : K) : List K := npArange t1 (t2 + dt / lit 2 1) dt

/-- `BRIDGE_ND_reweight(...)` (H.py:482-566) -/
def phaseConstruct (env : Env ρ K) (M : Nat) (c : PhaseCfg d N K) : RandM ρ (PhaseObj d N K) := do
  let timegrid := phaseGrid c.t1 c.t2 c.dt
  let Z ← phaseForward env M c timegrid (zerosT d N c.k)
  let B ← phaseBackward env M c timegrid Z (zerosT d N c.k)
  pure ⟨c, timegrid, Z, B⟩

/-- `calculate_u(grid_x, ti)` (H.py:789-825) for a `c x n` array of points; the lengthscales of the backward particles
are used for both scores. -/
def phaseU (env : Env ρ K) (M : Nat) (o : PhaseObj d N K) {c n : Nat} (x : Mat c n K) (ti : Int) :
    RandM ρ (Mat d n K) := do
  let b ← (pyGet o.B ti : Except PyErr (Mat d N K))
  let z ← (pyGet o.Z ti : Except PyErr (Mat d N K))
  let bnds ← (interBox z b : Except PyErr (Fin d → K × K))
  let Sxx ← npInducing env bnds M
  let sB ← (scoreAllFn (tr b) (tr Sxx) (lit 1 1000) o.cfg.kern (.vec (lengthScales b)) (tr x) :
    Except PyErr (Mat n d K))
  let sZ ← (scoreAllFn (tr z) (tr Sxx) (lit 1 1000) o.cfg.kern (.vec (lengthScales b)) (tr x) :
    Except PyErr (Mat n d K))
  pure fun a j => sB j a - sZ j a

/-- `check_if_covered(X, ti)` (H.py:828-851) for a point `X` with `c` entries -/
def phaseCovered (o : PhaseObj d N K) {c : Nat} (X : Fin c → K) (ti : Int) : Except PyErr Bool :=
  forFin d (fun ii cov => do
    let z ← pyGet o.Z ti
    let b ← pyGet o.B ti
    let zlo ← npMin (z ii)
    let blo ← npMin (b ii)
    let zhi ← npMax (z ii)
    let bhi ← npMax (b ii)
    if h : ii.val < c then
      .ok (cov && (NumOps.leB (pyMax zlo blo) (X ⟨ii, h⟩) && NumOps.leB (X ⟨ii, h⟩) (pyMin zhi bhi)))
    else .error .indexError) true

/-! ### The Kuramoto model -/

/-- `R_t(x)` (H.py:886-887): `(1/dim)*|sum exp(1j*x)|`; the modulus is the root of the sum of the squared parts. -/
def orderParam (x : Fin d → K) : K :=
  lit 1 1 / lit d 1 * NumOps.sqrt (sq (NumOps.sum fun i => NumOps.cos (x i)) + sq (NumOps.sum fun i => NumOps.sin (x i)))

/-- The constraint `U(x) = -1*(1 - (1/dim)*|sum exp(1j*x)|)` for an ensemble (H.py:889-895) -/
def kuraU (x : Mat d N K) : Fin N → K := fun n => -(lit 1 1) * (lit 1 1 - orderParam fun a => x a n)

/-- The drift `f(x)` of one state (H.py:937-945): `difs[i,j] = -sin(x[j]-x[i])`, summed over `i`. -/
def kuraDrift (ws : Fin d → K) (Kc : K) (x : Fin d → K) : Fin d → K := fun j =>
  ws j + Kc / lit d 1 * NumOps.sum fun i => -(NumOps.sin (x j - x i))

/-- The drift `f(x, t)` of an ensemble (H.py:937-951) -/
def kuraDriftE (ws : Fin d → K) (Kc : K) (x : Mat d N K) (_t : K) : Mat d N K := fun j n =>
  kuraDrift ws Kc (fun a => x a n) j

/-- `round(dim/2)` (H.py:932): Python rounds halves to even. -/
def roundHalf (d : Nat) : Nat := if d % 2 = 0 then d / 2 else if d / 2 % 2 = 0 then d / 2 else d / 2 + 1

/-- `ws[:round(dim/2)] = freq; ws[round(dim/2):] = -freq` (H.py:931-933) -/
def kuraWs (freq : K) : Fin d → K := fun j => if j.val < roundHalf d then freq else -freq

/-- The construction of the script (H.py:955): Kuramoto drift and constraint, reweighting on, `k` the number of grid
points. -/
def kuraCfg (N : Nat) (t1 t2 h : K) (y0 ws : Fin d → K) (Kc g : K) : PhaseCfg d N K where
  t1 := t1
  t2 := t2
  dt := h
  y1 := y0
  f := kuraDriftE ws Kc
  g := g
  k := (phaseGrid t1 t2 h).length
  reweight := true
  U := some kuraU
  kern := "RBF"

/-! ### The closed loop -/

/-- The arrays of one repetition, as lists over time (H.py:957-961). `Fcont`, `Fnon` start as NaN, `used_us` and the
order parameters as zeros. -/
structure PhasePaths (d : Nat) (K : Type) where
  cont : List (Fin d → K)
  free : List (Fin d → K)
  used : List (Fin d → K)
  rCont : List K
  rFree : List K

/-- `l[i] = v` -/
def setItem {α : Type} (l : List α) (i : Int) (v : α) : Except PyErr (List α) := do
  let j ← pyIdx l.length i
  .ok (l.set j v)

/-- Body of the time loop (H.py:965-983). `ctl x ti` is `bridg2d.calculate_u(x, ti)`, `kb` is
`bridg2d.timegrid.size`; the drift is called with one state. -/
def phaseLoopBody (env : Env ρ K) (ctl : Mat d 1 K → Int → RandM ρ (Mat d 1 K)) (kb : Nat)
    (f : (Fin d → K) → Fin d → K) (g h : K) (y0 : Fin d → K) (ti : Nat) (_tt : K) (s : PhasePaths d K) :
    RandM ρ (PhasePaths d K) :=
  if ti = 0 then do
    let F ← (setItem s.cont ti y0 : Except PyErr (List (Fin d → K)))
    let G ← (setItem s.free ti y0 : Except PyErr (List (Fin d → K)))
    pure { s with cont := F, free := G }
  else do
    let x ← (pyGet s.cont ((ti : Int) - 1) : Except PyErr (Fin d → K))
    let u ← if (ti : Int) = (kb : Int) - 1 then ctl (fun a _ => x a) ((ti : Int) - 1) else ctl (fun a _ => x a) ti
    let uu : Fin d → K := fun a => u a 0
    let used ← (setItem s.used ti uu : Except PyErr (List (Fin d → K)))
    let xi ← normalVec env (NumOps.sqrt h) d
    let x' : Fin d → K := fun a => wrap (x a + h * f x a + h * sq g * uu a + g * xi a)
    let F ← (setItem s.cont ti x' : Except PyErr (List (Fin d → K)))
    let w ← (pyGet s.free ((ti : Int) - 1) : Except PyErr (Fin d → K))
    let eta ← normalVec env (NumOps.sqrt h) d
    let w' : Fin d → K := fun a => wrap (w a + h * f w a + g * eta a)
    let G ← (setItem s.free ti w' : Except PyErr (List (Fin d → K)))
    let rC ← (setItem s.rCont ti (orderParam x') : Except PyErr (List K))
    let rF ← (setItem s.rFree ti (orderParam w') : Except PyErr (List K))
    pure ⟨F, G, used, rC, rF⟩

/-- One repetition of the closed loop (H.py:962-983) on the script's own grid `timegrid`, which has `dt = h` too. NaN
is written `0/0`. -/
def phaseLoop (env : Env ρ K) (M : Nat) (o : PhaseObj d N K) (timegrid : List K) (f : (Fin d → K) → Fin d → K)
    (g h : K) (y0 : Fin d → K) : RandM ρ (PhasePaths d K) :=
  let k := timegrid.length
  let nan : Fin d → K := fun _ => lit 0 1 / lit 0 1
  enumLoop (phaseLoopBody env (phaseU env M o) o.timegrid.length f g h y0) 0 timegrid.dropLast
    ⟨List.replicate k nan, List.replicate k nan, List.replicate k fun _ => lit 0 1,
      List.replicate k (lit 0 1), List.replicate k (lit 0 1)⟩

end
end DPFC
