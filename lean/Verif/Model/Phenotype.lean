import Verif.Model.DPFC

/-!
# The phenotype-differentiation example

DeterministicParticleFlowControl/data/scripts_for_plots/nonconservative_system_2D/plot_c_elegans_differentiation_2D_systematic.py
(G.py below): class `BRIDGE_ND_reweight` (G.py:147-485), a planar variant of `DPFC` that deletes backward trajectories
after the simulation; the drift, its derivatives and the linearisation around the target (G.py:537-614); the closed loop
(G.py:634-677). The estimator of the script (G.py:28-128) is that of score.py, `scoreOld` and `score2Fn`.

Left out: `forward_sampling` (G.py:235-265) and `Uc`, `f1` (G.py:574-575, 628-632), which are never called, the unused
arrays `BPWE*`, `ln_roD`, the unused argument `k`, printing, plots and files.
-/

namespace DPFC

/-- Constructor arguments that are used (G.py:148). The drift is called as `f(x, t)` with an ensemble and, in
`reject_trajectories`, with one state (`f1`). `U = none` is the default `U=1`, which is not callable.
Simplification: `y1` and `y2` have the same size. -/
structure PhenoCfg (d N : Nat) (K : Type) where
  t1 : K
  t2 : K
  y1 : Fin d → K
  y2 : Fin d → K
  f : Mat d N K → K → Mat d N K
  f1 : (Fin d → K) → K → Fin d → K
  g : K
  reweight : Bool
  U : Option (Mat d N K → Fin N → K)
  reject : Bool
  kern : String

/-- The object after construction; `B` has `nB` trajectories left. -/
structure PhenoObj (d N : Nat) (K : Type) where
  cfg : PhenoCfg d N K
  timegrid : List K
  Z : Traj d N K
  nB : Nat
  B : Traj d nB K

section
variable {K ρ : Type} [Add K] [Sub K] [Mul K] [Div K] [Neg K] [NumOps K]
variable {N M d n : Nat}

/-- `f_seperate(x, t)` (G.py:268-286) -/
def phenoVel (env : Env ρ K) (M : Nat) (c : PhenoCfg d N K) (x : Mat d N K) (t : K) : RandM ρ (Mat d N K) := do
  let bnds ← (boxOf x : Except PyErr (Fin d → K × K))
  let bnds ← (plotGuard bnds : Except PyErr (Fin d → K × K))
  let Sxx ← npInducing env bnds M
  let gpsi ← seqM d fun ii =>
    (scoreOld (tr x) (tr Sxx) (lit 1 1000) c.kern (.vec (lengthScales x)) (ii.val + 1) : Except PyErr (Fin N → K))
  pure fun i n => c.f x t i n - lit 1 2 * sq c.g * gpsi i n

/-- The stochastic step (G.py:301-302) -/
def phenoNoisy (env : Env ρ K) (c : PhenoCfg d N K) (x : Mat d N K) (t : K) : RandM ρ (Mat d N K) := do
  let xi ← normalMat env (NumOps.sqrt dtc) d N
  pure fun i n => x i n + dtc * c.f x t i n + c.g * xi i n

/-- The deterministic step (G.py:305) -/
def phenoFlow (env : Env ρ K) (M : Nat) (c : PhenoCfg d N K) (x : Mat d N K) (t : K) : RandM ρ (Mat d N K) := do
  let v ← phenoVel env M c x t
  pure fun i n => x i n + dtc * v i n

/-- The reweighting of one slice (G.py:308-322): the weights are computed from `U`, then the name
`reweight_optimal_transport_multidim` is looked up, which the script does not define. -/
def phenoReweight (U : Option (Mat d N K → Fin N → K)) (_x : Mat d N K) : Except PyErr (Mat d N K) :=
  match U with
  | none => .error .typeError
  | some _ => .error .nameError

/-- Body of the loop of `forward_sampling_Otto` (G.py:292-322) -/
def phenoFwdBody (env : Env ρ K) (M : Nat) (c : PhenoCfg d N K) (ti : Nat) (tt : K) (Z : Traj d N K) :
    RandM ρ (Traj d N K) := do
  let Z ←
    if ti = 0 then
      (forFin d (fun di Z => do
        let Z ← setRow Z di.val 0 (c.y1 di)
        setRow Z di.val (-1) (c.y2 di)) Z : Except PyErr (Traj d N K))
    else if ti = 1 then do
      let x ← (pyGet Z ((ti : Int) - 1) : Except PyErr (Mat d N K))
      let y ← phenoNoisy env c x (tt - dtc)
      (setSlice Z ti y : Except PyErr (Traj d N K))
    else do
      let x ← (pyGet Z ((ti : Int) - 1) : Except PyErr (Mat d N K))
      let y ← phenoFlow env M c x (tt - dtc)
      (setSlice Z ti y : Except PyErr (Traj d N K))
  if c.reweight && decide (0 < ti) then do
    let x ← (pyGet Z (ti : Int) : Except PyErr (Mat d N K))
    let y ← (phenoReweight c.U x : Except PyErr (Mat d N K))
    (setSlice Z ti y : Except PyErr (Traj d N K))
  else pure Z

/-- `forward_sampling_Otto` (G.py:289-326) -/
def phenoForward (env : Env ρ K) (M : Nat) (c : PhenoCfg d N K) (timegrid : List K) (Z : Traj d N K) :
    RandM ρ (Traj d N K) :=
  enumLoop (phenoFwdBody env M c) 0 timegrid Z

/-- `density_estimation(ti, rev_ti)` (G.py:328-352): the forward particles of slice `rev_ti - 1`, evaluated at the
backward particles of slice `rev_ti`. -/
def phenoDensity (env : Env ρ K) (M : Nat) (kern : String) (Z B : Traj d N K) (rev : Int) : RandM ρ (Mat d N K) := do
  let z ← (pyGet Z (rev - 1) : Except PyErr (Mat d N K))
  let b ← (pyGet B rev : Except PyErr (Mat d N K))
  let bnds ← (interBox z b : Except PyErr (Fin d → K × K))
  let bnds ← (plotGuard bnds : Except PyErr (Fin d → K × K))
  let Sxx ← npInducing env bnds M
  seqM d fun di =>
    (score2Fn (tr z) (tr Sxx) (lit 1 1000) kern (.vec (lengthScales z)) (di.val + 1) (tr b) : Except PyErr (Fin N → K))

/-- `bw_density_estimation(ti, rev_ti)` (G.py:355-371) -/
def phenoBwDensity (env : Env ρ K) (M : Nat) (kern : String) (Z B : Traj d N K) (rev : Int) : RandM ρ (Mat d N K) := do
  let b ← (pyGet B rev : Except PyErr (Mat d N K))
  let z ← (pyGet Z (rev - 1) : Except PyErr (Mat d N K))
  let bnds ← (interBox z b : Except PyErr (Fin d → K × K))
  let Sxx ← npInducing env bnds M
  seqM d fun di =>
    (scoreOld (tr b) (tr Sxx) (lit 1 1000) kern (.vec (lengthScales b)) (di.val + 1) : Except PyErr (Fin N → K))

/-- Body of the loop of `backward_simulation` (G.py:376-396). (The line `W = np.ones((N,1))/N` reads a variable of the
script; its result is not used.) -/
def phenoBackBody (env : Env ρ K) (M : Nat) (c : PhenoCfg d N K) (timegrid : List K) (Z : Traj d N K)
    (ti : Nat) (_tt : K) (B : Traj d N K) : RandM ρ (Traj d N K) :=
  if ti = 0 then (pinRows B (-1) c.y2 : Except PyErr (Traj d N K))
  else do
    let rev : Int := (timegrid.length : Int) - ti
    let gro ← phenoDensity env M c.kern Z B rev
    if ti = 1 then do
      let b ← (pyGet B rev : Except PyErr (Mat d N K))
      let t ← (pyGet timegrid rev : Except PyErr K)
      let xi ← normalMat env (NumOps.sqrt dtc) d N
      (setSlice B (rev - 1) (fun i n =>
        b i n - c.f b t i n * dtc + dtc * sq c.g * gro i n + c.g * xi i n) : Except PyErr (Traj d N K))
    else do
      let grb ← phenoBwDensity env M c.kern Z B rev
      let b ← (pyGet B rev : Except PyErr (Mat d N K))
      let t ← (pyGet timegrid rev : Except PyErr K)
      (setSlice B (rev - 1) (fun i n =>
        b i n - (c.f b t i n - sq c.g * gro i n + lit 1 2 * sq c.g * grb i n) * dtc) : Except PyErr (Traj d N K))

/-- `backward_simulation` (G.py:374-400) -/
def phenoBackward (env : Env ρ K) (M : Nat) (c : PhenoCfg d N K) (timegrid : List K) (Z B : Traj d N K) :
    RandM ρ (Traj d N K) := do
  let B ← enumLoop (phenoBackBody env M c timegrid Z) 0 timegrid.dropLast B
  (pinRows B 0 c.y1 : Except PyErr (Traj d N K))

/-- The two bounds `fplus`, `fminus` of `reject_trajectories` (G.py:405-411): exchanged in coordinates 0 and 1 if they
are in the wrong order; a state with fewer than 2 coordinates raises IndexError. -/
def rejectBounds (c : PhenoCfg d N K) : Except PyErr ((Fin d → K) × (Fin d → K)) :=
  let w : K := lit 4 1 * sq c.g * NumOps.sqrt dtc
  let mid : Fin d → K := fun a => c.y1 a + c.f1 c.y1 c.t1 a * dtc
  forFin 2 (fun iii p => do
    let up ← pyGet (List.ofFn p.1) (iii.val : Int)
    let lo ← pyGet (List.ofFn p.2) (iii.val : Int)
    if NumOps.ltB up lo then
      .ok (fun a => if a.val = iii.val then lo else p.1 a, fun a => if a.val = iii.val then up else p.2 a)
    else .ok p) (fun a => mid a + w, fun a => mid a - w)

/-- `sinx`, the indices of the invalid trajectories (G.py:413): the same condition on coordinate 0 of slice 1 is
written twice. -/
def rejectIdx (c : PhenoCfg d N K) (B : Traj d N K) : Except PyErr (List Nat) := do
  let (up, lo) ← rejectBounds c
  let b ← pyGet B 1
  let u ← pyGet (List.ofFn up) 0
  let l ← pyGet (List.ofFn lo) 0
  let row ← pyGet (List.ofFn b) 0
  let bad : Fin N → Bool := fun i => !(NumOps.ltB (row i) u && NumOps.ltB l (row i))
  .ok (((List.finRange N).filter fun i => bad i || bad i).map (·.val))

/-- `np.delete(B, element, axis=1)` (G.py:422) -/
def npDelete (B : (n : Nat) × Traj d n K) (e : Nat) : Except PyErr ((n : Nat) × Traj d n K) :=
  match B with
  | ⟨0, _⟩ => .error .indexError
  | ⟨n+1, B⟩ =>
    if h : e < n + 1 then .ok ⟨n, B.map fun S a j => S a (Fin.succAbove ⟨e, h⟩ j)⟩ else .error .indexError

/-- `reject_trajectories` (G.py:404-423): the indices are always computed, the trajectories deleted only with
`reject`, the last one first. -/
def rejectTrajectories (c : PhenoCfg d N K) (B : Traj d N K) : Except PyErr ((n : Nat) × Traj d n K) := do
  let sinx ← rejectIdx c B
  if c.reject then sinx.reverse.foldlM npDelete ⟨N, B⟩ else .ok ⟨N, B⟩

/-- `BRIDGE_ND_reweight(...)` (G.py:148-230): the grid has the fixed step 0.001 and determines the number of slices. -/
def phenoConstruct (env : Env ρ K) (M : Nat) (c : PhenoCfg d N K) : RandM ρ (PhenoObj d N K) := do
  let timegrid := mkGrid c.t1 c.t2
  let Z ← phenoForward env M c timegrid (zerosT d N timegrid.length)
  let B ← phenoBackward env M c timegrid Z (zerosT d N timegrid.length)
  let B ← (rejectTrajectories c B : Except PyErr ((n : Nat) × Traj d n K))
  pure ⟨c, timegrid, Z, B.1, B.2⟩

/-- `bnds[ii] = [max(np.min(Z), np.min(B)), min(np.max(Z), np.max(B))]` for clouds of different sizes
(G.py:447-448, 479-480). -/
def interBox2 (z : Mat d N K) (b : Mat d n K) : Except PyErr (Fin d → K × K) :=
  seqM d fun ii => do
    let zlo ← npMin (z ii)
    let blo ← npMin (b ii)
    let zhi ← npMax (z ii)
    let bhi ← npMax (b ii)
    .ok (pyMax zlo blo, pyMin zhi bhi)

/-- `calculate_u(grid_x, ti)` (G.py:425-458) for a `d x m` array of points: difference of two scores, both with the
lengthscales of the backward particles. -/
def phenoU (env : Env ρ K) (M : Nat) (o : PhenoObj d N K) {m : Nat} (x : Mat d m K) (ti : Int) :
    RandM ρ (Mat d m K) := do
  let b ← (pyGet o.B ti : Except PyErr (Mat d o.nB K))
  let z ← (pyGet o.Z ti : Except PyErr (Mat d N K))
  let bnds ← (interBox2 z b : Except PyErr (Fin d → K × K))
  let Sxx ← npInducing env bnds M
  seqM d fun di => do
    let sB ← (score2Fn (tr b) (tr Sxx) (lit 1 1000) o.cfg.kern (.vec (lengthScales b)) (di.val + 1) (tr x) :
      Except PyErr (Fin m → K))
    let sZ ← (score2Fn (tr z) (tr Sxx) (lit 1 1000) o.cfg.kern (.vec (lengthScales b)) (di.val + 1) (tr x) :
      Except PyErr (Fin m → K))
    pure fun j => sB j - sZ j

/-- `check_if_covered(X, ti)` (G.py:461-485) for a point with `d` entries -/
def phenoCovered (o : PhenoObj d N K) (X : Fin d → K) (ti : Int) : Except PyErr Bool :=
  forFin d (fun ii cov => do
    let z ← pyGet o.Z ti
    let b ← pyGet o.B ti
    let zlo ← npMin (z ii)
    let blo ← npMin (b ii)
    let zhi ← npMax (z ii)
    let bhi ← npMax (b ii)
    .ok (cov && (NumOps.leB (pyMax zlo blo) (X ii) && NumOps.leB (X ii) (pyMin zhi bhi)))) true

/-! ### The drift and its linearisation -/

/-- `x**4` (G.py:543-556) -/
def pow4 (x : K) : K := sq (sq x)

/-- `x**3` (G.py:548-556) -/
def pow3 (x : K) : K := sq x * x

/-- `x**7` (G.py:548-555) -/
def pow7 (x : K) : K := pow4 x * pow3 x

/-- The parameters `p1, p2, p3, p4` of the script, all 0.5 there (G.py:537-540). -/
structure PhenoPars (K : Type) where
  p1 : K
  p2 : K
  p3 : K
  p4 : K

/-- The drift `f(x, t=0)` (G.py:542-545); note `p2**4` in the numerator of the second component. -/
def phenoF (p : PhenoPars K) (x : Mat 2 n K) : Mat 2 n K := fun a j =>
  if a = 0 then
    pow4 (x 0 j) / (pow4 p.p1 + pow4 (x 0 j)) + pow4 p.p2 / (pow4 p.p2 + pow4 (x 1 j)) - x 0 j
  else
    pow4 (x 1 j) / (pow4 p.p3 + pow4 (x 1 j)) + pow4 p.p2 / (pow4 p.p4 + pow4 (x 0 j)) - x 1 j

/-- The drift at one state (G.py:542-545). -/
def phenoF1 (p : PhenoPars K) (x : Fin 2 → K) : Fin 2 → K := fun a => phenoF (n := 1) p (fun b _ => x b) a 0

/-- The diagonal entry written in `divf` and `gradfs` (G.py:548-549, 553, 555):
`-4*x**7/(p**4 + x**4) + 4*x**3/(p**4 + x**4) - 1`. -/
def phenoDiag (p x : K) : K :=
  lit (-4) 1 * pow7 x / (pow4 p + pow4 x) + lit 4 1 * pow3 x / (pow4 p + pow4 x) - lit 1 1

/-- The off-diagonal entry written in `gradfs` (G.py:554, 556): `-4*p**4*x**3/(p**4 + x**4)**2`. -/
def phenoOff (p x : K) : K := lit (-4) 1 * pow4 p * pow3 x / sq (pow4 p + pow4 x)

/-- `divf(x)` (G.py:547-550) -/
def phenoDiv (p : PhenoPars K) (x : Fin 2 → K) : K := phenoDiag p.p1 (x 0) + phenoDiag p.p3 (x 1)

/-- `gradfs(x)` (G.py:552-557), arranged as the matrix `[[aa,bb],[cc,dd]]` (G.py:591-593). -/
def phenoJac (p : PhenoPars K) (x : Fin 2 → K) : Mat 2 2 K := fun a b =>
  if a = 0 then (if b = 0 then phenoDiag p.p1 (x 0) else phenoOff p.p2 (x 1))
  else (if b = 0 then phenoOff p.p4 (x 0) else phenoDiag p.p3 (x 1))

/-- `flin(x)` (G.py:592-594): `A1@x + f(y2) - A1@y2` -/
def phenoLin (p : PhenoPars K) (y2 x : Fin 2 → K) : Fin 2 → K := fun a =>
  mv (phenoJac p y2) x a + phenoF1 p y2 a - mv (phenoJac p y2) y2 a

/-- `flin_var(C, t)` (G.py:596-598): `A@C + C@A.T + 1*np.eye(2,2)` -/
def phenoLinVar (p : PhenoPars K) (y2 : Fin 2 → K) (C : Mat 2 2 K) : Mat 2 2 K := fun a b =>
  mm (phenoJac p y2) C a b + mm C (tr (phenoJac p y2)) a b + lit 1 1 * eye a b

/-- `m_t` (G.py:602-609): `n` columns, Euler steps of the linearised drift from `y2` (the script has 6). -/
def phenoMeans (p : PhenoPars K) (y2 : Fin 2 → K) : Nat → List (Fin 2 → K)
  | 0 => []
  | n+1 => (List.range (n+1)).map fun i =>
      Nat.rec y2 (fun _ m a => m a + phenoLin p y2 m a * lit 1 1000) i

/-- `grad_log_p_Gauss(x, to)` for one column `x` (G.py:613-614):
`-0.5*(inv(C_t[to]) + inv(C_t[to].T)) @ (x - m_t[:, to])`. The covariances `C_t` come from the ODE solver
`odeintw` and are an argument here. -/
def gaussGrad (Ct : List (Mat 2 2 K)) (mt : List (Fin 2 → K)) (x : Fin 2 → K) (ix : Int) : Except PyErr (Fin 2 → K) := do
  let C ← pyGet Ct ix
  let I ← NumOps.inv C
  let J ← NumOps.inv (tr C)
  let m ← pyGet mt ix
  .ok (mv (fun a b => -(lit 1 2) * (I a b + J a b)) fun a => x a - m a)

/-! ### The closed loop -/

/-- `Fcont`, `Fnon`, `used_u` of one repetition, as lists over time (G.py:647-649). -/
structure PhenoPaths (K : Type) where
  cont : List (Fin 2 → K)
  free : List (Fin 2 → K)
  used : List (Fin 2 → K)

/-- `l[i] = v` for the columns of a `2 x k` array (G.py:655-673) -/
def setCol {α : Type} (l : List α) (i : Int) (v : α) : Except PyErr (List α) := do
  let j ← pyIdx l.length i
  .ok (l.set j v)

/-- Body of the time loop (G.py:650-673). `kb` is `bridg2d.timegrid.size`, `ctl x ti` the call of `calculate_u`, `lin x to`
that of `grad_log_p_Gauss`; the drift is called without time. -/
def phenoLoopBody (env : Env ρ K) (ctl : Mat 2 1 K → Int → RandM ρ (Mat 2 1 K))
    (lin : (Fin 2 → K) → Int → Except PyErr (Fin 2 → K)) (kb : Nat) (f : (Fin 2 → K) → Fin 2 → K) (g : K)
    (y1 : Fin 2 → K) (ti : Nat) (_tt : K) (s : PhenoPaths K) : RandM ρ (PhenoPaths K) :=
  if ti = 0 then do
    let F ← (setCol s.cont ti y1 : Except PyErr (List (Fin 2 → K)))
    let G ← (setCol s.free ti y1 : Except PyErr (List (Fin 2 → K)))
    pure { s with cont := F, free := G }
  else do
    let x ← (pyGet s.cont ((ti : Int) - 1) : Except PyErr (Fin 2 → K))
    let uu : Fin 2 → K ←
      if (ti : Int) ≥ (kb : Int) - 4 then (lin x ((kb : Int) - ti) : Except PyErr (Fin 2 → K))
      else do
        let u ← ctl (fun a _ => x a) ti
        pure fun a => u a 0
    let used ← (setCol s.used ti uu : Except PyErr (List (Fin 2 → K)))
    let xi ← normalVec env (NumOps.sqrt dtc) 2
    let F ← (setCol s.cont ti (fun a => x a + dtc * f x a + dtc * sq g * uu a + g * xi a) :
      Except PyErr (List (Fin 2 → K)))
    let w ← (pyGet s.free ((ti : Int) - 1) : Except PyErr (Fin 2 → K))
    let eta ← normalVec env (NumOps.sqrt dtc) 2
    let G ← (setCol s.free ti (fun a => w a + dtc * f w a + g * eta a) : Except PyErr (List (Fin 2 → K)))
    pure ⟨F, G, used⟩

/-- One repetition (G.py:647-673). -/
def phenoLoop (env : Env ρ K) (M : Nat) (o : PhenoObj 2 N K) (lin : (Fin 2 → K) → Int → Except PyErr (Fin 2 → K))
    (f : (Fin 2 → K) → Fin 2 → K) (g : K) (y1 : Fin 2 → K) : RandM ρ (PhenoPaths K) :=
  let k := o.timegrid.length
  enumLoop (phenoLoopBody env (phenoU env M o) lin k f g y1) 0 o.timegrid
    ⟨List.replicate k fun _ => lit 0 1, List.replicate k fun _ => lit 0 1, List.replicate k fun _ => lit 0 1⟩

/-- The constructor call of the script (G.py:640): no reweighting, `reject=True`. -/
def phenoCfg (N : Nat) (p : PhenoPars K) (t1 t2 : K) (y1 y2 : Fin 2 → K) (g : K) : PhenoCfg 2 N K where
  t1 := t1
  t2 := t2
  y1 := y1
  y2 := y2
  f x _ := phenoF p x
  f1 x _ := phenoF1 p x
  g := g
  reweight := false
  U := none
  reject := true
  kern := "RBF"

/-- The script's own grid `timegrid = np.arange(0, T+h, h)` with `T = t2 - t1` (G.py:578-580), whose size is that of
the arrays collecting the repetitions (G.py:635-637). -/
def phenoOuterGrid (t1 t2 : K) : List K := npArange (lit 0 1) (t2 - t1 + lit 1 1000) (lit 1 1000)

/-- The script for one noise strength `g` (G.py:640-677): bridge, then `reps` repetitions. Storing a repetition whose
length differs from that of the collecting arrays raises ValueError. -/
def phenoRuns (env : Env ρ K) (N M reps : Nat) (p : PhenoPars K) (Ct : List (Mat 2 2 K)) (t1 t2 : K)
    (y1 y2 : Fin 2 → K) (g : K) : RandM ρ (PhenoObj 2 N K × (Fin reps → PhenoPaths K)) := do
  let o ← phenoConstruct env M (phenoCfg N p t1 t2 y1 y2 g)
  let P ← seqM reps fun _ => do
    let s ← phenoLoop env M o (gaussGrad Ct (phenoMeans p y2 6)) (phenoF1 p) g y1
    if o.timegrid.length = (phenoOuterGrid t1 t2).length then pure s else RandM.raise .valueError
  pure (o, P)

end
end DPFC
