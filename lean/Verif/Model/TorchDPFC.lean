import Verif.Model.DPFC
import Verif.Model.Torch

/-!
# The torch class `torched_DPFC`

Models `DeterministicParticleFlowControl.py:730-1507` (class `torched_DPFC`). `F.py` as in
`Verif.Model.DPFC`; the configuration and object records are shared with the numpy class.

Simplifications: `y1`, `y2` are 1-d float64 tensors of the same size (a numpy `y1` fails at
`y1.size(dim=0)`, F.py:818); `g` is a scalar; dtype and device handling, logging and timing are
left out; user functions are pure and return tensors of the right shape; `grid_x` is a tensor.
-/

namespace DPFC

section
variable {K ρ : Type} [Add K] [Sub K] [Mul K] [Div K] [Neg K] [NumOps K]
variable {N M d : Nat}

/-- `torch.min` of a vector; RuntimeError on an empty one. -/
def torchMin : {n : Nat} → (Fin n → K) → Except PyErr K
  | 0, _ => .error .runtimeError
  | _+1, v => .ok (NumOps.amin v)

/-- `torch.max` of a vector; RuntimeError on an empty one. -/
def torchMax : {n : Nat} → (Fin n → K) → Except PyErr K
  | 0, _ => .error .runtimeError
  | _+1, v => .ok (NumOps.amax v)

/-- `M.max()` of a square matrix, RuntimeError if empty. -/
def torchMatMax : {n : Nat} → Mat n n K → Except PyErr K
  | 0, _ => .error .runtimeError
  | _+1, A => .ok (NumOps.amax fun i => NumOps.amax (A i))

/-- The points of `torch.arange(t1, t2+dt/2, dt)` (F.py:855). -/
def torchPoints (t1 t2 : K) : List K := arange t1 (t2 + dtc / lit 2 1) dtc

/-- `torch.arange(t1, t2+dt/2, dt)` (F.py:855): RuntimeError if the upper bound is below the
lower one. -/
def torchGrid (t1 t2 : K) : Except PyErr (List K) :=
  if NumOps.ltB (t2 + dtc / lit 2 1) t1 then .error .runtimeError else .ok (torchPoints t1 t2)

/-- The reweighting with the POT solver (F.py:925-935, 1144-1154): squared Euclidean cost divided by
its maximum, uniform target, `(N*Z) @ T2`. `e` are the exponentiated constraint values. -/
def torchReweight (env : Env ρ K) (x : Mat d N K) (e : Fin N → K) : Except PyErr (Mat d N K) := do
  let w := normWeights e
  let D : Mat N N K := fun i j => NumOps.sum fun k => sq (x k i - x k j)
  let mx ← torchMatMax D
  let b : Fin N → K := fun _ => lit 1 1 / lit N 1
  let T2 ← env.emd w b fun i j => D i j / mx
  .ok (mm (fun a n => lit N 1 * x a n) T2)

/-- `2*torch.std(x, dim=1)` (F.py:982, 1046, 1169, 1229, 1372-1373, 1463) -/
def torchLengthScales (x : Mat d N K) : Fin d → K := fun ii => lit 2 1 * torchStd (x ii)

/-- Bounding box (F.py:972-976, 1025-1032). -/
def torchBox (x : Mat d N K) : Except PyErr (Fin d → K × K) :=
  seqM d fun ii => do
    let lo ← torchMin (x ii)
    let hi ← torchMax (x ii)
    .ok (lo, hi)

/-- `bnds[ii] = [min(min Z, min B), max(max Z, max B)]` (F.py:1231-1234, 1376-1386,
1499-1501). -/
def hullBox (z b : Mat d N K) : Except PyErr (Fin d → K × K) :=
  seqM d fun ii => do
    let zlo ← torchMin (z ii)
    let blo ← torchMin (b ii)
    let zhi ← torchMax (z ii)
    let bhi ← torchMax (b ii)
    .ok (pyMin zlo blo, pyMax zhi bhi)

/-- The box of `density_estimation` (F.py:1170-1177): the forward box where the backward particles
have no spread, else the hull. -/
def densityBox (z b : Mat d N K) : Except PyErr (Fin d → K × K) :=
  seqM d fun ii => do
    let blo ← torchMin (b ii)
    let bhi ← torchMax (b ii)
    let zlo ← torchMin (z ii)
    let zhi ← torchMax (z ii)
    if NumOps.eqB blo bhi then .ok (zlo, zhi) else .ok (pyMin zlo blo, pyMax zhi bhi)

/-- `f_seperate(x, t)` (F.py:998-1055); the estimator is called with its default kernel name. -/
def torchFSeperate (env : Env ρ K) (M : Nat) (g : K) (f : Drift d N K) (x : Mat d N K) (t : K) :
    RandM ρ (Mat d N K) := do
  let bnds ← (torchBox x : Except PyErr (Fin d → K × K))
  let Sxx ← torchInducing env bnds M
  let gpsi ← (torchScore (tr x) Sxx (.tensor (torchLengthScales x)) (lit 1 1000) "RBF" :
    Except PyErr (Mat N d K))
  pure fun i n => f.call2 x t i n - lit 1 2 * sq g * gpsi n i

/-- `gpsi` of `f_seperate_true` (F.py:985-991) and the shape conditions met until the assignment to
`Ztr[:, :, ti]` (F.py:993, 1090-1091): the inducing points are passed transposed, as a `(d, M)` array, so
the estimator sees `d` inducing points with `M` coordinates and returns an `(N, M)` array, which is
not transposed back. With `M = d` the columns match and the result must be `(d, N)` with `N = d`;
with `M = 1` the single column is broadcast, the `(N, 1)` result needs `N = d` or `N = 1`; everything
else is a RuntimeError (`M` against `d` in `X_i - Y_j`, or `(N, M)` against `(d, N)`). -/
def torchTrueScore (x : Mat d N K) (Sxx : Mat M d K) : Except PyErr (Mat d N K) :=
  if hM : M = d then do
    let g ← torchScore (tr x) (fun (j k : Fin d) => Sxx (Fin.cast hM.symm k) j)
      (.tensor (torchLengthScales x)) (lit 1 1000) "RBF"
    if hN : N = d then .ok fun a n => g (Fin.cast hN.symm a) (Fin.cast hN n)
    else .error .runtimeError
  else if hM1 : M = 1 then do
    let g ← torchScore (tr x) (fun (j _k : Fin d) => Sxx ⟨0, by omega⟩ j)
      (.tensor (torchLengthScales x)) (lit 1 1000) "RBF"
    if hN : N = d then .ok fun a _ => g (Fin.cast hN.symm a) ⟨0, by have := a.2; omega⟩
    else if hN1 : N = 1 then .ok fun a _ => g ⟨0, by omega⟩ ⟨0, by have := a.2; omega⟩
    else .error .runtimeError
  else .error .runtimeError

/-- `f_seperate_true(x, t)` (F.py:947-993). -/
def torchFSeperateTrue (env : Env ρ K) (M : Nat) (g : K) (f : Drift d N K) (x : Mat d N K) (t : K) :
    RandM ρ (Mat d N K) := do
  let bnds ← (torchBox x : Except PyErr (Fin d → K × K))
  let Sxx ← torchInducing env bnds M
  let gpsi ← (torchTrueScore x Sxx : Except PyErr (Mat d N K))
  pure fun i n => f.call2 x t i n - lit 1 2 * sq g * gpsi i n

/-- `x + dt*f_seperate(x, t)` (F.py:1137-1138). -/
def torchOttoStep (env : Env ρ K) (M : Nat) (g : K) (f : Drift d N K) (x : Mat d N K) (t : K) :
    RandM ρ (Mat d N K) := do
  let v ← torchFSeperate env M g f x t
  pure fun i n => x i n + dtc * v i n

/-- `x + dt*f_seperate_true(x, t)` (F.py:1090-1091). -/
def torchTrueStep (env : Env ρ K) (M : Nat) (g : K) (f : Drift d N K) (x : Mat d N K) (t : K) :
    RandM ρ (Mat d N K) := do
  let v ← torchFSeperateTrue env M g f x t
  pure fun i n => x i n + dtc * v i n

/-- Body of `forward_sampling_Otto` (F.py:1115-1154). -/
def torchOttoBody (env : Env ρ K) (c : Cfg d N M K) (ti : Nat) (tt : K) (Z : Traj d N K) :
    RandM ρ (Traj d N K) := do
  let Z ←
    if ti = 0 then
      (forFin d (fun di Z => do
        let Z ← setRow Z di.val 0 (c.y1 di)
        if c.brownBridge then setRow Z di.val (-1) (c.y2 di) else .ok Z) Z :
        Except PyErr (Traj d N K))
    else if ti = 1 then do
      let x ← (pyGet Z ((ti : Int) - 1) : Except PyErr (Mat d N K))
      let y ← noisyStep env c.g c.f x (tt - dtc)
      (setSlice Z ti y : Except PyErr (Traj d N K))
    else do
      let x ← (pyGet Z ((ti : Int) - 1) : Except PyErr (Mat d N K))
      let y ← torchOttoStep env M c.g c.f x (tt - dtc)
      (setSlice Z ti y : Except PyErr (Traj d N K))
  if c.reweight && decide (0 < ti) then
    match c.U with
    | none => RandM.raise .typeError
    | some U => do
      let x ← (pyGet Z (ti : Int) : Except PyErr (Mat d N K))
      let y ← (torchReweight env x fun n => NumOps.exp (U.call2 x tt n * dtc) :
        Except PyErr (Mat d N K))
      (setSlice Z ti y : Except PyErr (Traj d N K))
  else pure Z

/-- `forward_sampling_Otto` (F.py:1098-1162). -/
def torchForwardOtto (env : Env ρ K) (c : Cfg d N M K) (timegrid : List K) (Z : Traj d N K) :
    RandM ρ (Traj d N K) :=
  enumLoop (torchOttoBody env c) 0 timegrid Z

/-- Body of `forward_sampling_Otto_true` (F.py:1078-1091). Simplification as in
`forwardOttoTrue` for `f_true=None`. -/
def torchTrueBody (env : Env ρ K) (c : Cfg d N M K) (ti : Nat) (tt : K) (Z : Traj d N K) :
    RandM ρ (Traj d N K) :=
  if ti = 0 then (pinRows Z 0 c.y1 : Except PyErr (Traj d N K))
  else do
    let x ← (pyGet Z ((ti : Int) - 1) : Except PyErr (Mat d N K))
    match c.fTrue with
    | none => RandM.raise .typeError
    | some ft => do
      let y ← if ti = 1 then noisyStep env c.g ft x (tt - dtc)
        else torchTrueStep env M c.g ft x (tt - dtc)
      (setSlice Z ti y : Except PyErr (Traj d N K))

/-- `forward_sampling_Otto_true` (F.py:1059-1094). -/
def torchForwardOttoTrue (env : Env ρ K) (c : Cfg d N M K) (timegrid : List K) (Z : Traj d N K) :
    RandM ρ (Traj d N K) :=
  enumLoop (torchTrueBody env c) 0 timegrid Z

/-- Body of `forward_sampling` (F.py:912-935): coordinates 0 and 1 are initialised; the whole
cloud moves at once, `f` is called with time `tt-dt`, `U` with one argument. -/
def torchStochBody (env : Env ρ K) (c : Cfg d N M K) (ti : Nat) (tt : K) (Z : Traj d N K) :
    RandM ρ (Traj d N K) :=
  if ti = 0 then do
    let v0 ← (pyGet (List.ofFn c.y1) 0 : Except PyErr K)
    let Z ← (setRow Z 0 0 v0 : Except PyErr (Traj d N K))
    let v1 ← (pyGet (List.ofFn c.y1) 1 : Except PyErr K)
    (setRow Z 1 0 v1 : Except PyErr (Traj d N K))
  else do
    let x ← (pyGet Z ((ti : Int) - 1) : Except PyErr (Mat d N K))
    let y ← noisyStep env c.g c.f x (tt - dtc)
    let Z ← (setSlice Z ti y : Except PyErr (Traj d N K))
    if c.reweight then
      match c.U with
      | none => RandM.raise .typeError
      | some U =>
        match U.call1 with
        | none => RandM.raise .typeError
        | some u => do
          let x ← (pyGet Z (ti : Int) : Except PyErr (Mat d N K))
          let y ← (torchReweight env x fun n => NumOps.exp (u x n) : Except PyErr (Mat d N K))
          (setSlice Z ti y : Except PyErr (Traj d N K))
    else pure Z

/-- `forward_sampling` (F.py:896-940); the terminal pin is commented out (F.py:937-938). -/
def torchForwardStoch (env : Env ρ K) (c : Cfg d N M K) (timegrid : List K) (Z : Traj d N K) :
    RandM ρ (Traj d N K) :=
  enumLoop (torchStochBody env c) 0 timegrid Z

/-- `density_estimation(ti, rev_ti)` (F.py:1164-1204). -/
def torchDensityEst (env : Env ρ K) (M : Nat) (kern : String) (Z B : Traj d N K) (rev : Int) :
    RandM ρ (Mat d N K) := do
  let z ← (pyGet Z rev : Except PyErr (Mat d N K))
  let b ← (pyGet B rev : Except PyErr (Mat d N K))
  let bnds ← (densityBox z b : Except PyErr (Fin d → K × K))
  let Sxx ← torchInducing env bnds M
  let s ← (torchScoreFn (tr z) Sxx (.tensor (torchLengthScales z)) (lit 1 1000) kern
    (.tensor (tr b)) : Except PyErr (Mat N d K))
  pure (tr s)

/-- `bw_density_estimation(rev_ti)` (F.py:1207-1248), transposed as by the caller (F.py:1287). -/
def torchBwDensityEst (env : Env ρ K) (M : Nat) (kern : String) (Z B : Traj d N K) (rev : Int) :
    RandM ρ (Mat d N K) := do
  let z ← (pyGet Z rev : Except PyErr (Mat d N K))
  let b ← (pyGet B rev : Except PyErr (Mat d N K))
  let bnds ← (hullBox z b : Except PyErr (Fin d → K × K))
  let Sxx ← torchInducing env bnds M
  let s ← (torchScore (tr b) Sxx (.tensor (torchLengthScales b)) (lit 1 1000) kern :
    Except PyErr (Mat N d K))
  pure (tr s)

/-- Body of the loop of `backward_simulation` (F.py:1267-1291). -/
def torchBackwardBody (env : Env ρ K) (c : Cfg d N M K) (timegrid : List K) (Z : Traj d N K)
    (ti : Nat) (_tt : K) (B : Traj d N K) : RandM ρ (Traj d N K) :=
  if ti = 0 then (pinRows B (-1) c.y2 : Except PyErr (Traj d N K))
  else do
    let rev : Int := (timegrid.length : Int) - ti - 1
    let gro ← torchDensityEst env M (effKern c.kern) Z B (rev + 1)
    if (ti = 1 ∧ c.deterministic = true) ∨ c.deterministic = false then do
      let b ← (pyGet B (rev + 1) : Except PyErr (Mat d N K))
      let t ← (pyGet timegrid (rev + 1) : Except PyErr K)
      let xi ← normalMat env (NumOps.sqrt dtc) d N
      (setSlice B rev (fun i n =>
        b i n - c.f.call2 b t i n * dtc + dtc * sq c.g * gro i n + c.g * xi i n) :
        Except PyErr (Traj d N K))
    else do
      let grb ← torchBwDensityEst env M (effKern c.kern) Z B (rev + 1)
      let b ← (pyGet B (rev + 1) : Except PyErr (Mat d N K))
      let t ← (pyGet timegrid (rev + 1) : Except PyErr K)
      (setSlice B rev (fun i n =>
        b i n - (c.f.call2 b t i n - sq c.g * gro i n + lit 1 2 * sq c.g * grb i n) * dtc) :
        Except PyErr (Traj d N K))

/-- `backward_simulation` (F.py:1251-1295). -/
def torchBackwardSim (env : Env ρ K) (c : Cfg d N M K) (timegrid : List K) (Z B : Traj d N K) :
    RandM ρ (Traj d N K) := do
  let B ← enumLoop (torchBackwardBody env c timegrid Z) 0 timegrid.dropLast B
  (pinRows B 0 c.y1 : Except PyErr (Traj d N K))

/-- `torched_DPFC(...)` (F.py:811-893). -/
def torchConstruct (env : Env ρ K) (c : Cfg d N M K) : RandM ρ (Obj d N M K) := do
  let timegrid ← (torchGrid c.t1 c.t2 : Except PyErr (List K))
  let k := timegrid.length
  let Ztr0 : Option (Traj d N K) := if c.reweight && c.brownBridge then some (zerosT d N k) else none
  let Z0 : Traj d N K := zerosT d N k
  let B0 : Traj d N K := zerosT d N k
  if c.deterministic then do
    let Z ← torchForwardOtto env c timegrid Z0
    let Ztr ← match Ztr0 with
      | some T => do
        let T' ← torchForwardOttoTrue env c timegrid T
        pure (some T')
      | none => pure none
    let B ← torchBackwardSim env c timegrid Z B0
    pure ⟨c, timegrid, Z, B, Ztr⟩
  else do
    let Z ← torchForwardStoch env c timegrid Z0
    let B ← torchBackwardSim env c timegrid Z B0
    pure ⟨c, timegrid, Z, B, Ztr0⟩

/-- `calculate_u(grid_x, ti)` (F.py:1345-1474), `grid_x` a tensor of shape `(n, c)`. The Gaussian
branch returns shape `(c, n)`, the kernel branch `(d, n)`. -/
def torchCalculateU (env : Env ρ K) (o : Obj d N M K) {n c : Nat} (x : Mat n c K) (ti : Int) :
    RandM ρ (Dyn2 K) := do
  let b ← (pyGet o.B ti : Except PyErr (Mat d N K))
  let z ← (pyGet o.Z ti : Except PyErr (Mat d N K))
  let zt : Option (Mat d N K) ←
    (match o.cfg.reweight && o.cfg.brownBridge, o.Ztr with
    | true, some T => do let s ← pyGet T ti; .ok (some s)
    | true, none => .error .attributeError
    | false, _ => .ok none : Except PyErr (Option (Mat d N K)))
  let bnds ← (hullBox (zt.getD z) b : Except PyErr (Fin d → K × K))
  if ti ≤ 5 ∨ (o.timegrid.length : Int) - 5 ≤ ti then do
    let u ← (edgeU torchStd b (zt.getD z) x : Except PyErr (Mat c n K))
    pure ⟨c, n, u⟩
  else do
    let Sxx ← torchInducing env bnds M
    let sB ← (torchScoreFn (tr b) Sxx (.tensor (torchLengthScales b)) (lit 1 1000)
      (effKern o.cfg.kern) (.tensor x) : Except PyErr (Mat n d K))
    let sF ← (torchScoreFn (tr (zt.getD z)) Sxx (.tensor (torchLengthScales (zt.getD z)))
      (lit 1 1000) (effKern o.cfg.kern) (.tensor x) : Except PyErr (Mat n d K))
    pure ⟨d, n, fun i j => sB j i - sF j i⟩

/-- `check_if_covered(X, ti)` for a 1-d point (F.py:1477-1507). -/
def torchCheckIfCovered (o : Obj d N M K) {c : Nat} (X : Fin c → K) (ti : Int) :
    Except PyErr Bool :=
  forFin d (fun ii cov => do
    let z ← pyGet o.Z ti
    let b ← pyGet o.B ti
    let zlo ← torchMin (z ii)
    let blo ← torchMin (b ii)
    let zhi ← torchMax (z ii)
    let bhi ← torchMax (b ii)
    if h : ii.val < c then
      .ok (cov && (NumOps.leB (pyMin zlo blo) (X ⟨ii, h⟩) && NumOps.leB (X ⟨ii, h⟩) (pyMax zhi bhi)))
    else .error .indexError) true

end
end DPFC
