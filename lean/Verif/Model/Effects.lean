import Verif.Model.TorchDPFC

/-!
# User callables with side effects

In `Model/DPFC.lean` and `Model/TorchDPFC.lean` the user's callables `f`, `f_true`, `U` are functions. Here they
are what Python allows: a call may raise, read or change the state of the outside world (a counter, a log, the global
random generator) and write into the array it is handed. The constructor hands out *views*: `self.Z[:, :, ti-1]`
is not a copy, so writing into it changes the stored flow, and the sum `self.Z[:, :, ti-1] + dt*f(...)`
is evaluated after the call and reads the changed values.

`ρ` is the state of the outside world, random generators included. `F.py` as in `Verif.Model.DPFC`.

Simplification: a call changes nothing of the object under construction but the array it is handed (it does not
keep the view for later calls and does not go through `view.base` to other slices), nor `y1`, `y2`. A callable that
cannot be called with the number of arguments used, and `None`, is one that raises TypeError.
-/

namespace DPFC

/-- A drift callable with side effects. `call2 x t` is the call `f(x, t)` on a view with contents `x`
(F.py:310, 361, 392, 431, 537, 545), `call1 x` the call `f(x)` on a 1-d view (F.py:248). The result is the
returned array and the contents of the argument after the call. -/
structure EDrift (d N : Nat) (ρ K : Type) where
  call2 : Mat d N K → K → RandM ρ (Mat d N K × Mat d N K)
  call1 : (Fin d → K) → RandM ρ ((Fin d → K) × (Fin d → K))

/-- A path constraint callable with side effects: `U(x, t)` (F.py:439, 1144) and `U(x)` (F.py:254, 925); the
returned values and the contents of the argument after the call. -/
structure EConstraint (d N : Nat) (ρ K : Type) where
  call2 : Mat d N K → K → RandM ρ ((Fin N → K) × Mat d N K)
  call1 : Mat d N K → RandM ρ ((Fin N → K) × Mat d N K)

/-- Constructor arguments (F.py:156, 811-814) with callables that may have side effects. -/
structure ECfg (d N M : Nat) (ρ K : Type) where
  t1 : K
  t2 : K
  y1 : Fin d → K
  y2 : Fin d → K
  f : EDrift d N ρ K
  g : K
  reweight : Bool
  U : EConstraint d N ρ K
  kern : String
  fTrue : EDrift d N ρ K
  brownBridge : Bool
  deterministic : Bool

/-- What the constructor leaves in the object (F.py:189-204, 855-876). -/
structure EObj (d N : Nat) (K : Type) where
  timegrid : List K
  Z : Traj d N K
  B : Traj d N K
  Ztr : Option (Traj d N K)

section
variable {K ρ : Type} [Add K] [Sub K] [Mul K] [Div K] [Neg K] [NumOps K]
variable {N M d : Nat}

/-- `x + dt*f(x, t) + g*normal` on a view `x` (F.py:392-393, 431-432, 918-921, 1086-1088, 1128-1136): `f` is
called before the normals are drawn, `x` is read after the call. Result: the new slice and the contents of `x`. -/
def eNoisyStep (env : Env ρ K) (g : K) (f : EDrift d N ρ K) (x : Mat d N K) (t : K) :
    RandM ρ (Mat d N K × Mat d N K) := do
  let (v, x') ← f.call2 x t
  let xi ← normalMat env (NumOps.sqrt dtc) d N
  pure (fun i n => x' i n + dtc * v i n + g * xi i n, x')

/-- `f_seperate(x, t)`, `f_seperate_true(x, t)` on a view `x` (F.py:340-361, 296-310): the score is
estimated first, then the callable is called. Result: the effective drift and the contents of `x`. -/
def eFSeperate (plot : Bool) (env : Env ρ K) (M : Nat) (kern : String) (g : K) (f : EDrift d N ρ K)
    (x : Mat d N K) (t : K) : RandM ρ (Mat d N K × Mat d N K) := do
  let gpsi ← scoreAtParticles plot env M kern x
  let (v, x') ← f.call2 x t
  pure (fun i n => v i n - lit 1 2 * sq g * gpsi i n, x')

/-- `x + dt*f_seperate(x, t)` on a view `x` (F.py:395, 434). -/
def eOttoStep (plot : Bool) (env : Env ρ K) (M : Nat) (kern : String) (g : K) (f : EDrift d N ρ K)
    (x : Mat d N K) (t : K) : RandM ρ (Mat d N K × Mat d N K) := do
  let (v, x') ← eFSeperate plot env M kern g f x t
  pure (fun i n => x' i n + dtc * v i n, x')

/-- The reweighting of one slice (F.py:436-449): `U` sees a view of the slice; distances and the product
`Z @ Tstar` are computed from what `U` left there. -/
def eOttoReweight (env : Env ρ K) (U : EConstraint d N ρ K) (x : Mat d N K) (tt : K) :
    RandM ρ (Mat d N K) := do
  let (u, x') ← U.call2 x tt
  let w := normWeights fun n => NumOps.exp (u n * dtc)
  let Tstar ← (reweightOT env (tr x') w : Except PyErr (Mat N N K))
  pure (mm x' Tstar)

/-- Write back the view of slice `ti-1` after the call and store the new slice `ti`. -/
def storeStep (Z : Traj d N K) (ti : Nat) (p : Mat d N K × Mat d N K) : Except PyErr (Traj d N K) := do
  let Z ← setSlice Z ((ti : Int) - 1) p.2
  setSlice Z ti p.1

/-- The forward step out of slice `ti-1` (F.py:430-434, 389-395 with `f_true`): noisy for `ti = 1`, probability
flow afterwards. -/
def eForwardCall (plot : Bool) (env : Env ρ K) (M : Nat) (kern : String) (g : K) (f : EDrift d N ρ K) (ti : Nat)
    (x : Mat d N K) (t : K) : RandM ρ (Mat d N K × Mat d N K) :=
  if ti = 1 then eNoisyStep env g f x t else eOttoStep plot env M kern g f x t

/-- The first half of the loop body of `forward_sampling_Otto` (F.py:420-434): initialisation or step. -/
def eOttoMove (env : Env ρ K) (c : ECfg d N M ρ K) (ti : Nat) (tt : K) (Z : Traj d N K) :
    RandM ρ (Traj d N K) :=
  if ti = 0 then
    (forFin d (fun di Z => do
      let Z ← setRow Z di.val 0 (c.y1 di)
      if c.brownBridge then setRow Z di.val (-1) (c.y2 di) else .ok Z) Z :
      Except PyErr (Traj d N K))
  else do
    let x ← (pyGet Z ((ti : Int) - 1) : Except PyErr (Mat d N K))
    let p ← eForwardCall true env M (effKern c.kern) c.g c.f ti x (tt - dtc)
    (storeStep Z ti p : Except PyErr (Traj d N K))

/-- Body of the loop of `forward_sampling_Otto` (F.py:419-449). -/
def eOttoBody (env : Env ρ K) (c : ECfg d N M ρ K) (ti : Nat) (tt : K) (Z : Traj d N K) :
    RandM ρ (Traj d N K) := do
  let Z ← eOttoMove env c ti tt Z
  if c.reweight && decide (0 < ti) then do
    let x ← (pyGet Z (ti : Int) : Except PyErr (Mat d N K))
    let y ← eOttoReweight env c.U x tt
    (setSlice Z ti y : Except PyErr (Traj d N K))
  else pure Z

/-- Body of the loop of `forward_sampling_Otto_true` (F.py:384-395). -/
def eOttoTrueBody (env : Env ρ K) (c : ECfg d N M ρ K) (ti : Nat) (tt : K) (Z : Traj d N K) :
    RandM ρ (Traj d N K) :=
  if ti = 0 then (pinRows Z 0 c.y1 : Except PyErr (Traj d N K))
  else do
    let x ← (pyGet Z ((ti : Int) - 1) : Except PyErr (Mat d N K))
    let p ← eForwardCall false env M (effKern c.kern) c.g c.fTrue ti x (tt - dtc)
    (storeStep Z ti p : Except PyErr (Traj d N K))

/-- The particle loop of `forward_sampling` (F.py:245-249): `f(self.Z[:, i, ti-1])` on a view of one
particle, then its normals. -/
def eStochMove (env : Env ρ K) (c : ECfg d N M ρ K) (ti : Nat) (Z : Traj d N K) :
    RandM ρ (Traj d N K) :=
  forFin N (fun i Z => do
    let x ← (pyGet Z ((ti : Int) - 1) : Except PyErr (Mat d N K))
    let (fx, col) ← c.f.call1 fun a => x a i
    let Z ← (setSlice Z ((ti : Int) - 1) (fun a n => if n = i then col a else x a n) :
      Except PyErr (Traj d N K))
    let xi ← normalVec env (NumOps.sqrt dtc) d
    let cur ← (pyGet Z (ti : Int) : Except PyErr (Mat d N K))
    (setSlice Z ti (fun a n => if n = i then col a + dtc * fx a + c.g * xi a else cur a n) :
      Except PyErr (Traj d N K))) Z

/-- The reweighting in `forward_sampling` (F.py:252-260). -/
def eStochReweight (env : Env ρ K) (U : EConstraint d N ρ K) (x : Mat d N K) :
    RandM ρ (Mat d N K) := do
  let (u, x') ← U.call1 x
  let w := normWeights fun n => NumOps.exp (u n)
  let Tstar ← (reweightOT env (tr x') w : Except PyErr (Mat N N K))
  pure (mm x' Tstar)

/-- Body of the loop of `forward_sampling` (F.py:239-260). -/
def eStochBody (env : Env ρ K) (c : ECfg d N M ρ K) (ti : Nat) (_tt : K) (Z : Traj d N K) :
    RandM ρ (Traj d N K) :=
  if ti = 0 then do
    let v0 ← (pyGet (List.ofFn c.y1) 0 : Except PyErr K)
    let Z ← (setRow Z 0 0 v0 : Except PyErr (Traj d N K))
    let v1 ← (pyGet (List.ofFn c.y1) 1 : Except PyErr K)
    (setRow Z 1 0 v1 : Except PyErr (Traj d N K))
  else do
    let Z ← eStochMove env c ti Z
    if c.reweight then do
      let x ← (pyGet Z (ti : Int) : Except PyErr (Mat d N K))
      let y ← eStochReweight env c.U x
      (setSlice Z ti y : Except PyErr (Traj d N K))
    else pure Z

/-- `forward_sampling` (F.py:224-265). -/
def eForwardStoch (env : Env ρ K) (c : ECfg d N M ρ K) (timegrid : List K) (Z : Traj d N K) :
    RandM ρ (Traj d N K) := do
  let Z ← enumLoop (eStochBody env c) 0 timegrid Z
  (pinRows Z (-1) c.y2 : Except PyErr (Traj d N K))

/-- Write back the view of slice `rev+1` after the call and store the new slice `rev` of the backward flow. -/
def storeBack (B : Traj d N K) (rev : Int) (p : Mat d N K × Mat d N K) : Except PyErr (Traj d N K) := do
  let B ← setSlice B (rev + 1) p.2
  setSlice B rev p.1

/-- Body of the loop of `backward_simulation` (F.py:529-548): both score estimates come before the call of
`f`, the normals after it; `B[:, :, rev_ti+1]` is read after the call. -/
def eBackwardBody (env : Env ρ K) (c : ECfg d N M ρ K) (timegrid : List K) (Z : Traj d N K)
    (ti : Nat) (_tt : K) (B : Traj d N K) : RandM ρ (Traj d N K) :=
  if ti = 0 then (pinRows B (-1) c.y2 : Except PyErr (Traj d N K))
  else do
    let rev : Int := (timegrid.length : Int) - ti - 1
    let gro ← densityEst env M (effKern c.kern) Z B (rev + 1)
    if (ti = 1 ∧ c.deterministic = true) ∨ c.deterministic = false then do
      let b ← (pyGet B (rev + 1) : Except PyErr (Mat d N K))
      let t ← (pyGet timegrid (rev + 1) : Except PyErr K)
      let (v, b') ← c.f.call2 b t
      let xi ← normalMat env (NumOps.sqrt dtc) d N
      (storeBack B rev (fun i n =>
        b' i n - v i n * dtc + dtc * sq c.g * gro i n + c.g * xi i n, b') :
        Except PyErr (Traj d N K))
    else do
      let grb ← bwDensityEst env M (effKern c.kern) Z B (rev + 1)
      let b ← (pyGet B (rev + 1) : Except PyErr (Mat d N K))
      let t ← (pyGet timegrid (rev + 1) : Except PyErr K)
      let (v, b') ← c.f.call2 b t
      (storeBack B rev (fun i n =>
        b' i n - (v i n - sq c.g * gro i n + lit 1 2 * sq c.g * grb i n) * dtc, b') :
        Except PyErr (Traj d N K))

/-- `backward_simulation` (F.py:513-552). -/
def eBackwardSim (env : Env ρ K) (c : ECfg d N M ρ K) (timegrid : List K) (Z B : Traj d N K) :
    RandM ρ (Traj d N K) := do
  let B ← enumLoop (eBackwardBody env c timegrid Z) 0 timegrid.dropLast B
  (pinRows B 0 c.y1 : Except PyErr (Traj d N K))

/-- `DPFC(...)` (F.py:156-221) with callables that may have side effects. -/
def eConstruct (env : Env ρ K) (c : ECfg d N M ρ K) : RandM ρ (EObj d N K) := do
  let timegrid := mkGrid c.t1 c.t2
  let k := timegrid.length
  let Ztr0 : Option (Traj d N K) := if c.reweight && c.brownBridge then some (zerosT d N k) else none
  let Z0 : Traj d N K := zerosT d N k
  let B0 : Traj d N K := zerosT d N k
  if c.deterministic then do
    let Z ← enumLoop (eOttoBody env c) 0 timegrid Z0
    let Ztr ← match Ztr0 with
      | some T => do
        let T' ← enumLoop (eOttoTrueBody env c) 0 timegrid T
        pure (some T')
      | none => pure none
    let B ← eBackwardSim env c timegrid Z B0
    pure ⟨timegrid, Z, B, Ztr⟩
  else do
    let Z ← eForwardStoch env c timegrid Z0
    let B ← eBackwardSim env c timegrid Z B0
    pure ⟨timegrid, Z, B, Ztr0⟩

/-! ### The torch class -/

/-- `f_seperate(x, t)` on a view (F.py:1020-1055). -/
def eTorchFSeperate (env : Env ρ K) (M : Nat) (g : K) (f : EDrift d N ρ K) (x : Mat d N K) (t : K) :
    RandM ρ (Mat d N K × Mat d N K) := do
  let bnds ← (torchBox x : Except PyErr (Fin d → K × K))
  let Sxx ← torchInducing env bnds M
  let gpsi ← (torchScore (tr x) Sxx (.tensor (torchLengthScales x)) (lit 1 1000) "RBF" :
    Except PyErr (Mat N d K))
  let (v, x') ← f.call2 x t
  pure (fun i n => v i n - lit 1 2 * sq g * gpsi n i, x')

/-- `x + dt*f_seperate(x, t)` on a view (F.py:1137-1138). -/
def eTorchOttoStep (env : Env ρ K) (M : Nat) (g : K) (f : EDrift d N ρ K) (x : Mat d N K) (t : K) :
    RandM ρ (Mat d N K × Mat d N K) := do
  let (v, x') ← eTorchFSeperate env M g f x t
  pure (fun i n => x' i n + dtc * v i n, x')

/-- `x + dt*f_seperate_true(x, t)` on a view (F.py:947-993, 1090-1091). Simplification: the shape errors of
`torchTrueScore` that occur in the expression after the call of `f_true` are raised before it. -/
def eTorchTrueStep (env : Env ρ K) (M : Nat) (g : K) (f : EDrift d N ρ K) (x : Mat d N K) (t : K) :
    RandM ρ (Mat d N K × Mat d N K) := do
  let bnds ← (torchBox x : Except PyErr (Fin d → K × K))
  let Sxx ← torchInducing env bnds M
  let gpsi ← (torchTrueScore x Sxx : Except PyErr (Mat d N K))
  let (v, x') ← f.call2 x t
  pure (fun i n => x' i n + dtc * (v i n - lit 1 2 * sq g * gpsi i n), x')

/-- The reweighting of one slice (F.py:1144-1154): distances and the product are computed from what `U`
left in the slice. -/
def eTorchOttoReweight (env : Env ρ K) (U : EConstraint d N ρ K) (x : Mat d N K) (tt : K) :
    RandM ρ (Mat d N K) := do
  let (u, x') ← U.call2 x tt
  (torchReweight env x' fun n => NumOps.exp (u n * dtc) : Except PyErr (Mat d N K))

/-- The reweighting of one slice in `forward_sampling` (F.py:925-935). -/
def eTorchStochReweight (env : Env ρ K) (U : EConstraint d N ρ K) (x : Mat d N K) :
    RandM ρ (Mat d N K) := do
  let (u, x') ← U.call1 x
  (torchReweight env x' fun n => NumOps.exp (u n) : Except PyErr (Mat d N K))

/-- The first half of the loop body of `forward_sampling_Otto` (F.py:1116-1138). -/
def eTorchOttoMove (env : Env ρ K) (c : ECfg d N M ρ K) (ti : Nat) (tt : K) (Z : Traj d N K) :
    RandM ρ (Traj d N K) :=
  if ti = 0 then
    (forFin d (fun di Z => do
      let Z ← setRow Z di.val 0 (c.y1 di)
      if c.brownBridge then setRow Z di.val (-1) (c.y2 di) else .ok Z) Z :
      Except PyErr (Traj d N K))
  else if ti = 1 then do
    let x ← (pyGet Z ((ti : Int) - 1) : Except PyErr (Mat d N K))
    let p ← eNoisyStep env c.g c.f x (tt - dtc)
    (storeStep Z ti p : Except PyErr (Traj d N K))
  else do
    let x ← (pyGet Z ((ti : Int) - 1) : Except PyErr (Mat d N K))
    let p ← eTorchOttoStep env M c.g c.f x (tt - dtc)
    (storeStep Z ti p : Except PyErr (Traj d N K))

/-- Body of `forward_sampling_Otto` (F.py:1115-1154). -/
def eTorchOttoBody (env : Env ρ K) (c : ECfg d N M ρ K) (ti : Nat) (tt : K) (Z : Traj d N K) :
    RandM ρ (Traj d N K) := do
  let Z ← eTorchOttoMove env c ti tt Z
  if c.reweight && decide (0 < ti) then do
    let x ← (pyGet Z (ti : Int) : Except PyErr (Mat d N K))
    let y ← eTorchOttoReweight env c.U x tt
    (setSlice Z ti y : Except PyErr (Traj d N K))
  else pure Z

/-- Body of `forward_sampling_Otto_true` (F.py:1078-1091). -/
def eTorchTrueBody (env : Env ρ K) (c : ECfg d N M ρ K) (ti : Nat) (tt : K) (Z : Traj d N K) :
    RandM ρ (Traj d N K) :=
  if ti = 0 then (pinRows Z 0 c.y1 : Except PyErr (Traj d N K))
  else if ti = 1 then do
    let x ← (pyGet Z ((ti : Int) - 1) : Except PyErr (Mat d N K))
    let p ← eNoisyStep env c.g c.fTrue x (tt - dtc)
    (storeStep Z ti p : Except PyErr (Traj d N K))
  else do
    let x ← (pyGet Z ((ti : Int) - 1) : Except PyErr (Mat d N K))
    let p ← eTorchTrueStep env M c.g c.fTrue x (tt - dtc)
    (storeStep Z ti p : Except PyErr (Traj d N K))

/-- Body of `forward_sampling` (F.py:912-935). -/
def eTorchStochBody (env : Env ρ K) (c : ECfg d N M ρ K) (ti : Nat) (tt : K) (Z : Traj d N K) :
    RandM ρ (Traj d N K) :=
  if ti = 0 then do
    let v0 ← (pyGet (List.ofFn c.y1) 0 : Except PyErr K)
    let Z ← (setRow Z 0 0 v0 : Except PyErr (Traj d N K))
    let v1 ← (pyGet (List.ofFn c.y1) 1 : Except PyErr K)
    (setRow Z 1 0 v1 : Except PyErr (Traj d N K))
  else do
    let x ← (pyGet Z ((ti : Int) - 1) : Except PyErr (Mat d N K))
    let p ← eNoisyStep env c.g c.f x (tt - dtc)
    let Z ← (storeStep Z ti p : Except PyErr (Traj d N K))
    if c.reweight then do
      let x ← (pyGet Z (ti : Int) : Except PyErr (Mat d N K))
      let y ← eTorchStochReweight env c.U x
      (setSlice Z ti y : Except PyErr (Traj d N K))
    else pure Z

/-- Body of the loop of `backward_simulation` (F.py:1267-1291). -/
def eTorchBackwardBody (env : Env ρ K) (c : ECfg d N M ρ K) (timegrid : List K) (Z : Traj d N K)
    (ti : Nat) (_tt : K) (B : Traj d N K) : RandM ρ (Traj d N K) :=
  if ti = 0 then (pinRows B (-1) c.y2 : Except PyErr (Traj d N K))
  else do
    let rev : Int := (timegrid.length : Int) - ti - 1
    let gro ← torchDensityEst env M (effKern c.kern) Z B (rev + 1)
    if (ti = 1 ∧ c.deterministic = true) ∨ c.deterministic = false then do
      let b ← (pyGet B (rev + 1) : Except PyErr (Mat d N K))
      let t ← (pyGet timegrid (rev + 1) : Except PyErr K)
      let (v, b') ← c.f.call2 b t
      let xi ← normalMat env (NumOps.sqrt dtc) d N
      (storeBack B rev (fun i n =>
        b' i n - v i n * dtc + dtc * sq c.g * gro i n + c.g * xi i n, b') :
        Except PyErr (Traj d N K))
    else do
      let grb ← torchBwDensityEst env M (effKern c.kern) Z B (rev + 1)
      let b ← (pyGet B (rev + 1) : Except PyErr (Mat d N K))
      let t ← (pyGet timegrid (rev + 1) : Except PyErr K)
      let (v, b') ← c.f.call2 b t
      (storeBack B rev (fun i n =>
        b' i n - (v i n - sq c.g * gro i n + lit 1 2 * sq c.g * grb i n) * dtc, b') :
        Except PyErr (Traj d N K))

/-- `backward_simulation` (F.py:1251-1295). -/
def eTorchBackwardSim (env : Env ρ K) (c : ECfg d N M ρ K) (timegrid : List K) (Z B : Traj d N K) :
    RandM ρ (Traj d N K) := do
  let B ← enumLoop (eTorchBackwardBody env c timegrid Z) 0 timegrid.dropLast B
  (pinRows B 0 c.y1 : Except PyErr (Traj d N K))

/-- `torched_DPFC(...)` (F.py:811-893) with callables that may have side effects. -/
def eTorchConstruct (env : Env ρ K) (c : ECfg d N M ρ K) : RandM ρ (EObj d N K) := do
  let timegrid ← (torchGrid c.t1 c.t2 : Except PyErr (List K))
  let k := timegrid.length
  let Ztr0 : Option (Traj d N K) := if c.reweight && c.brownBridge then some (zerosT d N k) else none
  let Z0 : Traj d N K := zerosT d N k
  let B0 : Traj d N K := zerosT d N k
  if c.deterministic then do
    let Z ← enumLoop (eTorchOttoBody env c) 0 timegrid Z0
    let Ztr ← match Ztr0 with
      | some T => do
        let T' ← enumLoop (eTorchTrueBody env c) 0 timegrid T
        pure (some T')
      | none => pure none
    let B ← eTorchBackwardSim env c timegrid Z B0
    pure ⟨timegrid, Z, B, Ztr⟩
  else do
    let Z ← enumLoop (eTorchStochBody env c) 0 timegrid Z0
    let B ← eTorchBackwardSim env c timegrid Z B0
    pure ⟨timegrid, Z, B, Ztr0⟩

end
end DPFC
