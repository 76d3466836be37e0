import Verif.Model.Shape

/-!
# Drift and constraint functions that return arrays of any shape

`f`, `f_true` and `U` are user functions; the other models let them return arrays of the shape they should have, `(dim, N)`
(or `(dim,)` for one particle) and `(N,)`. Here they return arrays of any shape, and the lines in which they occur are evaluated
by broadcasting, as in `Verif.Model.Shape` (whose loop bodies are repeated with these lines). `g` is an array of any shape as
well. The fields `f`, `fTrue`, `U`, `g` of `Cfg` are not used.
-/

namespace DPFC
open NArr

/-- A drift function with values of any shape; compare `Drift`. -/
structure ADrift (d N : Nat) (K : Type) where
  call2 : Mat d N K → K → NArr K
  call1 : Option ((Fin d → K) → NArr K)

/-- A constraint function with values of any shape; compare `Constraint`. -/
structure AConstraint (d N : Nat) (K : Type) where
  call2 : Mat d N K → K → NArr K
  call1 : Option (Mat d N K → NArr K)

/-- The arguments `f`, `f_true`, `U` of the constructors (F.py:156, 811). -/
structure AFns (d N : Nat) (K : Type) where
  f : ADrift d N K
  fTrue : Option (ADrift d N K)
  U : Option (AConstraint d N K)

section
variable {K ρ : Type} [Add K] [Sub K] [Mul K] [Div K] [Neg K] [NumOps K]
variable {N M d : Nat}

/-- `T = x + dt*fx + g*xi` (F.py:392-393, 431-432, 918-920, 1087-1088, 1128-1130). -/
def noisyA (e : PyErr) (g : NArr K) (x : Mat d N K) (fx : NArr K) (xi : Mat d N K) : Except PyErr (Mat d N K) := do
  let a ← op e (· * ·) (scal dtc) fx
  let s ← op e (· + ·) (ofMat x) a
  let b ← op e (· * ·) g (ofMat xi)
  let s ← op e (· + ·) s b
  toMat e d N s

/-- `T = x + dt*(fx - 0.5*g**2*gpsi)` (F.py:310, 361, 395, 434, 993, 1055, 1090-1091, 1137-1138). -/
def ottoA (e : PyErr) (g : NArr K) (x : Mat d N K) (fx : NArr K) (gpsi : Mat d N K) : Except PyErr (Mat d N K) := do
  let a ← op e (· * ·) (scal (lit 1 2)) (sq' g)
  let a ← op e (· * ·) a (ofMat gpsi)
  let v ← op e (· - ·) fx a
  let v ← op e (· * ·) (scal dtc) v
  let s ← op e (· + ·) (ofMat x) v
  toMat e d N s

/-- `T[:, i] = x + dt*fx + g*xi` for one particle (F.py:247-249). -/
def stochA (e : PyErr) (g : NArr K) (x : Fin d → K) (fx : NArr K) (xi : Fin d → K) : Except PyErr (Fin d → K) := do
  let a ← op e (· * ·) (scal dtc) fx
  let s ← op e (· + ·) (ofVec x) a
  let b ← op e (· * ·) g (ofVec xi)
  let s ← op e (· + ·) s b
  toVec e d s

/-- `T = b - fb*dt + dt*g**2*gro + g*xi` (F.py:541-544, 1280-1285). -/
def backNoisyA (e : PyErr) (g : NArr K) (b : Mat d N K) (fb : NArr K) (gro xi : Mat d N K) :
    Except PyErr (Mat d N K) := do
  let a ← op e (· * ·) fb (scal dtc)
  let s ← op e (· - ·) (ofMat b) a
  let a ← op e (· * ·) (scal dtc) (sq' g)
  let a ← op e (· * ·) a (ofMat gro)
  let s ← op e (· + ·) s a
  let a ← op e (· * ·) g (ofMat xi)
  let s ← op e (· + ·) s a
  toMat e d N s

/-- `T = b - (fb - g**2*gro + 0.5*g**2*grb)*dt` (F.py:547-548, 1288-1291). -/
def backDetA (e : PyErr) (g : NArr K) (b : Mat d N K) (fb : NArr K) (gro grb : Mat d N K) :
    Except PyErr (Mat d N K) := do
  let a ← op e (· * ·) (sq' g) (ofMat gro)
  let s ← op e (· - ·) fb a
  let a ← op e (· * ·) (scal (lit 1 2)) (sq' g)
  let a ← op e (· * ·) a (ofMat grb)
  let s ← op e (· + ·) s a
  let s ← op e (· * ·) s (scal dtc)
  let s ← op e (· - ·) (ofMat b) s
  toMat e d N s

/-- The reweighting in `forward_sampling_Otto` (F.py:436-449): `W[:, 0] = np.exp(U(x, tt)*dt)`; compare `ottoReweight`. -/
def ottoReweightA (env : Env ρ K) (e : PyErr) (U : Option (AConstraint d N K)) (x : Mat d N K) (tt : K) :
    Except PyErr (Mat d N K) :=
  match U with
  | none => .error .typeError
  | some U => do
    let u ← toVec e N (U.call2 x tt)
    let w := normWeights fun n => NumOps.exp (u n * dtc)
    let Tstar ← reweightOT env (tr x) w
    .ok (mm x Tstar)

/-- The reweighting in `forward_sampling` (F.py:252-260): `W[:, 0] = np.exp(U(x))`; compare `stochReweight`. -/
def stochReweightA (env : Env ρ K) (e : PyErr) (U : Option (AConstraint d N K)) (x : Mat d N K) :
    Except PyErr (Mat d N K) :=
  match U with
  | none => .error .typeError
  | some U =>
    match U.call1 with
    | none => .error .typeError
    | some u => do
      let v ← toVec e N (u x)
      let w := normWeights fun n => NumOps.exp (v n)
      let Tstar ← reweightOT env (tr x) w
      .ok (mm x Tstar)

/-- Body of the loop of `forward_sampling_Otto` (F.py:419-449); compare `ottoBody`. -/
def ottoBodyA (env : Env ρ K) (e : PyErr) (g : NArr K) (F : AFns d N K) (c : Cfg d N M K) (ti : Nat) (tt : K)
    (Z : Traj d N K) : RandM ρ (Traj d N K) := do
  let Z ←
    if ti = 0 then
      (forFin d (fun di Z => do
        let Z ← setRow Z di.val 0 (c.y1 di)
        if c.brownBridge then setRow Z di.val (-1) (c.y2 di) else .ok Z) Z :
        Except PyErr (Traj d N K))
    else if ti = 1 then do
      let x ← (pyGet Z ((ti : Int) - 1) : Except PyErr (Mat d N K))
      let xi ← normalMat env (NumOps.sqrt dtc) d N
      let y ← (noisyA e g x (F.f.call2 x (tt - dtc)) xi : Except PyErr (Mat d N K))
      (setSlice Z ti y : Except PyErr (Traj d N K))
    else do
      let x ← (pyGet Z ((ti : Int) - 1) : Except PyErr (Mat d N K))
      let gpsi ← scoreAtParticles true env M (effKern c.kern) x
      let y ← (ottoA e g x (F.f.call2 x (tt - dtc)) gpsi : Except PyErr (Mat d N K))
      (setSlice Z ti y : Except PyErr (Traj d N K))
  if c.reweight && decide (0 < ti) then do
    let x ← (pyGet Z (ti : Int) : Except PyErr (Mat d N K))
    let y ← (ottoReweightA env e F.U x tt : Except PyErr (Mat d N K))
    (setSlice Z ti y : Except PyErr (Traj d N K))
  else pure Z

/-- Body of the loop of `forward_sampling_Otto_true` (F.py:384-395); compare `ottoTrueBody`. -/
def ottoTrueBodyA (env : Env ρ K) (e : PyErr) (g : NArr K) (F : AFns d N K) (c : Cfg d N M K) (ti : Nat) (tt : K)
    (Z : Traj d N K) : RandM ρ (Traj d N K) :=
  if ti = 0 then (pinRows Z 0 c.y1 : Except PyErr (Traj d N K))
  else do
    let x ← (pyGet Z ((ti : Int) - 1) : Except PyErr (Mat d N K))
    match F.fTrue with
    | none => RandM.raise .typeError
    | some ft => do
      let y ← if ti = 1 then do
          let xi ← normalMat env (NumOps.sqrt dtc) d N
          (noisyA e g x (ft.call2 x (tt - dtc)) xi : Except PyErr (Mat d N K))
        else do
          let gpsi ← scoreAtParticles false env M (effKern c.kern) x
          (ottoA e g x (ft.call2 x (tt - dtc)) gpsi : Except PyErr (Mat d N K))
      (setSlice Z ti y : Except PyErr (Traj d N K))

/-- The particle loop of `forward_sampling` (F.py:245-249); compare `stochMove`. -/
def stochMoveA (env : Env ρ K) (e : PyErr) (g : NArr K) (F : AFns d N K) (c : Cfg d N M K) (ti : Nat) (Z : Traj d N K) :
    RandM ρ (Traj d N K) :=
  forFin N (fun i Z => do
    let x ← (pyGet Z ((ti : Int) - 1) : Except PyErr (Mat d N K))
    match F.f.call1 with
    | none => RandM.raise .typeError
    | some f1 => do
      let xi ← normalVec env (NumOps.sqrt dtc) d
      let v ← (stochA e g (fun a => x a i) (f1 fun a => x a i) xi : Except PyErr (Fin d → K))
      let cur ← (pyGet Z (ti : Int) : Except PyErr (Mat d N K))
      (setSlice Z ti (fun a n => if n = i then v a else cur a n) :
        Except PyErr (Traj d N K))) Z

/-- Body of the loop of `forward_sampling` (F.py:239-260); compare `stochBody`. -/
def stochBodyA (env : Env ρ K) (e : PyErr) (g : NArr K) (F : AFns d N K) (c : Cfg d N M K) (ti : Nat) (_tt : K)
    (Z : Traj d N K) : RandM ρ (Traj d N K) :=
  if ti = 0 then do
    let v0 ← (pyGet (List.ofFn c.y1) 0 : Except PyErr K)
    let Z ← (setRow Z 0 0 v0 : Except PyErr (Traj d N K))
    let v1 ← (pyGet (List.ofFn c.y1) 1 : Except PyErr K)
    (setRow Z 1 0 v1 : Except PyErr (Traj d N K))
  else do
    let Z ← stochMoveA env e g F c ti Z
    if c.reweight then do
      let x ← (pyGet Z (ti : Int) : Except PyErr (Mat d N K))
      let y ← (stochReweightA env e F.U x : Except PyErr (Mat d N K))
      (setSlice Z ti y : Except PyErr (Traj d N K))
    else pure Z

/-- Body of the loop of `backward_simulation` (F.py:529-548); compare `backwardBody`. `dens`, `bw` are the
two density estimations. -/
def backwardBodyA (env : Env ρ K) (dens bw : Int → Traj d N K → RandM ρ (Mat d N K)) (e : PyErr) (g : NArr K)
    (F : AFns d N K) (c : Cfg d N M K) (timegrid : List K) (ti : Nat) (_tt : K) (B : Traj d N K) : RandM ρ (Traj d N K) :=
  if ti = 0 then (pinRows B (-1) c.y2 : Except PyErr (Traj d N K))
  else do
    let rev : Int := (timegrid.length : Int) - ti - 1
    let gro ← dens (rev + 1) B
    if (ti = 1 ∧ c.deterministic = true) ∨ c.deterministic = false then do
      let b ← (pyGet B (rev + 1) : Except PyErr (Mat d N K))
      let t ← (pyGet timegrid (rev + 1) : Except PyErr K)
      let xi ← normalMat env (NumOps.sqrt dtc) d N
      let y ← (backNoisyA e g b (F.f.call2 b t) gro xi : Except PyErr (Mat d N K))
      (setSlice B rev y : Except PyErr (Traj d N K))
    else do
      let grb ← bw (rev + 1) B
      let b ← (pyGet B (rev + 1) : Except PyErr (Mat d N K))
      let t ← (pyGet timegrid (rev + 1) : Except PyErr K)
      let y ← (backDetA e g b (F.f.call2 b t) gro grb : Except PyErr (Mat d N K))
      (setSlice B rev y : Except PyErr (Traj d N K))

/-- `backward_simulation` (F.py:513-552) -/
def backwardSimA (env : Env ρ K) (e : PyErr) (g : NArr K) (F : AFns d N K) (c : Cfg d N M K) (timegrid : List K)
    (Z B : Traj d N K) : RandM ρ (Traj d N K) := do
  let B ← enumLoop (backwardBodyA env (fun i B => densityEst env M (effKern c.kern) Z B i)
    (fun i B => bwDensityEst env M (effKern c.kern) Z B i) e g F c timegrid) 0 timegrid.dropLast B
  (pinRows B 0 c.y1 : Except PyErr (Traj d N K))

/-- `DPFC(...)` (F.py:156-221) with the exception `e` for incompatible shapes; compare `construct`. -/
def npConstructAL (env : Env ρ K) (e : PyErr) (g : NArr K) (F : AFns d N K) (c : Cfg d N M K) : RandM ρ (Obj d N M K) := do
  let timegrid := mkGrid c.t1 c.t2
  let k := timegrid.length
  let Ztr0 : Option (Traj d N K) := if c.reweight && c.brownBridge then some (zerosT d N k) else none
  let Z0 : Traj d N K := zerosT d N k
  let B0 : Traj d N K := zerosT d N k
  if c.deterministic then do
    let Z ← enumLoop (ottoBodyA env e g F c) 0 timegrid Z0
    let Ztr ← match Ztr0 with
      | some T => do
        let T' ← enumLoop (ottoTrueBodyA env e g F c) 0 timegrid T
        pure (some T')
      | none => pure none
    let B ← backwardSimA env e g F c timegrid Z B0
    pure ⟨c, timegrid, Z, B, Ztr⟩
  else do
    let Z ← enumLoop (stochBodyA env e g F c) 0 timegrid Z0
    let Z ← (pinRows Z (-1) c.y2 : Except PyErr (Traj d N K))
    let B ← backwardSimA env e g F c timegrid Z B0
    pure ⟨c, timegrid, Z, B, Ztr0⟩

/-- `DPFC(...)` (F.py:156-221) with functions that return arrays of any shape and an array `g`. -/
def npConstructF (env : Env ρ K) (g : NArr K) (F : AFns d N K) (c : Cfg d N M K) : RandM ρ (Obj d N M K) :=
  npConstructAL env .valueError g F c

/-- Body of `forward_sampling_Otto` (F.py:1115-1154), torch; compare `torchOttoBody`. -/
def torchOttoBodyA (env : Env ρ K) (e : PyErr) (g : NArr K) (F : AFns d N K) (c : Cfg d N M K) (ti : Nat) (tt : K)
    (Z : Traj d N K) : RandM ρ (Traj d N K) := do
  let Z ←
    if ti = 0 then
      (forFin d (fun di Z => do
        let Z ← setRow Z di.val 0 (c.y1 di)
        if c.brownBridge then setRow Z di.val (-1) (c.y2 di) else .ok Z) Z :
        Except PyErr (Traj d N K))
    else if ti = 1 then do
      let x ← (pyGet Z ((ti : Int) - 1) : Except PyErr (Mat d N K))
      let xi ← normalMat env (NumOps.sqrt dtc) d N
      let y ← (noisyA e g x (F.f.call2 x (tt - dtc)) xi : Except PyErr (Mat d N K))
      (setSlice Z ti y : Except PyErr (Traj d N K))
    else do
      let x ← (pyGet Z ((ti : Int) - 1) : Except PyErr (Mat d N K))
      let bnds ← (torchBox x : Except PyErr (Fin d → K × K))
      let Sxx ← torchInducing env bnds M
      let gpsi ← (torchScore (tr x) Sxx (.tensor (torchLengthScales x)) (lit 1 1000) "RBF" :
        Except PyErr (Mat N d K))
      let y ← (ottoA e g x (F.f.call2 x (tt - dtc)) (tr gpsi) : Except PyErr (Mat d N K))
      (setSlice Z ti y : Except PyErr (Traj d N K))
  if c.reweight && decide (0 < ti) then
    match F.U with
    | none => RandM.raise .typeError
    | some U => do
      let x ← (pyGet Z (ti : Int) : Except PyErr (Mat d N K))
      let u ← (toVec e N (U.call2 x tt) : Except PyErr (Fin N → K))
      let y ← (torchReweight env x fun n => NumOps.exp (u n * dtc) : Except PyErr (Mat d N K))
      (setSlice Z ti y : Except PyErr (Traj d N K))
  else pure Z

/-- Body of `forward_sampling_Otto_true` (F.py:1078-1091), torch; compare `torchTrueBody`. -/
def torchTrueBodyA (env : Env ρ K) (e : PyErr) (g : NArr K) (F : AFns d N K) (c : Cfg d N M K) (ti : Nat) (tt : K)
    (Z : Traj d N K) : RandM ρ (Traj d N K) :=
  if ti = 0 then (pinRows Z 0 c.y1 : Except PyErr (Traj d N K))
  else do
    let x ← (pyGet Z ((ti : Int) - 1) : Except PyErr (Mat d N K))
    match F.fTrue with
    | none => RandM.raise .typeError
    | some ft => do
      let y ← if ti = 1 then do
          let xi ← normalMat env (NumOps.sqrt dtc) d N
          (noisyA e g x (ft.call2 x (tt - dtc)) xi : Except PyErr (Mat d N K))
        else do
          let bnds ← (torchBox x : Except PyErr (Fin d → K × K))
          let Sxx ← torchInducing env bnds M
          let gpsi ← (torchTrueScore x Sxx : Except PyErr (Mat d N K))
          (ottoA e g x (ft.call2 x (tt - dtc)) gpsi : Except PyErr (Mat d N K))
      (setSlice Z ti y : Except PyErr (Traj d N K))

/-- Body of `forward_sampling` (F.py:912-935), torch; compare `torchStochBody`. -/
def torchStochBodyA (env : Env ρ K) (e : PyErr) (g : NArr K) (F : AFns d N K) (c : Cfg d N M K) (ti : Nat) (tt : K)
    (Z : Traj d N K) : RandM ρ (Traj d N K) :=
  if ti = 0 then do
    let v0 ← (pyGet (List.ofFn c.y1) 0 : Except PyErr K)
    let Z ← (setRow Z 0 0 v0 : Except PyErr (Traj d N K))
    let v1 ← (pyGet (List.ofFn c.y1) 1 : Except PyErr K)
    (setRow Z 1 0 v1 : Except PyErr (Traj d N K))
  else do
    let x ← (pyGet Z ((ti : Int) - 1) : Except PyErr (Mat d N K))
    let xi ← normalMat env (NumOps.sqrt dtc) d N
    let y ← (noisyA e g x (F.f.call2 x (tt - dtc)) xi : Except PyErr (Mat d N K))
    let Z ← (setSlice Z ti y : Except PyErr (Traj d N K))
    if c.reweight then
      match F.U with
      | none => RandM.raise .typeError
      | some U =>
        match U.call1 with
        | none => RandM.raise .typeError
        | some u => do
          let x ← (pyGet Z (ti : Int) : Except PyErr (Mat d N K))
          let w ← (toVec e N (u x) : Except PyErr (Fin N → K))
          let y ← (torchReweight env x fun n => NumOps.exp (w n) : Except PyErr (Mat d N K))
          (setSlice Z ti y : Except PyErr (Traj d N K))
    else pure Z

/-- `backward_simulation` (F.py:1251-1295), torch -/
def torchBackwardSimA (env : Env ρ K) (e : PyErr) (g : NArr K) (F : AFns d N K) (c : Cfg d N M K) (timegrid : List K)
    (Z B : Traj d N K) : RandM ρ (Traj d N K) := do
  let B ← enumLoop (backwardBodyA env (fun i B => torchDensityEst env M (effKern c.kern) Z B i)
    (fun i B => torchBwDensityEst env M (effKern c.kern) Z B i) e g F c timegrid) 0 timegrid.dropLast B
  (pinRows B 0 c.y1 : Except PyErr (Traj d N K))

/-- `torched_DPFC(...)` (F.py:811-893) with the exception `e` for incompatible shapes; compare `torchConstruct`. -/
def torchConstructAL (env : Env ρ K) (e : PyErr) (g : NArr K) (F : AFns d N K) (c : Cfg d N M K) : RandM ρ (Obj d N M K) := do
  let timegrid ← (torchGrid c.t1 c.t2 : Except PyErr (List K))
  let k := timegrid.length
  let Ztr0 : Option (Traj d N K) := if c.reweight && c.brownBridge then some (zerosT d N k) else none
  let Z0 : Traj d N K := zerosT d N k
  let B0 : Traj d N K := zerosT d N k
  if c.deterministic then do
    let Z ← enumLoop (torchOttoBodyA env e g F c) 0 timegrid Z0
    let Ztr ← match Ztr0 with
      | some T => do
        let T' ← enumLoop (torchTrueBodyA env e g F c) 0 timegrid T
        pure (some T')
      | none => pure none
    let B ← torchBackwardSimA env e g F c timegrid Z B0
    pure ⟨c, timegrid, Z, B, Ztr⟩
  else do
    let Z ← enumLoop (torchStochBodyA env e g F c) 0 timegrid Z0
    let B ← torchBackwardSimA env e g F c timegrid Z B0
    pure ⟨c, timegrid, Z, B, Ztr0⟩

/-- `torched_DPFC(...)` (F.py:811-893) with functions that return arrays of any shape and an array `g`. -/
def torchConstructF (env : Env ρ K) (g : NArr K) (F : AFns d N K) (c : Cfg d N M K) : RandM ρ (Obj d N M K) :=
  torchConstructAL env .runtimeError g F c

end
end DPFC
