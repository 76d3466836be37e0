import Verif.Model.TorchDPFC

/-!
# Array-valued diffusion coefficients

`g` may be a scalar or an array ("float or array_like", F.py:97, 749; "scalar or matrix", README.md:93).
It only occurs in elementwise products, so what an array does is decided by broadcasting. Here `g` is an
array of any shape, the lines in which it occurs are evaluated by broadcasting, and their results are
assigned to slices of shape `(dim, N)` or `(dim,)`. `npConstructG`/`torchConstructG` are the constructors
with these lines; `Verif.Model.DPFC` and `Verif.Model.TorchDPFC` are the special case of a scalar `g`
(proved in `Verif.Props.Shapes`).

Simplification: in the torch class the true-drift flow (only with `reweight` and `brown_bridge`) evaluates
the score to a `(dim, N)` array before the product with `g` (see `torchTrueScore`).
-/

namespace DPFC

/-- An n-dimensional array. Shapes and multi-indices are listed from the last axis to the first one. -/
structure NArr (K : Type) where
  rshape : List Nat
  val : List Nat → K

/-- Broadcast of two shapes (numpy and torch rule), last axis first; `none` if incompatible. -/
def bcast : List Nat → List Nat → Option (List Nat)
  | [], b => some b
  | a, [] => some a
  | x :: a, y :: b =>
    match (if x = y then some x else if x = 1 then some y else if y = 1 then some x else none) with
    | none => none
    | some z => (bcast a b).map (z :: ·)

/-- The entry of an array of shape `s` that broadcasting reads at index `i`: axes of length 1 are read at 0,
missing leading indices are 0. -/
def clip : List Nat → List Nat → List Nat
  | [], _ => []
  | _ :: s, [] => 0 :: clip s []
  | x :: s, i :: is => (if x = 1 then 0 else i) :: clip s is

/-- May an array of shape `s` be assigned to a slice of shape `t` (both last axis first)? Each axis must
have length 1 or that of the slice, additional leading axes must have length 1. -/
def fits : List Nat → List Nat → Bool
  | [], _ => true
  | x :: s, [] => decide (x = 1) && fits s []
  | x :: s, t :: ts => (decide (x = 1) || decide (x = t)) && fits s ts

section
variable {K ρ : Type} [Add K] [Sub K] [Mul K] [Div K] [Neg K] [NumOps K]
variable {N M d : Nat}

namespace NArr

/-- A scalar or 0-d array. -/
def scal (a : K) : NArr K := ⟨[], fun _ => a⟩

/-- A `(d, N)` array. -/
def ofMat (x : Mat d N K) : NArr K :=
  ⟨[N, d], fun i => match i with
    | [n, a] => if h : a < d ∧ n < N then x ⟨a, h.1⟩ ⟨n, h.2⟩ else lit 0 1
    | _ => lit 0 1⟩

/-- A 1-d array. -/
def ofVec (x : Fin d → K) : NArr K :=
  ⟨[d], fun i => match i with
    | [a] => if h : a < d then x ⟨a, h⟩ else lit 0 1
    | _ => lit 0 1⟩

/-- An elementwise operation with broadcasting; `e` is raised on incompatible shapes. -/
def op (e : PyErr) (f : K → K → K) (a b : NArr K) : Except PyErr (NArr K) :=
  match bcast a.rshape b.rshape with
  | none => .error e
  | some s => .ok ⟨s, fun i => f (a.val (clip a.rshape i)) (b.val (clip b.rshape i))⟩

/-- `a**2` -/
def sq' (a : NArr K) : NArr K := ⟨a.rshape, fun i => sq (a.val i)⟩

/-- The values stored by `T[:, :, ti] = a` for a slice of shape `(d, N)`. -/
def toMat (e : PyErr) (d N : Nat) (a : NArr K) : Except PyErr (Mat d N K) :=
  if fits a.rshape [N, d] then .ok fun i n => a.val (clip a.rshape [n.val, i.val]) else .error e

/-- The values stored by `T[:, i, ti] = a` for a slice of shape `(d,)`. -/
def toVec (e : PyErr) (d : Nat) (a : NArr K) : Except PyErr (Fin d → K) :=
  if fits a.rshape [d] then .ok fun i => a.val (clip a.rshape [i.val]) else .error e

end NArr
open NArr

/-- `T = x + dt*fx + g*xi` (F.py:392-393, 431-432, 918-920, 1087-1088, 1128-1130). -/
def noisyG (e : PyErr) (g : NArr K) (x fx xi : Mat d N K) : Except PyErr (Mat d N K) := do
  let a ← op e (· * ·) (scal dtc) (ofMat fx)
  let s ← op e (· + ·) (ofMat x) a
  let b ← op e (· * ·) g (ofMat xi)
  let s ← op e (· + ·) s b
  toMat e d N s

/-- `T = x + dt*(fx - 0.5*g**2*gpsi)` (F.py:310, 361, 395, 434, 993, 1055, 1090-1091, 1137-1138). -/
def ottoG (e : PyErr) (g : NArr K) (x fx gpsi : Mat d N K) : Except PyErr (Mat d N K) := do
  let a ← op e (· * ·) (scal (lit 1 2)) (sq' g)
  let a ← op e (· * ·) a (ofMat gpsi)
  let v ← op e (· - ·) (ofMat fx) a
  let v ← op e (· * ·) (scal dtc) v
  let s ← op e (· + ·) (ofMat x) v
  toMat e d N s

/-- `T[:, i] = x + dt*fx + g*xi` for one particle (F.py:247-249). -/
def stochG (e : PyErr) (g : NArr K) (x fx xi : Fin d → K) : Except PyErr (Fin d → K) := do
  let a ← op e (· * ·) (scal dtc) (ofVec fx)
  let s ← op e (· + ·) (ofVec x) a
  let b ← op e (· * ·) g (ofVec xi)
  let s ← op e (· + ·) s b
  toVec e d s

/-- `T = b - fb*dt + dt*g**2*gro + g*xi` (F.py:541-544, 1280-1285). -/
def backNoisyG (e : PyErr) (g : NArr K) (b fb gro xi : Mat d N K) : Except PyErr (Mat d N K) := do
  let a ← op e (· * ·) (ofMat fb) (scal dtc)
  let s ← op e (· - ·) (ofMat b) a
  let a ← op e (· * ·) (scal dtc) (sq' g)
  let a ← op e (· * ·) a (ofMat gro)
  let s ← op e (· + ·) s a
  let a ← op e (· * ·) g (ofMat xi)
  let s ← op e (· + ·) s a
  toMat e d N s

/-- `T = b - (fb - g**2*gro + 0.5*g**2*grb)*dt` (F.py:547-548, 1288-1291). -/
def backDetG (e : PyErr) (g : NArr K) (b fb gro grb : Mat d N K) : Except PyErr (Mat d N K) := do
  let a ← op e (· * ·) (sq' g) (ofMat gro)
  let s ← op e (· - ·) (ofMat fb) a
  let a ← op e (· * ·) (scal (lit 1 2)) (sq' g)
  let a ← op e (· * ·) a (ofMat grb)
  let s ← op e (· + ·) s a
  let s ← op e (· * ·) s (scal dtc)
  let s ← op e (· - ·) (ofMat b) s
  toMat e d N s

/-- The lines of a constructor in which `g` occurs, as functions of the other operands. -/
structure GLines (d N : Nat) (K : Type) where
  noisy : Mat d N K → Mat d N K → Mat d N K → Except PyErr (Mat d N K)
  otto : Mat d N K → Mat d N K → Mat d N K → Except PyErr (Mat d N K)
  stoch : (Fin d → K) → (Fin d → K) → (Fin d → K) → Except PyErr (Fin d → K)
  backNoisy : Mat d N K → Mat d N K → Mat d N K → Mat d N K → Except PyErr (Mat d N K)
  backDet : Mat d N K → Mat d N K → Mat d N K → Mat d N K → Except PyErr (Mat d N K)

/-- The lines for an array `g`; `e` is the exception for incompatible shapes (numpy ValueError, torch
RuntimeError) (lines as cited at the five functions above). -/
def arrayLines (e : PyErr) (g : NArr K) : GLines d N K :=
  ⟨noisyG e g, ottoG e g, stochG e g, backNoisyG e g, backDetG e g⟩

/-- Body of the loop of `forward_sampling_Otto` (F.py:419-449) with array-valued `g`; compare `ottoBody`. -/
def ottoBodyG (env : Env ρ K) (L : GLines d N K) (c : Cfg d N M K) (ti : Nat) (tt : K)
    (Z : Traj d N K) : RandM ρ (Traj d N K) := do
  let Z ←
    if ti = 0 then
      (forFin d (fun di Z => do
        let Z ← setRow Z di.val 0 (c.y1 di)
        if c.brownBridge then setRow Z di.val (-1) (c.y2 di) else .ok Z) Z :
        Except PyErr (Traj d N K))
    else if ti = 1 then do
      let x ← (pyGet Z ((ti : Int) - 1) : Except PyErr (Mat d N K))
      let xi ← normalMat env (NumOps.sqrt dtc) d N
      let y ← (L.noisy x (c.f.call2 x (tt - dtc)) xi : Except PyErr (Mat d N K))
      (setSlice Z ti y : Except PyErr (Traj d N K))
    else do
      let x ← (pyGet Z ((ti : Int) - 1) : Except PyErr (Mat d N K))
      let gpsi ← scoreAtParticles true env M (effKern c.kern) x
      let y ← (L.otto x (c.f.call2 x (tt - dtc)) gpsi : Except PyErr (Mat d N K))
      (setSlice Z ti y : Except PyErr (Traj d N K))
  if c.reweight && decide (0 < ti) then do
    let x ← (pyGet Z (ti : Int) : Except PyErr (Mat d N K))
    let y ← (ottoReweight env c.U x tt : Except PyErr (Mat d N K))
    (setSlice Z ti y : Except PyErr (Traj d N K))
  else pure Z

/-- Body of the loop of `forward_sampling_Otto_true` (F.py:384-395); compare `ottoTrueBody`. -/
def ottoTrueBodyG (env : Env ρ K) (L : GLines d N K) (c : Cfg d N M K) (ti : Nat) (tt : K)
    (Z : Traj d N K) : RandM ρ (Traj d N K) :=
  if ti = 0 then (pinRows Z 0 c.y1 : Except PyErr (Traj d N K))
  else do
    let x ← (pyGet Z ((ti : Int) - 1) : Except PyErr (Mat d N K))
    match c.fTrue with
    | none => RandM.raise .typeError
    | some ft => do
      let y ← if ti = 1 then do
          let xi ← normalMat env (NumOps.sqrt dtc) d N
          (L.noisy x (ft.call2 x (tt - dtc)) xi : Except PyErr (Mat d N K))
        else do
          let gpsi ← scoreAtParticles false env M (effKern c.kern) x
          (L.otto x (ft.call2 x (tt - dtc)) gpsi : Except PyErr (Mat d N K))
      (setSlice Z ti y : Except PyErr (Traj d N K))

/-- The particle loop of `forward_sampling` (F.py:245-249); compare `stochMove`. -/
def stochMoveG (env : Env ρ K) (L : GLines d N K) (c : Cfg d N M K) (ti : Nat) (Z : Traj d N K) :
    RandM ρ (Traj d N K) :=
  forFin N (fun i Z => do
    let x ← (pyGet Z ((ti : Int) - 1) : Except PyErr (Mat d N K))
    match c.f.call1 with
    | none => RandM.raise .typeError
    | some f1 => do
      let xi ← normalVec env (NumOps.sqrt dtc) d
      let v ← (L.stoch (fun a => x a i) (f1 fun a => x a i) xi : Except PyErr (Fin d → K))
      let cur ← (pyGet Z (ti : Int) : Except PyErr (Mat d N K))
      (setSlice Z ti (fun a n => if n = i then v a else cur a n) :
        Except PyErr (Traj d N K))) Z

/-- Body of the loop of `forward_sampling` (F.py:239-260); compare `stochBody`. -/
def stochBodyG (env : Env ρ K) (L : GLines d N K) (c : Cfg d N M K) (ti : Nat) (_tt : K)
    (Z : Traj d N K) : RandM ρ (Traj d N K) :=
  if ti = 0 then do
    let v0 ← (pyGet (List.ofFn c.y1) 0 : Except PyErr K)
    let Z ← (setRow Z 0 0 v0 : Except PyErr (Traj d N K))
    let v1 ← (pyGet (List.ofFn c.y1) 1 : Except PyErr K)
    (setRow Z 1 0 v1 : Except PyErr (Traj d N K))
  else do
    let Z ← stochMoveG env L c ti Z
    if c.reweight then do
      let x ← (pyGet Z (ti : Int) : Except PyErr (Mat d N K))
      let y ← (stochReweight env c.U x : Except PyErr (Mat d N K))
      (setSlice Z ti y : Except PyErr (Traj d N K))
    else pure Z

/-- Body of the loop of `backward_simulation` (F.py:529-548); compare `backwardBody`. `dens`, `bw` are the
two density estimations. -/
def backwardBodyG (env : Env ρ K) (dens bw : Int → Traj d N K → RandM ρ (Mat d N K)) (L : GLines d N K)
    (c : Cfg d N M K) (timegrid : List K) (ti : Nat) (_tt : K) (B : Traj d N K) : RandM ρ (Traj d N K) :=
  if ti = 0 then (pinRows B (-1) c.y2 : Except PyErr (Traj d N K))
  else do
    let rev : Int := (timegrid.length : Int) - ti - 1
    let gro ← dens (rev + 1) B
    if (ti = 1 ∧ c.deterministic = true) ∨ c.deterministic = false then do
      let b ← (pyGet B (rev + 1) : Except PyErr (Mat d N K))
      let t ← (pyGet timegrid (rev + 1) : Except PyErr K)
      let xi ← normalMat env (NumOps.sqrt dtc) d N
      let y ← (L.backNoisy b (c.f.call2 b t) gro xi : Except PyErr (Mat d N K))
      (setSlice B rev y : Except PyErr (Traj d N K))
    else do
      let grb ← bw (rev + 1) B
      let b ← (pyGet B (rev + 1) : Except PyErr (Mat d N K))
      let t ← (pyGet timegrid (rev + 1) : Except PyErr K)
      let y ← (L.backDet b (c.f.call2 b t) gro grb : Except PyErr (Mat d N K))
      (setSlice B rev y : Except PyErr (Traj d N K))

/-- `backward_simulation` (F.py:513-552) -/
def backwardSimG (env : Env ρ K) (L : GLines d N K) (c : Cfg d N M K) (timegrid : List K)
    (Z B : Traj d N K) : RandM ρ (Traj d N K) := do
  let B ← enumLoop (backwardBodyG env (fun i B => densityEst env M (effKern c.kern) Z B i)
    (fun i B => bwDensityEst env M (effKern c.kern) Z B i) L c timegrid) 0 timegrid.dropLast B
  (pinRows B 0 c.y1 : Except PyErr (Traj d N K))

/-- `DPFC(...)` (F.py:156-221) with given lines for `g`; compare `construct`. -/
def npConstructL (env : Env ρ K) (L : GLines d N K) (c : Cfg d N M K) : RandM ρ (Obj d N M K) := do
  let timegrid := mkGrid c.t1 c.t2
  let k := timegrid.length
  let Ztr0 : Option (Traj d N K) := if c.reweight && c.brownBridge then some (zerosT d N k) else none
  let Z0 : Traj d N K := zerosT d N k
  let B0 : Traj d N K := zerosT d N k
  if c.deterministic then do
    let Z ← enumLoop (ottoBodyG env L c) 0 timegrid Z0
    let Ztr ← match Ztr0 with
      | some T => do
        let T' ← enumLoop (ottoTrueBodyG env L c) 0 timegrid T
        pure (some T')
      | none => pure none
    let B ← backwardSimG env L c timegrid Z B0
    pure ⟨c, timegrid, Z, B, Ztr⟩
  else do
    let Z ← enumLoop (stochBodyG env L c) 0 timegrid Z0
    let Z ← (pinRows Z (-1) c.y2 : Except PyErr (Traj d N K))
    let B ← backwardSimG env L c timegrid Z B0
    pure ⟨c, timegrid, Z, B, Ztr0⟩

/-- `DPFC(t1, t2, y1, y2, f, g, ...)` (F.py:156-221) with an array `g`; the field `g` of `c` is not used. -/
def npConstructG (env : Env ρ K) (g : NArr K) (c : Cfg d N M K) : RandM ρ (Obj d N M K) :=
  npConstructL env (arrayLines .valueError g) c

/-- Body of `forward_sampling_Otto` (F.py:1115-1154), torch; compare `torchOttoBody`. -/
def torchOttoBodyG (env : Env ρ K) (L : GLines d N K) (c : Cfg d N M K) (ti : Nat) (tt : K)
    (Z : Traj d N K) : RandM ρ (Traj d N K) := do
  let Z ←
    if ti = 0 then
      (forFin d (fun di Z => do
        let Z ← setRow Z di.val 0 (c.y1 di)
        if c.brownBridge then setRow Z di.val (-1) (c.y2 di) else .ok Z) Z :
        Except PyErr (Traj d N K))
    else if ti = 1 then do
      let x ← (pyGet Z ((ti : Int) - 1) : Except PyErr (Mat d N K))
      let xi ← normalMat env (NumOps.sqrt dtc) d N
      let y ← (L.noisy x (c.f.call2 x (tt - dtc)) xi : Except PyErr (Mat d N K))
      (setSlice Z ti y : Except PyErr (Traj d N K))
    else do
      let x ← (pyGet Z ((ti : Int) - 1) : Except PyErr (Mat d N K))
      let bnds ← (torchBox x : Except PyErr (Fin d → K × K))
      let Sxx ← torchInducing env bnds M
      let gpsi ← (torchScore (tr x) Sxx (.tensor (torchLengthScales x)) (lit 1 1000) "RBF" :
        Except PyErr (Mat N d K))
      let y ← (L.otto x (c.f.call2 x (tt - dtc)) (tr gpsi) : Except PyErr (Mat d N K))
      (setSlice Z ti y : Except PyErr (Traj d N K))
  if c.reweight && decide (0 < ti) then
    match c.U with
    | none => RandM.raise .typeError
    | some U => do
      let x ← (pyGet Z (ti : Int) : Except PyErr (Mat d N K))
      let y ← (torchReweight env x fun n => NumOps.exp (U.call2 x tt n * dtc) :
        Except PyErr (Mat d N K))
      (setSlice Z ti y : Except PyErr (Traj d N K))
  else pure Z

/-- Body of `forward_sampling_Otto_true` (F.py:1078-1091), torch; compare `torchTrueBody`. -/
def torchTrueBodyG (env : Env ρ K) (L : GLines d N K) (c : Cfg d N M K) (ti : Nat) (tt : K)
    (Z : Traj d N K) : RandM ρ (Traj d N K) :=
  if ti = 0 then (pinRows Z 0 c.y1 : Except PyErr (Traj d N K))
  else do
    let x ← (pyGet Z ((ti : Int) - 1) : Except PyErr (Mat d N K))
    match c.fTrue with
    | none => RandM.raise .typeError
    | some ft => do
      let y ← if ti = 1 then do
          let xi ← normalMat env (NumOps.sqrt dtc) d N
          (L.noisy x (ft.call2 x (tt - dtc)) xi : Except PyErr (Mat d N K))
        else do
          let bnds ← (torchBox x : Except PyErr (Fin d → K × K))
          let Sxx ← torchInducing env bnds M
          let gpsi ← (torchTrueScore x Sxx : Except PyErr (Mat d N K))
          (L.otto x (ft.call2 x (tt - dtc)) gpsi : Except PyErr (Mat d N K))
      (setSlice Z ti y : Except PyErr (Traj d N K))

/-- Body of `forward_sampling` (F.py:912-935), torch; compare `torchStochBody`. -/
def torchStochBodyG (env : Env ρ K) (L : GLines d N K) (c : Cfg d N M K) (ti : Nat) (tt : K)
    (Z : Traj d N K) : RandM ρ (Traj d N K) :=
  if ti = 0 then do
    let v0 ← (pyGet (List.ofFn c.y1) 0 : Except PyErr K)
    let Z ← (setRow Z 0 0 v0 : Except PyErr (Traj d N K))
    let v1 ← (pyGet (List.ofFn c.y1) 1 : Except PyErr K)
    (setRow Z 1 0 v1 : Except PyErr (Traj d N K))
  else do
    let x ← (pyGet Z ((ti : Int) - 1) : Except PyErr (Mat d N K))
    let xi ← normalMat env (NumOps.sqrt dtc) d N
    let y ← (L.noisy x (c.f.call2 x (tt - dtc)) xi : Except PyErr (Mat d N K))
    let Z ← (setSlice Z ti y : Except PyErr (Traj d N K))
    if c.reweight then
      match c.U with
      | none => RandM.raise .typeError
      | some U =>
        match U.call1 with
        | none => RandM.raise .typeError
        | some u => do
          let x ← (pyGet Z (ti : Int) : Except PyErr (Mat d N K))
          let y ← (torchReweight env x fun n => NumOps.exp (u x n) : Except PyErr (Mat d N K))
          (setSlice Z ti y : Except PyErr (Traj d N K))
    else pure Z

/-- `backward_simulation` (F.py:1251-1295), torch -/
def torchBackwardSimG (env : Env ρ K) (L : GLines d N K) (c : Cfg d N M K) (timegrid : List K)
    (Z B : Traj d N K) : RandM ρ (Traj d N K) := do
  let B ← enumLoop (backwardBodyG env (fun i B => torchDensityEst env M (effKern c.kern) Z B i)
    (fun i B => torchBwDensityEst env M (effKern c.kern) Z B i) L c timegrid) 0 timegrid.dropLast B
  (pinRows B 0 c.y1 : Except PyErr (Traj d N K))

/-- `torched_DPFC(...)` (F.py:811-893) with given lines for `g`; compare `torchConstruct`. -/
def torchConstructL (env : Env ρ K) (L : GLines d N K) (c : Cfg d N M K) : RandM ρ (Obj d N M K) := do
  let timegrid ← (torchGrid c.t1 c.t2 : Except PyErr (List K))
  let k := timegrid.length
  let Ztr0 : Option (Traj d N K) := if c.reweight && c.brownBridge then some (zerosT d N k) else none
  let Z0 : Traj d N K := zerosT d N k
  let B0 : Traj d N K := zerosT d N k
  if c.deterministic then do
    let Z ← enumLoop (torchOttoBodyG env L c) 0 timegrid Z0
    let Ztr ← match Ztr0 with
      | some T => do
        let T' ← enumLoop (torchTrueBodyG env L c) 0 timegrid T
        pure (some T')
      | none => pure none
    let B ← torchBackwardSimG env L c timegrid Z B0
    pure ⟨c, timegrid, Z, B, Ztr⟩
  else do
    let Z ← enumLoop (torchStochBodyG env L c) 0 timegrid Z0
    let B ← torchBackwardSimG env L c timegrid Z B0
    pure ⟨c, timegrid, Z, B, Ztr0⟩

/-- `torched_DPFC(t1, t2, y1, y2, f, g, ...)` (F.py:811-893) with an array `g`. -/
def torchConstructG (env : Env ρ K) (g : NArr K) (c : Cfg d N M K) : RandM ρ (Obj d N M K) :=
  torchConstructL env (arrayLines .runtimeError g) c

end
end DPFC
