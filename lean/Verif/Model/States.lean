import Verif.Model.TorchDPFC

/-!
# Containers and shapes of the initial and the target state

The other models take `y1` and `y2` as vectors with `dim` entries. Here they are arrays of any size with one or two
axes, as numpy arrays, torch tensors or lists. The code only uses `y1.size` (numpy) or `y1.size(dim=0)` (torch) for the
dimension and `y1[di]`, `y2[di]`, broadcast along the particle axis.

F.py = DeterministicParticleFlowControl/DeterministicParticleFlowControl.py.

From the second time point on the loops do not use `y1` and `y2`; for these passes the loop bodies of `Verif.Model.DPFC` and
`Verif.Model.TorchDPFC` are used (the vectors stored in `Cfg` play no role in them).
-/

namespace DPFC

/-- An array with one or two axes. -/
inductive StateArg (K : Type)
  /-- shape `(len,)` -/
  | flat (v : List K)
  /-- shape `(a, b)` -/
  | mat {a b : Nat} (m : Mat a b K)
  /-- in the torch class only: a numpy array with two axes and `a` rows as target, whose rows cannot be assigned to a part of
  a tensor -/
  | foreign (a : Nat)

namespace StateArg
variable {K : Type}

/-- `y.size` of a numpy array -/
def size : StateArg K → Nat
  | flat v => v.length
  | @mat _ a b _ => a * b
  | foreign a => a

/-- `y.size(dim=0)` of a tensor -/
def rows : StateArg K → Nat
  | flat v => v.length
  | @mat _ a _ _ => a
  | foreign a => a

end StateArg

section
variable {K ρ : Type} [Add K] [Sub K] [Mul K] [Div K] [Neg K] [NumOps K]
variable {N M d : Nat}

/-- `T[r, :, t] = v` for a vector `v` with `b` entries: broadcast if `b = 1`, entry by entry if `b = N`, otherwise the error of
the library (numpy ValueError, torch RuntimeError). -/
def setRowVec (bad : PyErr) (T : Traj d N K) (r t : Int) {b : Nat} (v : Fin b → K) : Except PyErr (Traj d N K) := do
  let i ← pyIdx d r
  let j ← pyIdx T.length t
  if h : b = N then .ok (T.modify j fun S a n => if a.val = i then v (Fin.cast h.symm n) else S a n)
  else if h : b = 1 then .ok (T.modify j fun S a n => if a.val = i then v ⟨0, by omega⟩ else S a n)
  else .error bad

/-- `T[di, :, t] = y[di]` -/
def putState (bad : PyErr) (T : Traj d N K) (di : Nat) (t : Int) : StateArg K → Except PyErr (Traj d N K)
  | .flat v => do
    let x ← pyGet v di
    setRow T di t x
  | @StateArg.mat _ a _ m =>
    if h : di < a then setRowVec bad T di t (m ⟨di, h⟩) else .error .indexError
  | .foreign a => if di < a then .error .typeError else .error .indexError

/-- `for di in range(dim): T[di, :, t] = y[di]` (F.py:262-263, 387-388, 531-532, 550-551; 1081-1082, 1269-1270, 1293-1294). -/
def pinState (bad : PyErr) (T : Traj d N K) (t : Int) (y : StateArg K) : Except PyErr (Traj d N K) :=
  forFin d (fun di T => putState bad T di.val t y) T

/-- The first pass of the deterministic forward loops (F.py:420-424, 1116-1120). -/
def startState (bad : PyErr) (bb : Bool) (y1 y2 : StateArg K) (Z : Traj d N K) : Except PyErr (Traj d N K) :=
  forFin d (fun di Z => do
    let Z ← putState bad Z di.val 0 y1
    if bb then putState bad Z di.val (-1) y2 else .ok Z) Z

/-- The first pass of the stochastic forward loops: coordinates 0 and 1 only (F.py:240-242, 913-915). -/
def startStoch (bad : PyErr) (y1 : StateArg K) (Z : Traj d N K) : Except PyErr (Traj d N K) := do
  let Z ← putState bad Z 0 0 y1
  putState bad Z 1 0 y1

/-- A loop over the time points whose first pass is `first` and whose later passes are `body`. -/
def loopFrom (first : Traj d N K → Except PyErr (Traj d N K)) (body : Nat → K → Traj d N K → RandM ρ (Traj d N K))
    (ts : List K) (Z : Traj d N K) : RandM ρ (Traj d N K) :=
  match ts with
  | [] => pure Z
  | _ :: ts => do
    let Z ← (first Z : Except PyErr (Traj d N K))
    enumLoop body 1 ts Z

/-- `DPFC(...)` with arbitrary states (F.py:156-221). -/
def constructStates (env : Env ρ K) (c : Cfg d N M K) (y1 y2 : StateArg K) : RandM ρ (Obj d N M K) := do
  let bad := PyErr.valueError
  let timegrid := mkGrid c.t1 c.t2
  let k := timegrid.length
  let Ztr0 : Option (Traj d N K) := if c.reweight && c.brownBridge then some (zerosT d N k) else none
  let Z0 : Traj d N K := zerosT d N k
  let B0 : Traj d N K := zerosT d N k
  let backward := fun Z => do
    let B ← loopFrom (fun B => pinState bad B (-1) y2) (backwardBody env c timegrid Z) timegrid.dropLast B0
    (pinState bad B 0 y1 : Except PyErr (Traj d N K))
  if c.deterministic then do
    let Z ← loopFrom (startState bad c.brownBridge y1 y2) (ottoBody env c) timegrid Z0
    let Ztr ← match Ztr0 with
      | some T => do
        let T' ← loopFrom (fun T => pinState bad T 0 y1) (ottoTrueBody env c) timegrid T
        pure (some T')
      | none => pure none
    let B ← backward Z
    pure ⟨c, timegrid, Z, B, Ztr⟩
  else do
    let Z ← loopFrom (startStoch bad y1) (stochBody env c) timegrid Z0
    let Z ← (pinState bad Z (-1) y2 : Except PyErr (Traj d N K))
    let B ← backward Z
    pure ⟨c, timegrid, Z, B, Ztr0⟩

/-- `torched_DPFC(...)` with arbitrary states (F.py:811-893); the stochastic forward flow does not use `y2`. -/
def torchConstructStates (env : Env ρ K) (c : Cfg d N M K) (y1 y2 : StateArg K) : RandM ρ (Obj d N M K) := do
  let bad := PyErr.runtimeError
  let timegrid ← (torchGrid c.t1 c.t2 : Except PyErr (List K))
  let k := timegrid.length
  let Ztr0 : Option (Traj d N K) := if c.reweight && c.brownBridge then some (zerosT d N k) else none
  let Z0 : Traj d N K := zerosT d N k
  let B0 : Traj d N K := zerosT d N k
  let backward := fun Z => do
    let B ← loopFrom (fun B => pinState bad B (-1) y2) (torchBackwardBody env c timegrid Z) timegrid.dropLast B0
    (pinState bad B 0 y1 : Except PyErr (Traj d N K))
  if c.deterministic then do
    let Z ← loopFrom (startState bad c.brownBridge y1 y2) (torchOttoBody env c) timegrid Z0
    let Ztr ← match Ztr0 with
      | some T => do
        let T' ← loopFrom (fun T => pinState bad T 0 y1) (torchTrueBody env c) timegrid T
        pure (some T')
      | none => pure none
    let B ← backward Z
    pure ⟨c, timegrid, Z, B, Ztr⟩
  else do
    let Z ← loopFrom (startStoch bad y1) (torchStochBody env c) timegrid Z0
    let B ← backward Z
    pure ⟨c, timegrid, Z, B, Ztr0⟩

/-- The container in which a state is given. Arrays are of dtype float64; `foreign` stands for no array or tensor here. -/
inductive Given (K : Type)
  | array (s : StateArg K)
  | tensor (s : StateArg K)
  | list (v : List K)

/-- The arguments `y1`, `y2` as the numpy constructor sees them. `y1.size` must be a number (F.py:158): lists have no such
attribute, for a tensor it is a method and `np.zeros((self.dim, ..))` raises TypeError. `y2` is only indexed. -/
def npStates : Given K → Given K → Except PyErr (StateArg K × StateArg K)
  | .array s, .array s' | .array s, .tensor s' => .ok (s, s')
  | .array s, .list v => .ok (s, .flat v)
  | .tensor _, _ => .error .typeError
  | .list _, _ => .error .attributeError

/-- The arguments `y1`, `y2` as the torch constructor sees them. `y1.size(dim=0)` (F.py:818) is called before the conversion of
arrays (821-823), which is therefore never reached: for a numpy array `y1.size` is not callable. -/
def torchStates : Given K → Given K → Except PyErr (StateArg K × StateArg K)
  | .tensor s, .tensor s' => .ok (s, s')
  | .tensor s, .array (.mat (a := a) _) => .ok (s, .foreign a)
  | .tensor s, .array s' => .ok (s, s')
  | .tensor s, .list v => .ok (s, .flat v)
  | .array _, _ => .error .typeError
  | .list _, _ => .error .attributeError

/-- `DPFC(...)` with states in any container; the dimension is `y1.size` (F.py:158). `c d` are the other arguments, with drift
and constraint for states of dimension `d`. -/
def npNew (env : Env ρ K) (c : (d : Nat) → Cfg d N M K) (y1 y2 : Given K) : RandM ρ (Σ d, Obj d N M K) := do
  let (s, s') ← (npStates y1 y2 : Except PyErr (StateArg K × StateArg K))
  let o ← constructStates env (c s.size) s s'
  pure ⟨s.size, o⟩

/-- `torched_DPFC(...)` with states in any container; the dimension is `y1.size(dim=0)` (F.py:818). -/
def torchNew (env : Env ρ K) (c : (d : Nat) → Cfg d N M K) (y1 y2 : Given K) : RandM ρ (Σ d, Obj d N M K) := do
  let (s, s') ← (torchStates y1 y2 : Except PyErr (StateArg K × StateArg K))
  let o ← torchConstructStates env (c s.rows) s s'
  pure ⟨s.rows, o⟩

end
end DPFC
