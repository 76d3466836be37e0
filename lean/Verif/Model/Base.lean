import Mathlib.Data.Fin.Tuple.Basic

/-!
# Layer G: scalars, Python indexing, random streams

Everything here is polymorphic in the scalar type `K`; only *operations* are
required of `K`, no laws.
-/

namespace DPFC

/-- The Python exceptions that the modelled code can raise.  `nameError` covers
`NameError` and its subclass `UnboundLocalError`. -/
inductive PyErr
  | indexError | typeError | nameError | valueError | linAlgError
  | attributeError | runtimeError | overflowError
  deriving DecidableEq, Repr

/-- `n x m` arrays. -/
abbrev Mat (n m : Nat) (K : Type) := Fin n → Fin m → K

/-- Scalar operations used by the code besides `+ - * /` and unary minus.
No laws are assumed: an instance may round, overflow, produce NaN, sum in any order. -/
class NumOps (K : Type) where
  /-- the literal `p/q` (for instance `0.001` is `lit 1 1000`, `2` is `lit 2 1`) -/
  lit : Int → Nat → K
  exp : K → K
  sqrt : K → K
  sin : K → K
  cos : K → K
  abs : K → K
  /-- `<` -/
  ltB : K → K → Bool
  /-- `<=` -/
  leB : K → K → Bool
  /-- `==` -/
  eqB : K → K → Bool
  /-- `np.isfinite` -/
  isFinite : K → Bool
  /-- number of points of an `arange` whose (stop-start)/step is the argument:
  the ceiling, `0` when negative -/
  ceilNat : K → Nat
  /-- sum of a vector (np.sum / torch.sum / accumulation inside `@`) -/
  sum : {n : Nat} → (Fin n → K) → K
  /-- minimum of a non-empty vector -/
  amin : {n : Nat} → (Fin (n+1) → K) → K
  /-- maximum of a non-empty vector -/
  amax : {n : Nat} → (Fin (n+1) → K) → K
  /-- `linalg.inv`: the inverse, or `LinAlgError` -/
  inv : {m : Nat} → Mat m m K → Except PyErr (Mat m m K)

export NumOps (lit)

section
variable {K : Type} [Add K] [Sub K] [Mul K] [Div K] [Neg K] [NumOps K]

/-- `x**2` -/
def sq (x : K) : K := x * x

/-- `np.eye` entries. -/
def eye {m : Nat} : Mat m m K := fun i j => if i = j then lit 1 1 else lit 0 1

/-- `A @ B` for two 2-d arrays. -/
def mm {n m p : Nat} (A : Mat n m K) (B : Mat m p K) : Mat n p K :=
  fun i j => NumOps.sum fun k => A i k * B k j

/-- `A @ v` for a 2-d and a 1-d array. -/
def mv {n m : Nat} (A : Mat n m K) (v : Fin m → K) : Fin n → K :=
  fun i => NumOps.sum fun k => A i k * v k

/-- `-A` -/
def negM {n m : Nat} (A : Mat n m K) : Mat n m K := fun i j => -(A i j)

/-- `A.T` -/
def tr {n m : Nat} (A : Mat n m K) : Mat m n K := fun i j => A j i

/-- `np.mean` of a vector: sum divided by its length. -/
def mean {n : Nat} (v : Fin n → K) : K := NumOps.sum v / lit n 1

/-- `np.std` of a vector (population standard deviation, ddof = 0). -/
def npStd {n : Nat} (v : Fin n → K) : K :=
  NumOps.sqrt ((NumOps.sum fun i => sq (v i - mean v)) / lit n 1)

/-- `torch.std` of a vector (sample standard deviation, divisor `n-1`). -/
def torchStd {n : Nat} (v : Fin n → K) : K :=
  NumOps.sqrt ((NumOps.sum fun i => sq (v i - mean v)) / lit ((n : Int) - 1) 1)

/-- `np.min` of a vector; a zero-size array raises ValueError. -/
def npMin : {n : Nat} → (Fin n → K) → Except PyErr K
  | 0, _ => .error .valueError
  | _+1, v => .ok (NumOps.amin v)

/-- `np.max` of a vector; a zero-size array raises ValueError. -/
def npMax : {n : Nat} → (Fin n → K) → Except PyErr K
  | 0, _ => .error .valueError
  | _+1, v => .ok (NumOps.amax v)

/-- Python's builtin `max(a, b)`: the second argument only if it is strictly greater. -/
def pyMax (a b : K) : K := if NumOps.ltB a b then b else a

/-- Python's builtin `min(a, b)`: the second argument only if it is strictly smaller. -/
def pyMin (a b : K) : K := if NumOps.ltB b a then b else a

/-- `torch.arange(start, stop, step)`: `ceil((stop-start)/step)` points `start + i*step`. (With vectorised
instructions torch adds up `i*step` in blocks; this only concerns rounding of the points.) -/
def arange (start stop step : K) : List K :=
  (List.range (NumOps.ceilNat ((stop - start) / step))).map fun (i : Nat) =>
    start + lit (i : Int) 1 * step

/-- Point `i` of `np.arange(start, stop, step)`: the first two points are `start` and `start + step`, the others
are filled in with the *difference of these two* as increment. In exact arithmetic this is
`start + i*step`. -/
def npArangePoint (start step : K) (i : Nat) : K :=
  if i = 0 then start
  else if i = 1 then start + step
  else start + lit (i : Int) 1 * (start + step - start)

/-- `np.arange(start, stop, step)`: `ceil((stop-start)/step)` points. -/
def npArange (start stop step : K) : List K :=
  (List.range (NumOps.ceilNat ((stop - start) / step))).map (npArangePoint start step)

end

/-- Python index normalisation for a sequence of length `len`: negative indices count from
the end, everything outside `-len..len-1` raises IndexError. -/
def pyIdx (len : Nat) (i : Int) : Except PyErr Nat :=
  if 0 ≤ i then
    if i < (len : Int) then .ok i.toNat else .error .indexError
  else if -(len : Int) ≤ i then .ok (i + (len : Int)).toNat else .error .indexError

/-- `l[i]` on a Python sequence. -/
def pyGet {α : Type} (l : List α) (i : Int) : Except PyErr α := do
  let j ← pyIdx l.length i
  match l[j]? with
  | some a => .ok a
  | none => .error .indexError

/-- A trajectory array of shape `(d, N, k)`, stored as the list of its `k` slices `[:, :, t]`. -/
abbrev Traj (d N : Nat) (K : Type) := List (Mat d N K)

/-- `T[:, :, t] = S` -/
def setSlice {d N : Nat} {K : Type} (T : Traj d N K) (t : Int) (S : Mat d N K) :
    Except PyErr (Traj d N K) := do
  let j ← pyIdx T.length t
  .ok (T.set j S)

/-- `T[r, :, t] = v` (a scalar broadcast along the particle axis). -/
def setRow {d N : Nat} {K : Type} (T : Traj d N K) (r t : Int) (v : K) :
    Except PyErr (Traj d N K) := do
  let i ← pyIdx d r
  let j ← pyIdx T.length t
  .ok (T.modify j fun S a n => if a.val = i then v else S a n)

/-- Computations with a random stream of state type `ρ` that may raise. -/
def RandM (ρ : Type) (α : Type) := ρ → Except PyErr (α × ρ)

namespace RandM
variable {ρ α β : Type}

/-- return -/
protected def pure (a : α) : RandM ρ α := fun r => .ok (a, r)

/-- sequencing; the first exception aborts -/
protected def bind (x : RandM ρ α) (f : α → RandM ρ β) : RandM ρ β := fun r =>
  match x r with
  | .error e => .error e
  | .ok (a, r') => f a r'

instance : Monad (RandM ρ) where
  pure := RandM.pure
  bind := RandM.bind

/-- a computation without random draws -/
def lift (x : Except PyErr α) : RandM ρ α := fun r =>
  match x with
  | .error e => .error e
  | .ok a => .ok (a, r)

instance : MonadLift (Except PyErr) (RandM ρ) := ⟨lift⟩

/-- raise an exception -/
def raise (e : PyErr) : RandM ρ α := fun _ => .error e

end RandM

/-- Run `f 0, f 1, ..., f (n-1)` in this order (a Python `for` loop or list comprehension
filling an array row by row). -/
def seqM {m : Type → Type} [Monad m] {α : Type} : (n : Nat) → (Fin n → m α) → m (Fin n → α)
  | 0, _ => pure fun i => i.elim0
  | n+1, f => do
    let a ← f 0
    let rest ← seqM n fun i => f i.succ
    pure (Fin.cons a rest)

/-- Run `f 0 s`, then `f 1` on the result, ... (a Python `for i in range(n)` loop updating
state `s`). -/
def forFin {m : Type → Type} [Monad m] {σ : Type} : (n : Nat) → (Fin n → σ → m σ) → σ → m σ
  | 0, _, s => pure s
  | n+1, f, s => do
    let s' ← f 0 s
    forFin n (fun i => f i.succ) s'

/-- Draw `n` values one after the other. -/
def drawVec {ρ α : Type} (draw : ρ → α × ρ) : (n : Nat) → ρ → (Fin n → α) × ρ
  | 0, r => (fun i => i.elim0, r)
  | n+1, r =>
    let (a, r1) := draw r
    let (v, r2) := drawVec draw n r1
    (Fin.cons a v, r2)

/-- The outside world of the library: random generators and transport solver.
`normal` draws one standard normal, `uniform` one standard uniform number;
`emd a b M` is the transport plan returned by `pyemd.emd_with_flow(a, b, M, -1)[1]` (numpy)
or by `ot.emd(a, b, M)` (torch). -/
structure Env (ρ K : Type) where
  normal : ρ → K × ρ
  uniform : ρ → K × ρ
  emd : {n : Nat} → (Fin n → K) → (Fin n → K) → Mat n n K → Except PyErr (Mat n n K)

section
variable {K ρ : Type} [Add K] [Sub K] [Mul K] [Div K] [Neg K] [NumOps K]

/-- `np.random.normal(loc=0.0, scale=s, size=(d, n))` (and torch's
`empty([d, n]).normal_(mean=0, std=s)`): standard normals scaled, filled in row-major order. -/
def normalMat (env : Env ρ K) (s : K) (d n : Nat) : RandM ρ (Mat d n K) := fun r =>
  let (z, r') := drawVec (drawVec env.normal n) d r
  .ok (fun i j => lit 0 1 + s * z i j, r')

/-- `np.random.normal(loc=0.0, scale=s, size=(d,))` -/
def normalVec (env : Env ρ K) (s : K) (d : Nat) : RandM ρ (Fin d → K) := fun r =>
  let (z, r') := drawVec env.normal d r
  .ok (fun i => lit 0 1 + s * z i, r')

/-- `np.random.uniform(low=lo, high=hi, size=M)`: raises OverflowError if `hi - lo` is not
finite, otherwise `lo + (hi-lo)*u`. -/
def npUniform (env : Env ρ K) (lo hi : K) (M : Nat) : RandM ρ (Fin M → K) := fun r =>
  if NumOps.isFinite (hi - lo) then
    let (u, r') := drawVec env.uniform M r
    .ok (fun i => lo + (hi - lo) * u i, r')
  else .error .overflowError

/-- `np.array([np.random.uniform(low=bnd[0], high=bnd[1], size=(M)) for bnd in bnds])`
(DeterministicParticleFlowControl.py:303, 355, 466, 503, 677). Result has shape `(d, M)`. -/
def npInducing (env : Env ρ K) {d : Nat} (bnds : Fin d → K × K) (M : Nat) :
    RandM ρ (Mat d M K) :=
  seqM d fun ii => npUniform env (bnds ii).1 (bnds ii).2 M

/-- `torch.distributions.Uniform(low=bnds[:,0], high=bnds[:,1]).sample([M])`
(DeterministicParticleFlowControl.py:978, 1041, 1192, 1237, 1432): argument validation raises
ValueError unless `low < high` in every coordinate. Result has shape `(M, d)`,
drawn in row-major order, `low + rand*(high-low)`. -/
def torchInducing (env : Env ρ K) {d : Nat} (bnds : Fin d → K × K) (M : Nat) :
    RandM ρ (Mat M d K) := fun r =>
  if (List.finRange d).all fun ii => NumOps.ltB (bnds ii).1 (bnds ii).2 then
    let (u, r') := drawVec (drawVec env.uniform d) M r
    .ok (fun m ii => (bnds ii).1 + u m ii * ((bnds ii).2 - (bnds ii).1), r')
  else .error .valueError

end

end DPFC
