import Verif.Model.Phenotype

/-!
# The path-integral comparison of the phenotype-differentiation script

`data/scripts_for_plots/nonconservative_system_2D/plot_c_elegans_differentiation_2D_systematic.py`, lines 700-898 (G.py):
for every noise strength, polynomial controls are fitted by iterated importance sampling ("PICE") and then used in a
simulation. Modelled for one noise strength, the first one (the variable `iteri` is undefined before the loop). The
numbers of the script are parameters (`PicePars`): number of particles `Npice = n`, order of the basis `bas_order = b`,
number of iterations, learning rate. `np.nansum` and `np.nanmean` are modelled as sum and mean (they differ on NaN only).
`np.linalg.pinv` is a parameter `pinv`. Prints are left out. The time-independent scratch arrays `Ht`, `dQ` are local
variables here: they are overwritten before each use.
-/

namespace DPFC

/-- The settings: thresholds of the drift, start and target (G.py:704-705), noise strength, learning rate `eta`
(G.py:744), `max_iter` (G.py:773). -/
structure PicePars (K : Type) where
  p : PhenoPars K
  x1 : Fin 2 → K
  x2 : Fin 2 → K
  g : K
  eta : K
  maxIter : Nat

section
variable {K ρ : Type} [Add K] [Sub K] [Mul K] [Div K] [Neg K] [NumOps K]
variable {n b : Nat}

/-- `bas(x, ord)` for one state (G.py:711-743). Orders above 15 return `None` in the script, which can not be multiplied;
the model returns zero there and is not meant for `b > 15`. -/
def bas (x : Fin 2 → K) : Nat → K
  | 0 => x 0 * lit 0 1 + lit 1 1
  | 1 => x 0
  | 2 => x 1
  | 3 => x 0 * x 1
  | 4 => sq (x 0)
  | 5 => sq (x 1)
  | 6 => sq (x 0) * x 1
  | 7 => sq (x 1) * x 0
  | 8 => pow3 (x 0)
  | 9 => pow3 (x 1)
  | 10 => sq (x 0) * sq (x 1)
  | 11 => sq (x 0) * sq (x 1)
  | 12 => pow3 (x 0) * x 1
  | 13 => pow3 (x 1) * x 0
  | 14 => pow4 (x 1)
  | 15 => pow4 (x 1)
  | _ => lit 0 1

/-- `uf_pice(x, ti, iteri)` with the coefficients `A = At[:, ti, :, iteri]` (G.py:788-798). -/
def ufPice (A : Mat 2 (b+1) K) (x : Mat 2 n K) : Mat 2 n K := fun a j =>
  NumOps.sum fun l => A a l * bas (fun c => x c j) l.val

/-- `phi(x, alph)` for a scalar `x`, as `np.vectorize` calls it (G.py:752-764): all entries of the target are compared
with the one number. -/
def picePhi (x2 alph : Fin 2 → K) (x : K) : K :=
  NumOps.sum fun i => alph i * NumOps.sqrt (sq (x - x2 i))

/-- Sum over the time axis. -/
def sumT (l : List K) : K := NumOps.sum fun i : Fin l.length => l.get i

/-- The arrays `Z`, `nos`, `us` (G.py:783-784, 801). -/
structure PiceArr (n : Nat) (K : Type) where
  Z : Traj 2 n K
  nos : Traj 2 n K
  us : Traj 2 n K

/-- Body of the simulation loop (G.py:810-814). -/
def piceBody (env : Env ρ K) (c : PicePars K) (A : List (Mat 2 (b+1) K)) (ti : Nat) (_tt : K) (s : PiceArr n K) :
    RandM ρ (PiceArr n K) :=
  if ti = 0 then pure s
  else do
    let xi ← normalMat env (NumOps.sqrt dtc) 2 n
    let nos ← (setSlice s.nos ((ti : Int) - 1) (fun a j => c.g * xi a j) : Except PyErr (Traj 2 n K))
    let x ← (pyGet s.Z ((ti : Int) - 1) : Except PyErr (Mat 2 n K))
    let co ← (pyGet A ((ti : Int) - 1) : Except PyErr (Mat 2 (b+1) K))
    let us ← (setSlice s.us ((ti : Int) - 1) (ufPice co x) : Except PyErr (Traj 2 n K))
    let Z ← (setSlice s.Z ti (fun a j => x a j + dtc * phenoF c.p x a j + dtc * c.g * ufPice co x a j + c.g * xi a j) :
      Except PyErr (Traj 2 n K))
    pure ⟨Z, nos, us⟩

/-- One simulation (G.py:807-814). -/
def piceSim (env : Env ρ K) (c : PicePars K) (grid : List K) (A : List (Mat 2 (b+1) K)) (s : PiceArr n K) :
    RandM ρ (PiceArr n K) := do
  let Z ← (pinRows s.Z 0 c.x1 : Except PyErr (Traj 2 n K))
  enumLoop (piceBody env c A) 0 grid { s with Z := Z }

/-- `Su` (G.py:823) with `R = 1`, `z = Z[:, :, -1]`. -/
def piceCost (c : PicePars K) (alph : Fin 2 → K) (s : PiceArr n K) (z : Mat 2 n K) (j : Fin n) : K :=
  (NumOps.sum fun a => sumT (s.us.map fun u => lit 1 2 * sq (u a j) * dtc))
    + (NumOps.sum fun a => sumT (List.zipWith (fun u e => u a j * e a j) s.us s.nos))
    - (NumOps.sum fun a => -(picePhi c.x2 alph (z a j)))

/-- The weights `wu` (G.py:824-829). -/
def piceWeights (c : PicePars K) (alph : Fin 2 → K) (s : PiceArr n K) (z : Mat 2 n K) : Fin n → K :=
  normWeights fun j => NumOps.exp (-(piceCost c alph s z j))

/-- The new coefficients of one time point (G.py:865-870): `x` the slice of `Z`, `e` that of `nos`, `w` the weights,
`A` the old ones. -/
def piceFit (c : PicePars K) (pinv : Mat (b+1) (b+1) K → Mat (b+1) (b+1) K) (w : Fin n → K) (x e : Mat 2 n K)
    (A : Mat 2 (b+1) K) : Mat 2 (b+1) K :=
  let h : Mat (b+1) n K := fun l j => bas (fun a => x a j) l.val
  let H : Mat (b+1) (b+1) K := fun l m => NumOps.sum fun j => w j * h l j * h m j
  fun a l =>
    let dQ : Fin (b+1) → K := fun m => NumOps.sum fun j => w j * e a j * h m j
    A a l + NumOps.sum fun m => c.eta * dQ m / dtc * pinv H m l

/-- Coefficients of the next iteration for all time points (G.py:862-870): the loop runs over the time grid. -/
def piceFitAll (c : PicePars K) (pinv : Mat (b+1) (b+1) K → Mat (b+1) (b+1) K) (w : Fin n → K) (s : PiceArr n K)
    (A : List (Mat 2 (b+1) K)) (k : Nat) : Except PyErr (List (Mat 2 (b+1) K)) :=
  (List.range k).mapM fun (ti : Nat) => do
    let x ← pyGet s.Z (ti : Int)
    let e ← pyGet s.nos (ti : Int)
    let a ← pyGet A (ti : Int)
    .ok (piceFit c pinv w x e a)

/-- `np.mean(np.diff(e[i-50:i]))` (G.py:842, 848), for `i > 50`. -/
def meanDiff (e : List K) (i : Nat) : K :=
  let s := (e.drop (i - 50)).take 50
  let d := List.zipWith (fun a b => b - a) s s.tail
  sumT d / lit d.length 1

/-- Weights of the end cost and counters `just_changed1`, `just_changed2` (G.py:785, 802-803). -/
structure PiceAnneal (K : Type) where
  alph : Fin 2 → K
  jc1 : Int
  jc2 : Int

/-- The annealing branch (G.py:842-857). -/
def piceAnneal (e1 e2 : List K) (i : Nat) (q : PiceAnneal K) : PiceAnneal K :=
  if 50 < i ∧ NumOps.ltB (NumOps.abs (meanDiff e1 i)) (lit 1 1000) = true ∧ q.jc1 ≤ 0 then
    { q with alph := fun a => if a = 0 then q.alph 0 * lit 125 100 else q.alph a, jc1 := 50 }
  else if 50 < i ∧ NumOps.ltB (NumOps.abs (meanDiff e2 i)) (lit 1 1000) = true ∧ q.jc2 ≤ 0 then
    { q with alph := fun a => if a = 1 then q.alph 1 * lit 125 100 else q.alph a, jc2 := 50 }
  else { q with jc1 := q.jc1 - 1, jc2 := q.jc2 - 1 }

/-- The variables of the iteration: coefficients `At` (by iteration, then time), arrays, recorded end points, annealing
state (G.py:780-803). -/
structure PiceState (n b : Nat) (K : Type) where
  At : List (List (Mat 2 (b+1) K))
  arr : PiceArr n K
  e1 : List K
  e2 : List K
  ann : PiceAnneal K

/-- One iteration (G.py:804-870); the flag is true if the loop is left by `break`. -/
def piceIter (env : Env ρ K) (c : PicePars K) (pinv : Mat (b+1) (b+1) K → Mat (b+1) (b+1) K) (grid : List K) (i : Nat)
    (s : PiceState n b K) : RandM ρ (Bool × PiceState n b K) := do
  let A ← (pyGet s.At (i : Int) : Except PyErr (List (Mat 2 (b+1) K)))
  let arr ← piceSim env c grid A s.arr
  let z ← (pyGet arr.Z (-1) : Except PyErr (Mat 2 n K))
  let w := piceWeights c s.ann.alph arr z
  let e1 ← (setCol s.e1 (i : Int) (mean (z 0)) : Except PyErr (List K))
  let e2 ← (setCol s.e2 (i : Int) (mean (z 1)) : Except PyErr (List K))
  if NumOps.leB (NumOps.abs (mean (z 0) - c.x2 0)) (lit 1 100)
      && NumOps.leB (NumOps.abs (mean (z 1) - c.x2 1)) (lit 1 100) then
    pure (true, { s with arr := arr, e1 := e1, e2 := e2 })
  else do
    let ann := piceAnneal e1 e2 i s.ann
    let A' ← (piceFitAll c pinv w arr A grid.length : Except PyErr (List (Mat 2 (b+1) K)))
    let At ← (setCol s.At ((i : Int) + 1) A' : Except PyErr (List (List (Mat 2 (b+1) K))))
    pure (false, ⟨At, arr, e1, e2, ann⟩)

/-- `for iteri in range(0, max_iter-1)` and `iterat = iteri` (G.py:804, 873): `m` iterations are left, the next one has
number `i`. Without any iteration `iteri` is not defined. -/
def piceLoop (env : Env ρ K) (c : PicePars K) (pinv : Mat (b+1) (b+1) K → Mat (b+1) (b+1) K) (grid : List K) :
    Nat → Nat → PiceState n b K → RandM ρ (Nat × PiceState n b K)
  | 0, 0, _ => RandM.raise .nameError
  | 0, i+1, s => pure (i, s)
  | m+1, i, s => do
    let p ← piceIter env c pinv grid i s
    if p.1 then pure (i, p.2) else piceLoop env c pinv grid m (i+1) p.2

/-- The variables before the loop (G.py:780-803). -/
def piceInit (c : PicePars K) (n b k : Nat) : PiceState n b K where
  At := List.replicate c.maxIter (List.replicate k fun _ _ => lit 0 1)
  arr := ⟨zerosT 2 n k, zerosT 2 n k, zerosT 2 n k⟩
  e1 := List.replicate c.maxIter (lit 0 1)
  e2 := List.replicate c.maxIter (lit 0 1)
  ann := ⟨fun _ => lit 1 1, 0, 0⟩

/-- `Fcont_pice`, `used_upice` (G.py:875-876). -/
structure PicePaths (m : Nat) (K : Type) where
  F : Traj 2 m K
  U : Traj 2 m K

/-- Body of the final simulation (G.py:878-895) with the coefficients `A` of iteration `iterat`. -/
def piceEvalBody {m : Nat} (env : Env ρ K) (c : PicePars K) (A : List (Mat 2 (b+1) K)) (ti : Nat) (_tt : K)
    (s : PicePaths m K) : RandM ρ (PicePaths m K) :=
  if ti = 0 then do
    let F ← (setSlice s.F ti (fun a _ => c.x1 a) : Except PyErr (Traj 2 m K))
    pure { s with F := F }
  else do
    let x ← (pyGet s.F ((ti : Int) - 1) : Except PyErr (Mat 2 m K))
    let co ← (pyGet A ((ti : Int) - 1) : Except PyErr (Mat 2 (b+1) K))
    let U ← (setSlice s.U ti (ufPice co x) : Except PyErr (Traj 2 m K))
    let xi ← normalMat env (NumOps.sqrt dtc) 2 m
    let F ← (setSlice s.F ti (fun a j => x a j + dtc * phenoF c.p x a j + dtc * sq c.g * ufPice co x a j + c.g * xi a j) :
      Except PyErr (Traj 2 m K))
    pure ⟨F, U⟩

/-- The final simulation of `m` paths (G.py:875-895). -/
def piceEval (env : Env ρ K) (c : PicePars K) (m : Nat) (grid : List K) (A : List (Mat 2 (b+1) K)) :
    RandM ρ (PicePaths m K) :=
  enumLoop (piceEvalBody env c A) 0 grid ⟨zerosT 2 m grid.length, zerosT 2 m grid.length⟩

/-- The fitting and the final simulation for one noise strength (G.py:777-898): number of the last iteration, state of the
iteration, paths. -/
def piceRun (env : Env ρ K) (c : PicePars K) (pinv : Mat (b+1) (b+1) K → Mat (b+1) (b+1) K) (n m : Nat) (grid : List K) :
    RandM ρ (Nat × PiceState n b K × PicePaths m K) := do
  let (it, s) ← piceLoop env c pinv grid (c.maxIter - 1) 0 (piceInit c n b grid.length)
  let A ← (pyGet s.At (it : Int) : Except PyErr (List (Mat 2 (b+1) K)))
  let P ← piceEval env c m grid A
  pure (it, s, P)

end
end DPFC
