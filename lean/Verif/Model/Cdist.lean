import Verif.Model.Score

/-!
# Fine-grained concurrency model of `my_cdist`

`score_function_estimators.py:29-77`. Every iteration `(i, j)` of the two `numba.prange` loops is a task
with a private program counter and accumulator; one micro-step is one addition `tmp += ...` or the store
to `output[i, j]`. A schedule is any finite sequence of task picks (a pick of a finished task does
nothing), so tasks interleave arbitrarily at the granularity of single additions and stores.
Simplification: a store is atomic; `fastmath` re-association of the private sum is not modelled (over the
reals it is immaterial).
-/

namespace DPFC

section
variable {K : Type} [Add K] [Sub K] [Mul K] [Div K] [Neg K] [NumOps K]
variable {N M d : Nat}

/-- Private state of a task: `run k tmp` has done `k` additions, `done` has stored its result
(score_function_estimators.py:59-62). -/
inductive Task (K : Type)
  | run (k : Nat) (tmp : K)
  | done

/-- State of the parallel loops: private states of all tasks and the shared array `output`. -/
structure CdState (N M : Nat) (K : Type) where
  task : Fin N → Fin M → Task K
  out : Mat N M K

/-- `tmp = 0.0` in every task (score_function_estimators.py:59, 66, 73). -/
def cdInit (out : Mat N M K) : CdState N M K := ⟨fun _ _ => .run 0 (lit 0 1), out⟩

/-- The value stored for the accumulated `tmp` (score_function_estimators.py:62, 69, 76); `'l1'` takes
the square root of the sum of squares. -/
def cdFinish (dist : String) (tmp : K) : K := if dist = "sqeuclidean" then tmp else NumOps.sqrt tmp

/-- One micro-step of task `(i, j)` (score_function_estimators.py:59-62, 66-69, 73-76). -/
def cdStep (r : Mat N d K) (y : Mat M d K) (dist : String) (c : Fin N × Fin M)
    (s : CdState N M K) : CdState N M K :=
  match s.task c.1 c.2 with
  | .done => s
  | .run k tmp =>
    if h : k < d then
      ⟨fun i j => if i = c.1 ∧ j = c.2 then Task.run (k+1) (tmp + sq (r c.1 ⟨k, h⟩ - y c.2 ⟨k, h⟩))
         else s.task i j, s.out⟩
    else
      ⟨fun i j => if i = c.1 ∧ j = c.2 then .done else s.task i j,
       fun i j => if i = c.1 ∧ j = c.2 then cdFinish dist tmp else s.out i j⟩

/-- `my_cdist(r, y, output, dist)` after the micro-steps of `sched` (score_function_estimators.py:29-77):
an unknown `dist` executes no loop at all. -/
def cdRun (r : Mat N d K) (y : Mat M d K) (dist : String) (sched : List (Fin N × Fin M))
    (s : CdState N M K) : CdState N M K :=
  if dist = "euclidean" ∨ dist = "sqeuclidean" ∨ dist = "l1" then
    sched.foldl (fun s c => cdStep r y dist c s) s
  else s

end
end DPFC
