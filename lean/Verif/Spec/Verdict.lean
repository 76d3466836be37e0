import Verif.Spec.Recurrence

/-! Which argument combinations the constructor of the numpy class accepts. -/

namespace DPFC.Spec
variable {d N M : ℕ}

/-- The kernel name is one of the two known ones. -/
def KnownKernel (kern : String) : Prop := kern = "RBF" ∨ kern = "periodic"

instance (kern : String) : Decidable (KnownKernel kern) := by unfold KnownKernel; infer_instance

/-- What `DPFC(...)` does on a grid of `k` points: `none` means that an object is returned, `some e` that
exception `e` is raised. -/
def npVerdict (k : ℕ) (c : Cfg d N M ℝ) : Option PyErr :=
  -- `t2 < t1`: there is no grid point
  if k = 0 then some .indexError else
  if c.deterministic = true then
    -- a single point: nothing is simulated
    if k = 1 then none
    -- `reweight=True` without `U`
    else if c.reweight = true ∧ c.U.isNone then some .typeError
    -- an unknown kernel matters as soon as a score is estimated
    else if 3 ≤ k ∧ ¬ KnownKernel c.kern then some .nameError
    -- Brownian-bridge mode without `f_true`
    else if c.reweight = true ∧ c.brownBridge = true ∧ c.fTrue.isNone then some .typeError
    else none
  else
    -- the stochastic sampler writes coordinates 0 and 1
    if d < 2 then some .indexError
    else if k = 1 then none
    -- it calls `f(x)` and `U(x)` with one argument
    else if c.f.call1.isNone then some .typeError
    else if c.reweight = true ∧ (c.U.bind (·.call1)).isNone then some .typeError
    else if 3 ≤ k ∧ ¬ KnownKernel c.kern then some .nameError
    else none

/-- The shapes for which the true-drift flow of the torch class can be computed: it passes the inducing
points transposed. -/
def BridgeShapes (d N M : ℕ) : Prop := (M = d ∧ N = d) ∨ (M = 1 ∧ (N = d ∨ N = 1))

instance (d N M : ℕ) : Decidable (BridgeShapes d N M) := by unfold BridgeShapes; infer_instance

/-- What `torched_DPFC(...)` does on a grid of `k` points unless a cloud without spread stops it with a
ValueError first: `none` means that an object is returned, `some e` that exception `e` is raised. -/
def torchVerdict (k : ℕ) (c : Cfg d N M ℝ) : Option PyErr :=
  if k = 0 then some .indexError else
  if c.deterministic = true then
    if k = 1 then none
    else if c.reweight = true ∧ c.U.isNone then some .typeError
    else if c.reweight = true ∧ c.brownBridge = true ∧ c.fTrue.isNone then some .typeError
    -- the score of the true-drift flow is first needed with three points
    else if 3 ≤ k ∧ c.reweight = true ∧ c.brownBridge = true ∧ ¬ BridgeShapes d N M then
      some .runtimeError
    -- the function output needs a vector lengthscale and a known kernel
    else if 3 ≤ k ∧ (d = 1 ∨ ¬ KnownKernel c.kern) then some .nameError
    else none
  else
    if d < 2 then some .indexError
    else if k = 1 then none
    else if c.reweight = true ∧ (c.U.bind (·.call1)).isNone then some .typeError
    else if 3 ≤ k ∧ ¬ KnownKernel c.kern then some .nameError
    else none

/-- Either the outcome `v` of the table, or ValueError and at least three grid points. -/
def OutcomeOrValueError {ρ : Type} (k : ℕ) (v : Option PyErr) (res : Except PyErr (Obj d N M ℝ × ρ)) :
    Prop :=
  (match v with
    | some e => res = .error e
    | none => ∃ o r', res = .ok (o, r')) ∨ (3 ≤ k ∧ res = .error .valueError)

/-- Some initial part `Z 0, ..., Z i` of the deterministic forward flow of the torch class, started at
`y1` with the random state `r`, ends after at least one step in a cloud that has no spread in some
coordinate. -/
def LosesSpread {ρ : Type} (env : Env ρ ℝ) (c : Cfg d N M ℝ) (grid : List ℝ) (r : ρ) : Prop :=
  ∃ (i : ℕ) (Z : ℕ → Option (Fin d → Fin N → ℝ)) (rs : ℕ → ρ), 1 ≤ i ∧ i < grid.length ∧
    Z 0 = some (fun a _ => c.y1 a) ∧ rs 0 = r ∧ (∀ j ≤ i, ∃ x, Z j = some x) ∧
    TorchForwardRec env c Z (fun j => grid[j]?) rs ∧
    ∃ x a, Z i = some x ∧ ∀ n n', x a n = x a n'

/-- The same for the stochastic forward flow, which is only looked at from index 2 on. -/
def LosesSpreadStoch {ρ : Type} (env : Env ρ ℝ) (c : Cfg d N M ℝ) (grid : List ℝ) (r : ρ) : Prop :=
  ∃ (i : ℕ) (Z : ℕ → Option (Fin d → Fin N → ℝ)) (rs : ℕ → ρ), 2 ≤ i ∧ i < grid.length ∧
    Z 0 = some (fun a _ => if a.val < 2 then c.y1 a else 0) ∧ rs 0 = r ∧ (∀ j ≤ i, ∃ x, Z j = some x) ∧
    TorchStochRec env c Z (fun j => grid[j]?) rs ∧
    ∃ x a, Z i = some x ∧ ∀ n n', x a n = x a n'

end DPFC.Spec
