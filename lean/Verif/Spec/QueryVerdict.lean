import Verif.Spec.Control

/-!
# Outcome tables of the queries (C68)

`none`: the query returns; `some e`: it raises `e`.
-/

namespace DPFC.Spec

/-- `res` is what the table entry `v` announces. -/
def Outcome {α : Type} (v : Option PyErr) (res : Except PyErr α) : Prop :=
  match v with
  | some e => res = .error e
  | none => ∃ a, res = .ok a

/-- What `DPFC.calculate_u(x, ti)` does on an object with `k` grid points in `d` dimensions, for points given with
`c` columns; `bridge`: reweighted Brownian-bridge mode. -/
def queryVerdict (k d c : ℕ) (bridge : Bool) (ti : Int) : Option PyErr :=
  -- not an index of an axis with `k` entries
  if ti < -(k : Int) ∨ (k : Int) ≤ ti then some .indexError
  -- Gaussian formula: extra columns are ignored
  else if Edge k ti then (if c < d then some .indexError else none)
  -- kernel scores
  else if c = 0 then some .typeError
  else if d < c then some .indexError
  else if bridge = true then
    -- the points are clipped with two rows of bounds of two entries each
    if d = 1 then some .indexError
    else if 2 < c then some .valueError
    else if c < d then some .indexError
    else none
  else if c < d then some .indexError
  else none

/-- The same for `torched_DPFC`; `flat`: in some coordinate all particles of both clouds coincide. -/
def torchQueryVerdict (k d c : ℕ) (flat : Prop) [Decidable flat] (ti : Int) : Option PyErr :=
  if ti < -(k : Int) ∨ (k : Int) ≤ ti then some .indexError
  else if Edge k ti then (if c < d then some .indexError else none)
  -- uniform distribution on an empty range
  else if flat then some .valueError
  -- a tensor with one entry is taken for a scalar lengthscale
  else if d = 1 then some .nameError
  -- a single column is broadcast
  else if c = d ∨ c = 1 then none
  else some .runtimeError

/-- What `check_if_covered(X, ti)` does, in both classes, for a point with `c` entries. -/
def coverVerdict (k d c : ℕ) (ti : Int) : Option PyErr :=
  if ti < -(k : Int) ∨ (k : Int) ≤ ti then some .indexError
  else if c < d then some .indexError
  else none

/-- In some coordinate all particles of both clouds are at the same place. -/
def BothFlat {d N : ℕ} (b z : Fin d → Fin N → ℝ) : Prop := ∃ a v, ∀ p, b a p = v ∧ z a p = v

end DPFC.Spec
