import Verif.Model.TorchDPFC

/-!
# `check_if_covered` with two-dimensional arguments

The docstring (F.py:707, 1485) documents `X` as an array `1 x dim` or `K x dim`. The code indexes
`X[ii]`, which for such an array is a row.
-/

namespace DPFC
section
variable {K : Type} [Add K] [Sub K] [Mul K] [Div K] [Neg K] [NumOps K]
variable {N M d : Nat}

/-- Truth value of an array with `c+1` entries, as forced by `and`: defined for one entry only; more
entries raise (`multi`: numpy ValueError, torch RuntimeError). Arrays without entries are left out. -/
def arrayTruth (multi : PyErr) : {c : Nat} → (Fin (c+1) → Bool) → Except PyErr Bool
  | 0, v => .ok (v 0)
  | _+1, _ => .error multi

/-- `(X[ii] >= lo) and (X[ii] <= hi)` for a row `X[ii]`, followed by `covered * (.)`; the product of a
boolean and a one-element array is a one-element array, of which only the truth value is kept here. The
comparison `X[ii] <= hi` is not forced by `and`, but the result has the shape of the row, which has one
entry whenever this point is reached (F.py:724, 1505). -/
def rowCovered (multi : PyErr) {c : Nat} (row : Fin (c+1) → K) (lo hi : K) : Except PyErr Bool := do
  let t ← arrayTruth multi fun j => NumOps.leB lo (row j)
  if t then arrayTruth multi fun j => NumOps.leB (row j) hi else .ok false

/-- `check_if_covered(X, ti)` for a 2-d array `X` with `m` rows of `c+1` entries (F.py:699-726). -/
def checkIfCovered2 (o : Obj d N M K) {m c : Nat} (X : Mat m (c+1) K) (ti : Int) :
    Except PyErr Bool :=
  forFin d (fun ii cov => do
    let z ← pyGet o.Z ti
    let b ← pyGet o.B ti
    let zlo ← npMin (z ii)
    let blo ← npMin (b ii)
    let zhi ← npMax (z ii)
    let bhi ← npMax (b ii)
    if h : ii.val < m then do
      let t ← rowCovered .valueError (X ⟨ii, h⟩) (pyMax zlo blo) (pyMin zhi bhi)
      .ok (cov && t)
    else .error .indexError) true

/-- The torch version (F.py:1477-1507) for a 2-d tensor `X`. -/
def torchCheckIfCovered2 (o : Obj d N M K) {m c : Nat} (X : Mat m (c+1) K) (ti : Int) :
    Except PyErr Bool :=
  forFin d (fun ii cov => do
    let z ← pyGet o.Z ti
    let b ← pyGet o.B ti
    let zlo ← torchMin (z ii)
    let blo ← torchMin (b ii)
    let zhi ← torchMax (z ii)
    let bhi ← torchMax (b ii)
    if h : ii.val < m then do
      let t ← rowCovered .runtimeError (X ⟨ii, h⟩) (pyMin zlo blo) (pyMax zhi bhi)
      .ok (cov && t)
    else .error .indexError) true

end
end DPFC
