import Verif.Model.Torch

/-! Call histories on an `RBF` kernel object. -/

namespace DPFC.Spec
variable {K : Type} {d : Nat}

/-- A method call on an `RBF` object (kernels/RBF_pytorch.py:67-145): `kernel n m X Y` is
`Kernel(X, Y)`, `gradient n X Y` is `gradient_X(X, Y)`, whose result or exception the caller may
ignore. -/
inductive KCall (d : Nat) (K : Type)
  | kernel (n m : Nat) (X : Mat n d K) (Y : Mat m d K)
  | gradient (n : Nat) (X : Mat n d K) (Y : Option (Dyn2 K))

/-- The points of the last `Kernel` call of a history. -/
def lastKernel : List (KCall d K) → Option (Σ n m : Nat, Mat n d K × Mat m d K)
  | [] => none
  | .kernel n m X Y :: cs => (lastKernel cs).or (some ⟨n, m, X, Y⟩)
  | .gradient _ _ _ :: cs => lastKernel cs

/-- The object after a history of calls. -/
def afterCalls [Add K] [Sub K] [Mul K] [Div K] [Neg K] [NumOps K] (o : RBF d K) :
    List (KCall d K) → RBF d K
  | [] => o
  | .kernel _ _ X Y :: cs => afterCalls (o.kernel X Y).2 cs
  | .gradient _ _ _ :: cs => afterCalls o cs

/-- Size of an axis after two axes of sizes `a` and `b` (equal, or one of them 1) have been stretched to a
common size. -/
def stretched (a b : ℕ) : ℕ := if a = 1 then b else a

/-- Position `i` of a stretched axis shows entry `i'` of the original axis: the only entry if that axis
had size 1, otherwise the entry at the same place. -/
def Reads {a b : ℕ} (i : Fin a) (i' : Fin b) : Prop := i'.val = if b = 1 then 0 else i.val

end DPFC.Spec
