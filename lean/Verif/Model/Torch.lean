import Verif.Model.Score

/-!
# Torch kernel class and torch score estimator

Models `kernels/RBF_pytorch.py` and `score_estimators/score_function_estimators_pytorch.py`.
Arguments are tensors (the code converts array arguments of `Kernel` first).
-/

namespace DPFC

/-- Broadcasting of two axis sizes: equal sizes, or one of them is 1. -/
def bdim (a b : Nat) : Option Nat :=
  if a = b then some a else if a = 1 then some b else if b = 1 then some a else none

/-- Index into an axis of size `a` that was broadcast. -/
def bidx (a i : Nat) : Nat := if a = 1 then 0 else i

/-- A 2-d tensor of dynamic shape. -/
structure Dyn2 (K : Type) where
  n : Nat
  m : Nat
  val : Mat n m K

/-- A 3-d tensor of dynamic shape `(n, m, d)`. -/
structure Dyn3 (K : Type) where
  n : Nat
  m : Nat
  d : Nat
  val : Fin n → Fin m → Fin d → K

/-- State of an `RBF` object (RBF_pytorch.py:26-64): lengthscale (`multil` is the constructor),
signal variance, and the cached kernel matrix `K_data`; `none` is the initial 0-dimensional
tensor. -/
structure RBF (d : Nat) (K : Type) where
  lengthScale : LS d K
  signalVariance : K
  kData : Option (Dyn2 K)

section
variable {K : Type} [Add K] [Sub K] [Mul K] [Div K] [Neg K] [NumOps K]
variable {N M d : Nat}

/-- `RBF(length_scale=l, multil=..., device=...)` with the default signal variance 1
(RBF_pytorch.py:26-64). -/
def RBF.new (l : LS d K) : RBF d K := ⟨l, lit 1 1, none⟩

/-- The kernel value of one pair (RBF_pytorch.py:98-114). -/
def torchKern (l : LS d K) (x y : Fin d → K) : K :=
  match l with
  | .scalar l => NumOps.exp (-(lit 1 2) * ((NumOps.sum fun k => sq (x k - y k)) / sq l))
  | .vec l => NumOps.exp (-(lit 1 2) * (NumOps.sum fun k => sq (x k - y k) / sq (l k)))

/-- `RBF.Kernel(X, Y)`, `Y=None` meaning `Y=X` (RBF_pytorch.py:67-116): returns the kernel
matrix and stores it in the object. -/
def RBF.kernel (o : RBF d K) (X : Mat N d K) (Y : Mat M d K) : Mat N M K × RBF d K :=
  let Kmat : Mat N M K := fun i j => o.signalVariance * torchKern o.lengthScale (X i) (Y j)
  (Kmat, { o with kData := some ⟨N, M, Kmat⟩ })

/-- The lengthscale used for coordinate `k`. -/
def LS.at {d : Nat} {K : Type} (l : LS d K) (k : Fin d) : K :=
  match l with
  | .scalar l => l
  | .vec l => l k

/-- `RBF.gradient_X(X, Y)` (RBF_pytorch.py:118-145). `Y=None` raises AttributeError at
`Y.shape`. The difference broadcasts the column axes of `X` and `Y`; the einsum `'ijk,ij->ijk'` with
the cached `K_data` raises for the initial 0-dimensional tensor and for shapes that do not
broadcast. -/
def RBF.gradientX (o : RBF d K) (X : Mat N d K) (Y : Option (Dyn2 K)) :
    Except PyErr (Dyn3 K) :=
  match Y with
  | none => .error .attributeError
  | some Y =>
    match bdim d Y.m with
    | none => .error .runtimeError
    | some dd =>
      match o.kData with
      | none => .error .runtimeError
      | some Kd =>
        match bdim N Kd.n, bdim Y.n Kd.m with
        | some n, some m =>
          .ok ⟨n, m, dd, fun i j k =>
            if h : (bidx N i < N ∧ bidx Y.n j < Y.n) ∧ (bidx Kd.n i < Kd.n ∧ bidx Kd.m j < Kd.m) ∧
                bidx d k < d ∧ bidx Y.m k < Y.m then
              (X ⟨bidx N i, h.1.1⟩ ⟨bidx d k, h.2.2.1⟩ - Y.val ⟨bidx Y.n j, h.1.2⟩ ⟨bidx Y.m k, h.2.2.2⟩)
                  / sq (o.lengthScale.at ⟨bidx d k, h.2.2.1⟩)
                * Kd.val ⟨bidx Kd.n i, h.2.1.1⟩ ⟨bidx Kd.m j, h.2.1.2⟩
            else lit 0 1⟩
        | _, _ => .error .runtimeError

/-- Forms of the lengthscale argument of the torch estimator. `tensor1` is a one-element 1-d
tensor. -/
inductive TLS (d : Nat) (K : Type)
  | pyFloat (l : K)
  | tensor0 (l : K)
  | tensor1 (l : K)
  | tensor (l : Fin d → K)
  | ndarray (l : Fin d → K)

/-- The test `isinstance(l, (list, tuple, np.ndarray)) or (torch.is_tensor(l) and
l.size(dim=0)>1)` (score_function_estimators_pytorch.py:75): selects vector or scalar kernel;
`size(dim=0)` of a 0-dimensional tensor raises IndexError. A 1-d tensor of length `d=1` is a
scalar lengthscale. (A tensor of length 0 does not broadcast: RuntimeError.) -/
def TLS.classify (l : TLS d K) : Except PyErr (LS d K) :=
  match l with
  | .pyFloat l => .ok (.scalar l)
  | .tensor0 _ => .error .indexError
  | .tensor1 l => .ok (.scalar l)
  | .ndarray l => .ok (.vec l)
  | .tensor l =>
    if 1 < d then .ok (.vec l)
    else if h : d = 1 then .ok (.scalar (l ⟨0, by omega⟩))
    else .error .runtimeError

/-- Common part of `torched_score_function_multid_seperate_all_dims`
(score_function_estimators_pytorch.py:63-102): kernels through `RBF` objects, `Ksinv`, `A` and the
summed gradient of shape `(M, d)`. -/
def torchCommon (X : Mat N d K) (Z : Mat M d K) (l : TLS d K) :
    Except PyErr (LS d K × ScorePre N M K × Mat M d K) := do
  let ls ← l.classify
  let (Kxz, inst) := (RBF.new ls).kernel X Z
  let (Ks, _) := (RBF.new ls).kernel Z Z
  let Ksinv ← NumOps.inv (ridge Ks)
  let A := mm (tr Kxz) Kxz
  let G ← inst.gradientX X (some ⟨M, d, Z⟩)
  let sumG : Mat M d K := fun m k =>
    if h : G.m = M ∧ G.d = d then
      NumOps.sum fun n => -(G.val n (Fin.cast h.1.symm m) (Fin.cast h.2.symm k))
    else lit 0 1
  .ok (ls, ⟨Kxz, Ksinv, A⟩, sumG)

/-- `torched_score_function_multid_seperate_all_dims(X, Z, l, func_out=False, C, kern)`
(score_function_estimators_pytorch.py:17-115, 164). `C` is overwritten with 0.001 (line 64) and
`kern` is not looked at in this branch. -/
def torchScore (X : Mat N d K) (Z : Mat M d K) (l : TLS d K) (C : K) (kern : String) :
    Except PyErr (Mat N d K) := do
  let _ := C; let _ := kern
  let C : K := lit 1 1000
  let (_, p, g) ← torchCommon X Z l
  seqM d (fun di => directOut C p fun m => g m di) >>= fun cols =>
  .ok (fun n di => cols di n)

/-- The argument of the returned function: tensor or numpy array. -/
inductive TArg (n c : Nat) (K : Type)
  | tensor (x : Mat n c K)
  | ndarray (x : Mat n c K)

/-- `K_sz` of the torch function output (score_function_estimators_pytorch.py:123-155).
Unknown kernel: `K_sz` is unbound (NameError). Vector branch: `x[:,None,:] - Z[None,:,:]`
broadcasts the column axes, then `/ l**2`; a numpy `l` makes `torch.div` raise TypeError.
Scalar branch: for a tensor argument `xu` is never assigned (UnboundLocalError). -/
def torchKsz (Z : Mat M d K) (l : TLS d K) (ls : LS d K) (kern : String) {n c : Nat}
    (x : TArg n c K) : Except PyErr (Mat n M K) :=
  if kern = "RBF" then
    match ls with
    | .vec v =>
      let y := match x with
        | .tensor y => y
        | .ndarray y => y
      match l with
      | .ndarray _ => .error .typeError
      | _ =>
        if h : c = d ∨ c = 1 then
          .ok fun i j => NumOps.exp (-(lit 1 2) * NumOps.sum fun k : Fin d =>
            sq (y i (if hc : c = d then Fin.cast hc.symm k else ⟨0, by omega⟩) - Z j k) / sq (v k))
        else .error .runtimeError
    | .scalar v =>
      match x with
      | .tensor _ => .error .nameError
      | .ndarray y =>
        if h1 : d = 1 then
          .ok fun i j => NumOps.exp (-(lit 1 2) * ((NumOps.sum fun k : Fin c =>
            sq (y i k - Z j ⟨0, by omega⟩)) / sq v))
        else if h : c = d ∨ c = 1 then
          .ok fun i j => NumOps.exp (-(lit 1 2) * ((NumOps.sum fun k : Fin d =>
            sq (y i (if hc : c = d then Fin.cast hc.symm k else ⟨0, by omega⟩) - Z j k)) / sq v))
        else .error .runtimeError
  else .error .nameError

/-- The function returned by the torch estimator with `func_out=True`, applied to `x`
(score_function_estimators_pytorch.py:120-161). -/
def torchScoreFn (X : Mat N d K) (Z : Mat M d K) (l : TLS d K) (C : K) (kern : String)
    {n c : Nat} (x : TArg n c K) : Except PyErr (Mat n d K) := do
  let _ := C
  let C : K := lit 1 1000
  let (ls, p, g) ← torchCommon X Z l
  let ksz ← torchKsz Z l ls kern x
  let I ← NumOps.inv (innerMat C p.Ksinv p.A)
  .ok (mm (mm (mm ksz (negM I)) p.Ksinv) g)

end
end DPFC
