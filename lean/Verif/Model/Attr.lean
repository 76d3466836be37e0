import Verif.Model.Base

/-!
# Devices, precision and gradient tracking of the torch class

The entries of the tensors are modelled in `Verif.Model.Torch` and `Verif.Model.TorchDPFC`. Here a tensor is
replaced by the attributes torch attaches to it: the device it lives on, whether it is a 0-dimensional tensor,
whether its precision is float64 (or float32), and whether it takes part in automatic differentiation
(`requires_grad`). The constructor, the queries, the kernel class and the estimator are run on these attributes.

T.py = DeterministicParticleFlowControl/score_estimators/score_function_estimators_pytorch.py,
R.py = DeterministicParticleFlowControl/kernels/RBF_pytorch.py,
F.py = DeterministicParticleFlowControl/DeterministicParticleFlowControl.py (class `torched_DPFC`, 811-1507).

Simplifications: shapes are taken to be the documented ones (errors about shapes are the subject of
`Verif.Model.Shape`, `Verif.Model.LenScale` and `Verif.Model.TorchDPFC`), values are not represented, so neither are
errors caused by values (equal bounds of the uniform distribution, singular matrices). Operations with Python
numbers, transposition, indexing with slices, unary functions, reductions along one axis and matrix inversion keep
all attributes and are not written out. What a callable of the user returns may depend on the attributes of its
arguments only. Calls are made with gradient mode on and the default device and precision of torch unchanged.
-/

namespace DPFC

/-- The devices of torch: the CPU and the CUDA devices. -/
inductive Dev
  | cpu
  | cuda (i : Nat)
  deriving DecidableEq, Repr

/-- The attributes of a tensor of floating point numbers. -/
structure Tn where
  /-- `t.device` -/
  dev : Dev
  /-- `t.dim() == 0` -/
  scalar : Bool
  /-- `t.dtype == torch.float64` (otherwise `torch.float32`) -/
  f64 : Bool
  /-- `t.requires_grad` -/
  grad : Bool
  deriving DecidableEq, Repr

namespace Tn

/-- An elementwise operation on two tensors (`+`, `-`, `*`, `torch.div`, `torch.einsum('ijk,ij->ijk', ..)`).
Both must be on one device, except that 0-dimensional CPU tensors may be combined with tensors on any device.
Precision is promoted among the operands of positive dimension; 0-dimensional operands count if there are no
others. -/
def ew (a b : Tn) : Except PyErr Tn :=
  let f64 := if a.scalar = b.scalar then a.f64 || b.f64 else if a.scalar then b.f64 else a.f64
  if a.dev = b.dev then .ok ⟨a.dev, a.scalar && b.scalar, f64, a.grad || b.grad⟩
  else if a.dev = .cpu ∧ a.scalar = true then .ok ⟨b.dev, a.scalar && b.scalar, f64, a.grad || b.grad⟩
  else if b.dev = .cpu ∧ b.scalar = true then .ok ⟨a.dev, a.scalar && b.scalar, f64, a.grad || b.grad⟩
  else .error .runtimeError

/-- A matrix product `a @ b`: one device and one precision. -/
def mm (a b : Tn) : Except PyErr Tn :=
  if a.dev = b.dev ∧ a.f64 = b.f64 then .ok ⟨a.dev, false, a.f64, a.grad || b.grad⟩ else .error .runtimeError

/-- `t[...] = v`: the entries are copied, across devices and precisions; the target takes part in automatic
differentiation from then on if the value does. -/
def put (t v : Tn) : Tn := { t with grad := t.grad || v.grad }

/-- A 0-dimensional entry of a tensor, or its mean, minimum, standard deviation over all entries. -/
def entry (t : Tn) : Tn := { t with scalar := true }

/-- `t.numpy()` and `np.asarray(t)`, which is what plotting routines call: refused for tensors that are not on
the CPU and for tensors that take part in automatic differentiation. -/
def numpy (t : Tn) : Except PyErr Unit :=
  if t.dev ≠ .cpu then .error .typeError else if t.grad then .error .runtimeError else .ok ()

/-- A new tensor of positive dimension with `dtype=torch.float64` (`torch.zeros`, `torch.ones`, `torch.arange`,
`torch.tensor(array, ..)`) -/
def fresh (dv : Dev) : Tn := ⟨dv, false, true, false⟩

/-- `torch.tensor(number, dtype=torch.float64, device=dv)` -/
def number (dv : Dev) : Tn := ⟨dv, true, true, false⟩

/-- `torch.eye(M, device=dv)`: no `dtype` is given -/
def eye (dv : Dev) : Tn := ⟨dv, false, false, false⟩

end Tn

/-- `device=None` means the CPU (R.py:50-53; default device of torch in the other places). -/
def devOf (device : Option Dev) : Dev := device.getD .cpu

/-- `set_device()` on a machine where `torch.cuda.is_available()` gives `avail` and the current CUDA device is number
`cur`: the string "cuda" names the current device (utils/utils_pytorch.py:13-33). The messages it prints are left out. -/
def setDevice (avail : Bool) (cur : Nat) : Dev := if avail then .cuda cur else .cpu

/-- The lengthscale argument of the estimator. -/
inductive LsArg
  /-- a Python number -/
  | num
  /-- a list, tuple or numpy array -/
  | arr
  /-- a tensor with one entry (shape `(1,)`) -/
  | one (t : Tn)
  /-- a tensor with several entries -/
  | many (t : Tn)
  deriving DecidableEq

/-- `isinstance(l, (list, tuple, np.ndarray)) or (torch.is_tensor(l) and l.size(dim=0)>1)`, T.py:75 -/
def LsArg.multil : LsArg → Bool
  | .arr | .many _ => true
  | _ => false

/-- `self.length_scale` of a kernel object, `torch.tensor(length_scale, dtype=torch.float64, device=self.device,
requires_grad=True)`: a copy, R.py:55-56, 60-62. -/
def attrLengthScale (dv : Dev) (l : LsArg) : Tn :=
  ⟨dv, match l with | .num => true | _ => false, true, true⟩

/-- `Kernel(X, Y)`, R.py:91-116 -/
def attrKernel (dv : Dev) (l : LsArg) (X Y : Tn) : Except PyErr Tn := do
  let sqd ← X.ew Y
  let sqd ← sqd.ew (attrLengthScale dv l)
  -- torch.mul(self.signal_variance, K)
  (⟨dv, true, true, true⟩ : Tn).ew sqd

/-- `gradient_X(X, Y)` after `Kernel` has returned `K`, R.py:136-145 -/
def attrGradient (dv : Dev) (l : LsArg) (X Y K : Tn) : Except PyErr Tn := do
  let diffs ← X.ew Y
  let redifs ← diffs.ew (attrLengthScale dv l)
  redifs.ew K

/-- Samples and inducing points handed to the estimator: numpy arrays, an array and a tensor, or tensors. -/
inductive Pts
  | arrays
  | arrTen (Z : Tn)
  | tens (X Z : Tn)

/-- T.py:66-73: arrays are converted (the inducing points only if the samples are an array). -/
def Pts.conv (dv : Dev) : Pts → Tn × Tn
  | .arrays => (Tn.fresh dv, Tn.fresh dv)
  | .arrTen Z => (Tn.fresh dv, Z)
  | .tens X Z => (X, Z)

/-- The common part of both outputs: `K_xz`, `Ksinv`, `sumgradx_K` and the inverse matrix, T.py:74-102, 113-114. -/
structure EstParts where
  Kxz : Tn
  Ksinv : Tn
  sumgrad : Tn
  Z : Tn

/-- T.py:66-102 -/
def attrParts (device : Option Dev) (p : Pts) (l : LsArg) : Except PyErr EstParts := do
  let dv := devOf device
  let (X, Z) := p.conv dv
  let Kxz ← attrKernel dv l X Z
  let Ks ← attrKernel dv l Z Z
  -- torch.linalg.inv(K_s+ 1e-3 * torch.eye(M, device=device))
  let Ksinv ← Ks.ew (Tn.eye dv)
  -- torch.t(K_xz) @ K_xz
  let _ ← Kxz.mm Kxz
  let sumgrad ← attrGradient dv l X Z Kxz
  return ⟨Kxz, Ksinv, sumgrad, Z⟩

/-- `torch.linalg.inv( C*torch.eye(M, M, device=device) + Ksinv @ A + 1e-3 * torch.eye(M, device=device))`,
T.py:113-114, 160-161 (with `A = torch.t(K_xz) @ K_xz`, T.py:98) -/
def attrInv (dv : Dev) (p : EstParts) : Except PyErr Tn := do
  let A ← p.Kxz.mm p.Kxz
  let KA ← p.Ksinv.mm A
  let s ← (Tn.eye dv).ew KA
  s.ew (Tn.eye dv)

/-- `torched_score_function_multid_seperate_all_dims(X, Z, l, func_out=False, device=device)` for `d` dimensions,
T.py:104-115 -/
def attrScore (d : Nat) (device : Option Dev) (p : Pts) (l : LsArg) : Except PyErr Tn := do
  let dv := devOf device
  let q ← attrParts device p l
  (List.range d).foldlM (fun (res : Tn) _ => do
    let I ← attrInv dv q
    let v ← q.Kxz.mm I
    let v ← v.mm q.Ksinv
    let v ← v.mm q.sumgrad
    return res.put v) (Tn.fresh dv)

/-- What is handed to the function returned by the estimator: a numpy array or a tensor. -/
inductive QArg
  | arr
  | ten (t : Tn)

/-- `K_sz(x)`, T.py:127-138 (several lengthscales), 144-155 (one lengthscale) -/
def attrKsz (dv : Dev) (l : LsArg) (Z : Tn) (x : QArg) : Except PyErr Tn :=
  match l, x with
  -- torch.div(.., l**2) with a list, tuple or array
  | .arr, .arr => do let _ ← (Tn.fresh dv).ew Z; .error .typeError
  | .arr, .ten t => do let _ ← t.ew Z; .error .typeError
  | .many l, .arr => do let s ← (Tn.fresh dv).ew Z; s.ew l
  | .many l, .ten t => do let s ← t.ew Z; s.ew l
  -- one lengthscale: `xu` is assigned only if the argument is not a tensor
  | .num, .arr => (Tn.fresh dv).ew Z
  | .one l, .arr => do let s ← (Tn.fresh dv).ew Z; s.ew l
  | _, .ten _ => .error .nameError

/-- `torched_score_function_multid_seperate_all_dims(X, Z, l, func_out=True, device=device)(x)`, T.py:120-161 -/
def attrScoreFn (device : Option Dev) (p : Pts) (l : LsArg) (x : QArg) : Except PyErr Tn := do
  let dv := devOf device
  let q ← attrParts device p l
  let K ← attrKsz dv l q.Z x
  let I ← attrInv dv q
  let v ← K.mm I
  let v ← v.mm q.Ksinv
  v.mm q.sumgrad

/-- The arguments of the constructor of the torch class, as far as they have attributes. `f`, `fTrue` and `U` map
the attributes of the particle array and of the time to those of the result. -/
structure TCfg where
  d : Nat
  k : Nat
  device : Option Dev
  y1 : Tn
  y2 : Tn
  /-- is `g` a number (or 0-dimensional)? -/
  gScalar : Bool
  f : Tn → Tn → Except PyErr Tn
  fTrue : Tn → Tn → Except PyErr Tn
  U : Tn → Tn → Except PyErr Tn
  reweight : Bool
  brownBridge : Bool
  deterministic : Bool

namespace TCfg

/-- the device of the object -/
def dv (c : TCfg) : Dev := devOf c.device

/-- `self.g`, F.py:838 -/
def g (c : TCfg) : Tn := ⟨c.dv, c.gScalar, true, false⟩

/-- `2*torch.std(x, dim=1)` as lengthscale: a tensor with `d` entries, F.py:982, 1046, 1169, 1229, 1372-1373, 1463 -/
def ls (c : TCfg) (x : Tn) : LsArg := if 1 < c.d then .many x else .one x

/-- The inducing points: `bnds` is filled with extreme entries, `sample` draws without gradient tracking on the
device and in the precision of `bnds`, F.py:973-978, 1028-1041, 1170-1192, 1231-1237, 1376-1387, 1432. -/
def sxx (c : TCfg) : Tn := Tn.fresh c.dv

/-- the entries of `self.timegrid` and `tt-self.dt`, F.py:845, 855-856 -/
def time (c : TCfg) : Tn := Tn.number c.dv

/-- `for di in range(self.dim): t[di, :, j] = y[di]` -/
def pin (c : TCfg) (t y : Tn) : Tn := if 0 < c.d then t.put y.entry else t

/-- `x + dt*f(x, t) + g*noise`, where `noise` has the attributes given, F.py:917-920, 1086-1088, 1127-1135 -/
def noisy (c : TCfg) (f : Tn → Tn → Except PyErr Tn) (noise x : Tn) : Except PyErr Tn := do
  let v ← f x c.time
  let v ← (Tn.number c.dv).ew v
  let v ← x.ew v
  let n ← c.g.ew noise
  v.ew n

/-- `f(x, t)-0.5* self.g**2* gpsi`, F.py:984-993, 1048-1055 (the estimator is called first) -/
def drifted (c : TCfg) (f : Tn → Tn → Except PyErr Tn) (x : Tn) : Except PyErr Tn := do
  let gpsi ← attrScore c.d c.device (.tens x c.sxx) (c.ls x)
  let v ← f x c.time
  let s ← c.g.ew gpsi
  v.ew s

/-- `x + dt*f_seperate(x, t)`, F.py:1090-1091, 1137-1138 -/
def flow (c : TCfg) (f : Tn → Tn → Except PyErr Tn) (x : Tn) : Except PyErr Tn := do
  let v ← c.drifted f x
  let v ← (Tn.number c.dv).ew v
  x.ew v

/-- Reweighting of the slice just computed, F.py:1140-1154: the transport plan is computed outside of torch and
comes back on the device and in the precision of the cost matrix, without gradient tracking. -/
def reweighted (c : TCfg) (Z W : Tn) : Except PyErr (Tn × Tn) := do
  let u ← c.U Z c.time
  let u ← u.ew (Tn.number c.dv)
  let W := W.put u
  -- W = W/torch.sum(W)
  let W ← W.ew W.entry
  -- ot.dist(Z.T, Z.T) and its largest entry
  let M ← Z.ew Z
  let M ← M.ew M.entry
  -- torch.ones_like(..)/self.N, ot.emd(a, b, M)
  let T2 : Tn := { M with grad := false }
  let v ← Z.mm T2
  return (Z.put v, W)

/-- `forward_sampling_Otto()`, F.py:1113-1162 -/
def otto (c : TCfg) : Except PyErr Tn := do
  let r ← (List.range c.k).foldlM (fun (s : Tn × Tn) ti => do
    let Z ←
      if ti = 0 then
        let Z := c.pin s.1 c.y1
        pure (if c.brownBridge then c.pin Z c.y2 else Z)
      else if ti = 1 then do
        let v ← c.noisy c.f (Tn.fresh c.dv) s.1
        pure (s.1.put v)
      else do
        let v ← c.flow c.f s.1
        pure (s.1.put v)
    if c.reweight ∧ 0 < ti then c.reweighted Z s.2 else pure (Z, s.2)) (Tn.fresh c.dv, Tn.fresh c.dv)
  return r.1

/-- `forward_sampling_Otto_true()`, F.py:1078-1094. The noise is `torch.empty([self.dim, self.N])`: on the CPU, in
single precision. -/
def ottoTrue (c : TCfg) : Except PyErr Tn :=
  (List.range c.k).foldlM (fun (Z : Tn) ti =>
    if ti = 0 then pure (c.pin Z c.y1)
    else if ti = 1 then do
      let v ← c.noisy c.fTrue ⟨.cpu, false, false, false⟩ Z
      pure (Z.put v)
    else do
      let v ← c.flow c.fTrue Z
      pure (Z.put v)) (Tn.fresh c.dv)

/-- `forward_sampling()`, F.py:910-939, without reweighting (which calls `U` with one argument only, see
`Verif.Model.TorchDPFC`). The noise is on the CPU, in single precision. -/
def stoch (c : TCfg) : Except PyErr Tn :=
  (List.range c.k).foldlM (fun (Z : Tn) ti =>
    if ti = 0 then
      if c.d < 2 then .error .indexError else pure (Z.put c.y1.entry)
    else do
      let v ← c.noisy c.f ⟨.cpu, false, false, false⟩ Z
      pure (Z.put v)) (Tn.fresh c.dv)

/-- `density_estimation`, F.py:1166-1204 -/
def density (c : TCfg) (Z B : Tn) : Except PyErr Tn :=
  attrScoreFn c.device (.tens Z c.sxx) (c.ls Z) (.ten B)

/-- `bw_density_estimation`, F.py:1227-1249 -/
def bwDensity (c : TCfg) (B : Tn) : Except PyErr Tn :=
  attrScore c.d c.device (.tens B c.sxx) (c.ls B)

/-- `backward_simulation()`, F.py:1267-1295 -/
def backward (c : TCfg) (Z : Tn) : Except PyErr Tn := do
  let B ← (List.range (c.k - 1)).foldlM (fun (B : Tn) ti =>
    if ti = 0 then pure (c.pin B c.y2)
    else do
      let ro ← c.density Z B
      if (ti = 1 ∧ c.deterministic = true) ∨ c.deterministic = false then do
        let v ← c.f B c.time
        let v ← v.ew (Tn.number c.dv)
        let v ← B.ew v
        let s ← (Tn.number c.dv).ew c.g
        let s ← s.ew ro
        let v ← v.ew s
        let n ← c.g.ew (Tn.fresh c.dv)
        let v ← v.ew n
        pure (B.put v)
      else do
        let bw ← c.bwDensity B
        let v ← c.f B c.time
        let s ← c.g.ew ro
        let v ← v.ew s
        let s ← c.g.ew bw
        let v ← v.ew s
        let v ← v.ew (Tn.number c.dv)
        let v ← B.ew v
        pure (B.put v)) (Tn.fresh c.dv)
  -- for di in range(self.dim): self.B[di, :, 0] = self.y1[di]
  if 0 < c.d ∧ c.k = 0 then .error .indexError else pure (c.pin B c.y1)

/-- The stored flows: `self.Z`, `self.Ztr` (if it exists) and `self.B`. -/
structure Obj where
  Z : Tn
  Ztr : Option Tn
  B : Tn

/-- `__init__`, F.py:816-892 -/
def construct (c : TCfg) : Except PyErr Obj := do
  if c.deterministic then
    let Z ← c.otto
    let Ztr ← if c.reweight ∧ c.brownBridge then (do let t ← c.ottoTrue; pure (some t)) else pure none
    let B ← c.backward Z
    return ⟨Z, Ztr, B⟩
  else
    let Z ← c.stoch
    let Ztr := if c.reweight ∧ c.brownBridge then some (Tn.fresh c.dv) else none
    let B ← c.backward Z
    return ⟨Z, Ztr, B⟩

/-- the forward flow that queries use: `self.Ztr` in Brownian-bridge reweighting mode, F.py:1380-1387, 1391, 1399,
1444, 1453 -/
def Obj.fw (o : Obj) : Tn := o.Ztr.getD o.Z

/-- `calculate_u(grid_x, ti)` for a tensor `grid_x`, F.py:1368-1475 -/
def control (c : TCfg) (o : Obj) (grid : Tn) (ti : Nat) : Except PyErr Tn :=
  if ti ≤ 5 ∨ c.k ≤ ti + 5 then
    (List.range c.d).foldlM (fun (u : Tn) _ => do
      let a ← grid.ew o.B.entry
      let a ← a.ew o.B.entry
      let b ← grid.ew o.fw.entry
      let b ← b.ew o.fw.entry
      let v ← a.ew b
      pure (u.put v)) (Tn.fresh c.dv)
  else do
    let b ← attrScoreFn c.device (.tens o.B c.sxx) (c.ls o.B) (.ten grid)
    let z ← attrScoreFn c.device (.tens o.fw c.sxx) (c.ls o.fw) (.ten grid)
    b.ew z

/-- `check_if_covered(X, ti)` for a vector `X`, F.py:1496-1506: the device of the answer, which is a 0-dimensional
tensor (`none`: the Python value `True`). The bounds are entries of a new tensor on the device of the object. -/
def covered (c : TCfg) (X : Tn) : Except PyErr (Option Dev) :=
  (List.range c.d).foldlM (fun (_ : Option Dev) _ => do
    let lo ← X.entry.ew (Tn.fresh c.dv).entry
    let hi ← X.entry.ew (Tn.fresh c.dv).entry
    let both ← lo.ew hi
    pure (some both.dev)) none

end TCfg

end DPFC
