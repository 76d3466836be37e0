import Verif.Model.Torch

/-!
# Lengthscale lists of any length

`Model/Score.lean` and `Model/Torch.lean` take vector lengthscales with one entry per column. Here the same functions with
a list, tuple or array `l` of any number `m` of entries.
-/

namespace DPFC

section
variable {K : Type} [Add K] [Sub K] [Mul K] [Div K] [Neg K] [NumOps K]
variable {N M d m : Nat}

/-! ### numpy -/

/-- RBF kernel `K(x,y,l,multil=True)`: the loop runs over `range(len(l))` and takes column `ii` of both arrays
(score_function_estimators.py:141-150; 355-364, 553-558; score.py:36-41). -/
def rbfKList (hm : m ≤ d) (x : Mat N d K) (y : Mat M d K) (l : Fin m → K) : Mat N M K := fun i j =>
  Fin.foldl m (fun res ii => res * rbfFactor (x i (Fin.castLE hm ii)) (y j (Fin.castLE hm ii)) (l ii)) (lit 1 1)

/-- Periodic kernel with a list (score_function_estimators.py:207-219). -/
def perKList (hm : m ≤ d) (x : Mat N d K) (y : Mat M d K) (l : Fin m → K) : Mat N M K := fun i j =>
  -(Fin.foldl m (fun res ii => res *
      NumOps.exp (lit (-2) 1 *
          sq (NumOps.sin (NumOps.abs (x i (Fin.castLE hm ii) - y j (Fin.castLE hm ii)) / lit 2 1))
        / (l ii * l ii))) (lit 1 1))

/-- Indices of `diffs[:,:,ii]` and `l[ii]`, `ii = which_dim - 1`: Python indices into the columns and into the list,
possibly negative (score_function_estimators.py:170-172, 231-234, 566-568; score.py:49-52). -/
def gradIdx (d m : Nat) (whichDim : Int) : Except PyErr (Fin d × Fin m) := do
  let ii ← pyIdx d (whichDim - 1)
  let jj ← pyIdx m (whichDim - 1)
  if h : ii < d ∧ jj < m then .ok (⟨ii, h.1⟩, ⟨jj, h.2⟩) else .error .indexError

/-- `grdx_K(x,y,l,which_dim,True)` for RBF (score_function_estimators.py:166-172, 562-568; score.py:45-52). -/
def rbfGradList (hm : m ≤ d) (x : Mat N d K) (y : Mat M d K) (l : Fin m → K) (ii : Fin d) (jj : Fin m) : Mat N M K :=
  fun i j => (x i ii - y j ii) * rbfKList hm x y l i j / (l jj * l jj)

/-- `grdx_K(x,y,l,which_dim,True)` for the periodic kernel (score_function_estimators.py:227-238). -/
def perGradList (hm : m ≤ d) (x : Mat N d K) (y : Mat M d K) (l : Fin m → K) (ii : Fin d) (jj : Fin m) : Mat N M K :=
  fun i j =>
    let df := x i ii - y j ii;
    -(lit (-2) 1 * perKList hm x y l i j * df * NumOps.sin (NumOps.abs df / lit 2 1)
        * NumOps.cos (NumOps.abs df / lit 2 1) / (l jj * l jj * NumOps.abs df))

/-- `K_sz` of the function output for RBF and a list: over `range(x.shape[1])`
(score_function_estimators.py:278, 493, 614). -/
def rbfKszList (Z : Mat M d K) (l : Fin m → K) {n c : Nat} (x : Mat n c K) : Except PyErr (Mat n M K) :=
  if c = 0 then .error .typeError
  else if h : c ≤ d ∧ c ≤ m then
    .ok fun i j => reduceMul fun iii : Fin c =>
      rbfFactor (x i iii) (Z j (Fin.castLE h.1 iii)) (l (Fin.castLE h.2 iii))
  else .error .indexError

/-- `K_sz` for the periodic kernel and a list: columns 0 and 1 (score_function_estimators.py:282). -/
def perKszList (Z : Mat M d K) (l : Fin m → K) {n c : Nat} (x : Mat n c K) : Except PyErr (Mat n M K) :=
  if h : 2 ≤ c ∧ 2 ≤ d ∧ 2 ≤ m then
    .ok fun i j =>
      NumOps.exp (lit (-2) 1 * NumOps.sin (NumOps.abs (x i ⟨0, by omega⟩ - Z j ⟨0, by omega⟩)
            / (l ⟨0, by omega⟩ * l ⟨0, by omega⟩)))
        * NumOps.exp (lit (-2) 1 * NumOps.sin (sq (x i ⟨1, by omega⟩ - Z j ⟨1, by omega⟩)
            / (l ⟨1, by omega⟩ * l ⟨1, by omega⟩)))
  else .error .indexError

/-- Common part of `score_function_multid_seperate` with a list of at most `d` lengthscales
(score_function_estimators.py:123-270). (With more than `d` entries the RBF kernel of this function calls `cdist` on
arrays without columns, which is left out.) -/
def sepCommonList (hm : m ≤ d) (X : Mat N d K) (Z : Mat M d K) (kern : String) (l : Fin m → K) (whichDim : Int) :
    Except PyErr (ScorePre N M K × (Fin M → K)) :=
  if kern = "RBF" then do
    let p ← scorePre (rbfKList hm X Z l) (rbfKList hm Z Z l)
    let q ← gradIdx d m whichDim
    .ok (p, sumGrad (rbfGradList hm X Z l q.1 q.2))
  else if kern = "periodic" then do
    let p ← scorePre (perKList hm X Z l) (perKList hm Z Z l)
    let q ← gradIdx d m whichDim
    .ok (p, sumGrad (perGradList hm X Z l q.1 q.2))
  else .error .nameError

/-- `score_function_multid_seperate(..., func_out=False)` with a list of at most `d` lengthscales
(score_function_estimators.py:81-293). -/
def scoreSepList (hm : m ≤ d) (X : Mat N d K) (Z : Mat M d K) (C : K) (kern : String) (l : Fin m → K) (whichDim : Int) :
    Except PyErr (Fin N → K) := do
  let (p, g) ← sepCommonList hm X Z kern l whichDim
  directOut C p g

/-- The returned function for `func_out=True`, applied to `x` (score_function_estimators.py:274-291). -/
def scoreSepFnList (hm : m ≤ d) (X : Mat N d K) (Z : Mat M d K) (C : K) (kern : String) (l : Fin m → K) (whichDim : Int)
    {n c : Nat} (x : Mat n c K) : Except PyErr (Fin n → K) := do
  let (p, g) ← sepCommonList hm X Z kern l whichDim
  let ksz ← if kern = "RBF" then rbfKszList Z l x else perKszList Z l x
  fnOut C p g ksz

/-- Common part of `score_function_multid_seperate_old` and `score_function_multid_seperate2` with a list of any length: a
column that does not exist raises IndexError (score_function_estimators.py:551-606; score.py:32-100). -/
def oldCommonList (X : Mat N d K) (Z : Mat M d K) (kern : String) (l : Fin m → K) (whichDim : Int) :
    Except PyErr (ScorePre N M K × (Fin M → K)) :=
  if kern = "RBF" then
    if hm : m ≤ d then do
      let p ← scorePre (rbfKList hm X Z l) (rbfKList hm Z Z l)
      let q ← gradIdx d m whichDim
      .ok (p, sumGrad (rbfGradList hm X Z l q.1 q.2))
    else .error .indexError
  else .error .nameError

/-- `score_function_multid_seperate_old` and `score_function_multid_seperate2`, `func_out=False`
(score_function_estimators.py:515-609; score.py:19-103). -/
def scoreOldList (X : Mat N d K) (Z : Mat M d K) (C : K) (kern : String) (l : Fin m → K) (whichDim : Int) :
    Except PyErr (Fin N → K) := do
  let (p, g) ← oldCommonList X Z kern l whichDim
  directOut C p g

/-- `score_function_multid_seperate_all_dims(..., func_out=False)` with a list of any length
(score_function_estimators.py:335-484): the kernel takes column `ii` for `ii < len(l)`, the gradient takes `l[ii]` for
`ii < dim`. -/
def scoreAllList (X : Mat N d K) (Z : Mat M d K) (C : K) (kern : String) (l : Fin m → K) : Except PyErr (Mat N d K) :=
  if kern = "RBF" then
    if hm : m ≤ d then do
      let p ← scorePre (rbfKList hm X Z l) (rbfKList hm Z Z l)
      if hd : d ≤ m then
        let I ← NumOps.inv (innerMat C p.Ksinv p.A)
        .ok (mm (mm (mm (negM p.Kxz) I) p.Ksinv)
          (fun mm ii => sumGrad (rbfGradList hm X Z l ii (Fin.castLE hd ii)) mm))
      else .error .indexError
    else .error .indexError
  else if kern = "periodic" then
    if hm : m ≤ d then do
      let _ ← scorePre (perKList hm X Z l) (perKList hm Z Z l)
      .error .nameError
    else .error .indexError
  else .error .nameError

/-! ### torch -/

/-- The lengthscale given to `RBF`: a number, or a list / array / 1-d tensor of `m` entries. -/
inductive LArg (K : Type)
  | num (l : K)
  | arr (m : Nat) (l : Fin m → K)

/-- An `RBF` object with any lengthscale: `multil` is the flag, the other fields as in `RBF` (RBF_pytorch.py:26-64). -/
structure RBFAny (K : Type) where
  lengthScale : LArg K
  multil : Bool
  signalVariance : K
  kData : Option (Dyn2 K)

/-- `RBF(length_scale=l, multil=multil)` (RBF_pytorch.py:26-64): with `multil=True` the tensor is indexed `[None, None, :]`,
which raises IndexError for a 0-dimensional one. -/
def RBFAny.new (l : LArg K) (multil : Bool) : Except PyErr (RBFAny K) :=
  match l, multil with
  | .num _, true => .error .indexError
  | l, b => .ok ⟨l, b, lit 1 1, none⟩

/-- Read position `i` of an axis of size `a` that was broadcast. -/
def bget {a : Nat} (v : Fin a → K) (i : Nat) : K := if h : bidx a i < a then v ⟨bidx a i, h⟩ else lit 0 1

/-- `RBF.Kernel(X, Y)` (RBF_pytorch.py:67-116). Without `multil` the `N x M` matrix of squared distances is divided by the
squared lengthscale, of shape `()` or `(m,)`; with it the `N x M x d` array of squared differences is divided by an array
of shape `(1, 1, m)`. Shapes that do not broadcast raise RuntimeError. -/
def RBFAny.kernel (o : RBFAny K) (X : Mat N d K) (Y : Mat M d K) : Except PyErr (Dyn2 K × RBFAny K) := do
  let Kd : Dyn2 K ←
    match o.lengthScale, o.multil with
    | .num l, _ =>
      .ok ⟨N, M, fun i j => o.signalVariance * NumOps.exp (-(lit 1 2) * ((NumOps.sum fun k => sq (X i k - Y j k)) / sq l))⟩
    | .arr m l, false =>
      match bdim M m with
      | none => .error .runtimeError
      | some mm => .ok ⟨N, mm, fun i j => o.signalVariance * NumOps.exp (-(lit 1 2) *
          (bget (fun j' : Fin M => NumOps.sum fun k => sq (X i k - Y j' k)) j / sq (bget l j)))⟩
    | .arr m l, true =>
      match bdim d m with
      | none => .error .runtimeError
      | some dd => .ok ⟨N, M, fun i j => o.signalVariance * NumOps.exp (-(lit 1 2) *
          (NumOps.sum fun k : Fin dd => bget (fun k' : Fin d => sq (X i k' - Y j k')) k / sq (bget l k)))⟩
  .ok (Kd, { o with kData := some Kd })

/-- `RBF.gradient_X(X, Y)` (RBF_pytorch.py:118-145) for `Y` with as many columns as `X`: the differences, `N x M x d`, are
divided by the squared lengthscale, whose last axis (if any) is broadcast against the columns, and multiplied by the
cached kernel matrix. -/
def RBFAny.gradientX (o : RBFAny K) (X : Mat N d K) (Y : Mat M d K) : Except PyErr (Dyn3 K) := do
  let Q : (dd : Nat) × (Fin N → Fin M → Fin dd → K) ←
    match o.lengthScale with
    | .num l => .ok ⟨d, fun i j k => (X i k - Y j k) / sq l⟩
    | .arr m l =>
      match bdim d m with
      | none => .error .runtimeError
      | some dd => .ok ⟨dd, fun i j k => bget (fun k' : Fin d => X i k' - Y j k') k / sq (bget l k)⟩
  match o.kData with
  | none => .error .runtimeError
  | some Kd =>
    match bdim N Kd.n, bdim M Kd.m with
    | some n, some m =>
      .ok ⟨n, m, Q.1, fun i j k =>
        bget (fun i' : Fin N => bget (fun j' : Fin M => Q.2 i' j' k) j) i
          * bget (fun i' : Fin Kd.n => bget (fun j' : Fin Kd.m => Kd.val i' j') j) i⟩
    | _, _ => .error .runtimeError

/-- `torched_score_function_multid_seperate_all_dims(X, Z, l, func_out=False)` with a list, tuple or numpy array of `m`
entries, or a 1-d tensor of `m > 1` entries: the kernel objects are created with `multil=True`
(score_function_estimators_pytorch.py:63-115). `sumgradx_K[:, di]` beyond the last axis raises IndexError. -/
def torchScoreList (X : Mat N d K) (Z : Mat M d K) (l : Fin m → K) : Except PyErr (Mat N d K) := do
  let inst0 ← RBFAny.new (.arr m l) true
  let (Kxz, inst) ← inst0.kernel X Z
  let (Ks, _) ← inst0.kernel Z Z
  -- with `multil=True` the kernel matrices are `N x M` and `M x M`
  let kxz : Mat N M K := fun i j => bget (fun i' : Fin Kxz.n => bget (fun j' : Fin Kxz.m => Kxz.val i' j') j) i
  let ks : Mat M M K := fun i j => bget (fun i' : Fin Ks.n => bget (fun j' : Fin Ks.m => Ks.val i' j') j) i
  let Ksinv ← NumOps.inv (ridge ks)
  let p : ScorePre N M K := ⟨kxz, Ksinv, mm (tr kxz) kxz⟩
  let G ← inst.gradientX X Z
  let cols ← seqM d fun di =>
    if h : di.val < G.d then
      directOut (lit 1 1000) p fun mm => NumOps.sum fun n : Fin N =>
        -(bget (fun i' : Fin G.n => bget (fun j' : Fin G.m => G.val i' j' ⟨di, h⟩) mm) n)
    else do
      let _ ← NumOps.inv (innerMat (lit 1 1000) p.Ksinv p.A)
      .error .indexError
  .ok (fun n di => cols di n)

end
end DPFC
