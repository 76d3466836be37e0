import Verif.Model.Base

/-!
# Score estimators (numpy) and the pairwise distance routine

Models `score_estimators/score_function_estimators.py` and `score_estimators/score.py`.
All arrays are 2-d and `X`, `Z` have the same number `d` of columns (documented input);
a vector lengthscale has exactly `d` entries.
-/

namespace DPFC

/-- The lengthscale argument `l`: a scalar or (list/tuple/ndarray) one entry per dimension. -/
inductive LS (d : Nat) (K : Type)
  | scalar (l : K)
  | vec (l : Fin d → K)

section
variable {K : Type} [Add K] [Sub K] [Mul K] [Div K] [Neg K] [NumOps K]
variable {N M d : Nat}

/-- `reduce(np.multiply, [v0, v1, ...])` entrywise: left fold starting from the first element
(the empty list is excluded by the callers, Python raises TypeError there). -/
def reduceMul : {c : Nat} → (Fin c → K) → K
  | 0, _ => lit 1 1
  | c+1, v => Fin.foldl c (fun acc i => acc * v i.succ) (v 0)

/-- One factor of the RBF kernel: `np.exp(-cdist(x_ii, y_ii,'sqeuclidean')/(2*l*l))`
for one column (score_function_estimators.py:148-149, 278, 361-362, 493, 557, 614). -/
def rbfFactor (x y l : K) : K := NumOps.exp (-(sq (x - y)) / (lit 2 1 * l * l))

/-- RBF kernel with scalar lengthscale: squared Euclidean distance by `my_cdist`/`cdist`, then
`np.exp(-tempi/(2*l*l))` (score_function_estimators.py:152-154, 286, 366-369, 500, 560, 617). -/
def rbfScalar (x y : Fin d → K) (l : K) : K :=
  NumOps.exp (-(NumOps.sum fun k => sq (x k - y k)) / (lit 2 1 * l * l))

/-- `K(x,y,l,multil)` for `kern=='RBF'` (score_function_estimators.py:141-154; identical in
355-369 and 553-560, score.py:36-43). -/
def rbfK (x : Mat N d K) (y : Mat M d K) : LS d K → Mat N M K
  | .vec l => fun i j =>
      Fin.foldl d (fun res ii => res * rbfFactor (x i ii) (y j ii) (l ii)) (lit 1 1)
  | .scalar l => fun i j => rbfScalar (x i) (y j) l

/-- `K(x,y,l,multil)` for `kern=='periodic'` (score_function_estimators.py:207-225, 410-427).
Note the sign: the vector version returns `-res`. -/
def perK (x : Mat N d K) (y : Mat M d K) : LS d K → Mat N M K
  | .vec l => fun i j =>
      -(Fin.foldl d (fun res ii => res *
          NumOps.exp (lit (-2) 1 * sq (NumOps.sin (NumOps.abs (x i ii - y j ii) / lit 2 1))
            / (l ii * l ii))) (lit 1 1))
  | .scalar l => fun i j =>
      NumOps.exp (lit (-2) 1 *
        sq (NumOps.sin ((NumOps.sum fun k => NumOps.abs (x i k - y j k)) / lit 2 1)) / (l * l))

/-- `grdx_K(x,y,l,which_dim,multil)` for RBF, coordinate `ii = which_dim-1`
(score_function_estimators.py:166-175, 562-571; column `ii` of `grdx_K_all` 372-383). -/
def rbfGrad (x : Mat N d K) (y : Mat M d K) (ii : Fin d) : LS d K → Mat N M K
  | .vec l => fun i j => (x i ii - y j ii) * rbfK x y (.vec l) i j / (l ii * l ii)
  | .scalar l => fun i j => (x i ii - y j ii) * rbfK x y (.scalar l) i j / (l * l)

/-- `grdx_K` for the periodic kernel (score_function_estimators.py:227-238). -/
def perGrad (x : Mat N d K) (y : Mat M d K) (ii : Fin d) : LS d K → Mat N M K
  | .vec l => fun i j =>
      let df := x i ii - y j ii;
      -(lit (-2) 1 * perK x y (.vec l) i j * df * NumOps.sin (NumOps.abs df / lit 2 1)
          * NumOps.cos (NumOps.abs df / lit 2 1) / (l ii * l ii * NumOps.abs df))
  | .scalar l => fun i j =>
      let df := x i ii - y j ii;
      -(lit (-2) 1 * df * NumOps.sin (NumOps.abs df / lit 2 1) * perK x y (.scalar l) i j
          * NumOps.cos (NumOps.abs df / lit 2 1) / (l * l * NumOps.abs df))

/-- `Ks + 1e-3*np.eye(M)` (score_function_estimators.py:254, 266, 454, 470, 595, 603). -/
def ridge (Ks : Mat M M K) : Mat M M K := fun i j => Ks i j + lit 1 1000 * eye i j

/-- `C*np.eye(M,M) + Ksinv@A + 1e-3*np.eye(M)` (score_function_estimators.py:273, 291, 484,
505, 609, 619). -/
def innerMat (C : K) (Ksinv A : Mat M M K) : Mat M M K :=
  fun i j => C * eye i j + mm Ksinv A i j + lit 1 1000 * eye i j

/-- The quantities shared by both output forms: `K_xz`, `Ksinv`, `A` and, per coordinate,
`sumgradx_K`. -/
structure ScorePre (N M : Nat) (K : Type) where
  Kxz : Mat N M K
  Ksinv : Mat M M K
  A : Mat M M K

/-- `K_xz`, `Ks`, `Ksinv`, `A` (score_function_estimators.py:250-255, 262-267), given the
kernel function selected by `kern`. -/
def scorePre (kxz : Mat N M K) (ks : Mat M M K) : Except PyErr (ScorePre N M K) := do
  let Ksinv ← NumOps.inv (ridge ks)
  .ok ⟨kxz, Ksinv, mm (tr kxz) kxz⟩

/-- `sumgradx_K = np.sum(-grdx_K(...), axis=0)` (score_function_estimators.py:256, 269-270). -/
def sumGrad (G : Mat N M K) : Fin M → K := fun m => NumOps.sum fun n => negM G n m

/-- `-K_xz @ inv(C*eye + Ksinv@A + 1e-3*eye) @ Ksinv @ sumgradx_K`
(score_function_estimators.py:273, 609; per column 484). -/
def directOut (C : K) (p : ScorePre N M K) (g : Fin M → K) : Except PyErr (Fin N → K) := do
  let I ← NumOps.inv (innerMat C p.Ksinv p.A)
  .ok (mv (mm (mm (negM p.Kxz) I) p.Ksinv) g)

/-- `K_sz(x) @ (-inv(C*eye + Ksinv@A + 1e-3*eye)) @ Ksinv @ sumgradx_K`
(score_function_estimators.py:291, 619; per column 505). The inverse is recomputed at each call. -/
def fnOut (C : K) (p : ScorePre N M K) (g : Fin M → K) {n : Nat} (Ksz : Mat n M K) :
    Except PyErr (Fin n → K) := do
  let I ← NumOps.inv (innerMat C p.Ksinv p.A)
  .ok (mv (mm (mm Ksz (negM I)) p.Ksinv) g)

/-- `K_sz` of the function output for RBF (score_function_estimators.py:278, 286).
`x` may have any number `c` of columns: the vector branch reduces over `range(c)`
(empty: TypeError; beyond the columns of `Z`: IndexError), the scalar branch calls
`cdist(x, Z)`, ValueError on a column mismatch. -/
def rbfKsz (Z : Mat M d K) (l : LS d K) {n c : Nat} (x : Mat n c K) :
    Except PyErr (Mat n M K) :=
  match l with
  | .vec l =>
      if c = 0 then .error .typeError
      else if h : c ≤ d then
        .ok fun i j => reduceMul fun iii : Fin c =>
          rbfFactor (x i iii) (Z j (Fin.castLE h iii)) (l (Fin.castLE h iii))
      else .error .indexError
  | .scalar l =>
      if h : c = d then .ok fun i j => rbfScalar (fun k => x i (Fin.cast h.symm k)) (Z j) l
      else .error .valueError

/-- `K_sz` of the function output for the periodic kernel (score_function_estimators.py:282,
288). The vector branch uses columns 0 and 1 only. -/
def perKsz (Z : Mat M d K) (l : LS d K) {n c : Nat} (x : Mat n c K) :
    Except PyErr (Mat n M K) :=
  match l with
  | .vec l =>
      if h : 2 ≤ c ∧ 2 ≤ d then
        .ok fun i j =>
          let c0 : Fin c := ⟨0, by omega⟩
          let c1 : Fin c := ⟨1, by omega⟩
          let d0 : Fin d := ⟨0, by omega⟩
          let d1 : Fin d := ⟨1, by omega⟩
          NumOps.exp (lit (-2) 1 *
              NumOps.sin (NumOps.abs (x i c0 - Z j d0) / (l d0 * l d0)))
            * NumOps.exp (lit (-2) 1 * NumOps.sin (sq (x i c1 - Z j d1) / (l d1 * l d1)))
      else .error .indexError
  | .scalar l =>
      if h : c = d then
        .ok fun i j => NumOps.exp (lit (-2) 1 * sq (NumOps.sin
          ((NumOps.sum fun k => NumOps.abs (x i (Fin.cast h.symm k) - Z j k)) / lit 2 1)) / (l * l))
      else .error .valueError

/-- Common part of `score_function_multid_seperate`: kernel selection, matrices and the summed
gradient (score_function_estimators.py:123-270). An unknown kernel name leaves `K` unbound. -/
def sepCommon (X : Mat N d K) (Z : Mat M d K) (kern : String) (l : LS d K) (whichDim : Int) :
    Except PyErr (ScorePre N M K × (Fin M → K)) :=
  if kern = "RBF" then do
    let p ← scorePre (rbfK X Z l) (rbfK Z Z l)
    let ii ← pyIdx d (whichDim - 1)
    if h : ii < d then .ok (p, sumGrad (rbfGrad X Z ⟨ii, h⟩ l)) else .error .indexError
  else if kern = "periodic" then do
    let p ← scorePre (perK X Z l) (perK Z Z l)
    let ii ← pyIdx d (whichDim - 1)
    if h : ii < d then .ok (p, sumGrad (perGrad X Z ⟨ii, h⟩ l)) else .error .indexError
  else .error .nameError

/-- `score_function_multid_seperate(X, Z, func_out=False, C, kern, l, which_dim)`
(score_function_estimators.py:81-293). -/
def scoreSep (X : Mat N d K) (Z : Mat M d K) (C : K) (kern : String) (l : LS d K)
    (whichDim : Int) : Except PyErr (Fin N → K) := do
  let (p, g) ← sepCommon X Z kern l whichDim
  directOut C p g

/-- The function returned with `func_out=True` (score_function_estimators.py:274-291),
applied to an `n x c` array `x`. Errors of the common part are raised when the function is created,
which in all uses is immediately followed by the call. -/
def scoreSepFn (X : Mat N d K) (Z : Mat M d K) (C : K) (kern : String) (l : LS d K)
    (whichDim : Int) {n c : Nat} (x : Mat n c K) : Except PyErr (Fin n → K) := do
  let (p, g) ← sepCommon X Z kern l whichDim
  let ksz ← if kern = "RBF" then rbfKsz Z l x else perKsz Z l x
  fnOut C p g ksz

/-- Common part of `score_function_multid_seperate_all_dims`
(score_function_estimators.py:335-474). For `kern=='periodic'` the name `grdx_K_all` is not
defined, so after the inverse a NameError is raised. -/
def allCommon (X : Mat N d K) (Z : Mat M d K) (kern : String) (l : LS d K) :
    Except PyErr (ScorePre N M K × (Fin d → Fin M → K)) :=
  if kern = "RBF" then do
    let p ← scorePre (rbfK X Z l) (rbfK Z Z l)
    .ok (p, fun ii => sumGrad (rbfGrad X Z ii l))
  else if kern = "periodic" then do
    let _ ← scorePre (perK X Z l) (perK Z Z l)
    .error .nameError
  else .error .nameError

/-- `score_function_multid_seperate_all_dims(X, Z, func_out=False, C, kern, l)`
(score_function_estimators.py:299-510); result `N x d`. -/
def scoreAll (X : Mat N d K) (Z : Mat M d K) (C : K) (kern : String) (l : LS d K) :
    Except PyErr (Mat N d K) := do
  let (p, g) ← allCommon X Z kern l
  let I ← NumOps.inv (innerMat C p.Ksinv p.A)
  .ok (mm (mm (mm (negM p.Kxz) I) p.Ksinv) (fun m ii => g ii m))

/-- The function returned by `score_function_multid_seperate_all_dims` with `func_out=True`
(score_function_estimators.py:489-505). -/
def scoreAllFn (X : Mat N d K) (Z : Mat M d K) (C : K) (kern : String) (l : LS d K)
    {n c : Nat} (x : Mat n c K) : Except PyErr (Mat n d K) := do
  let (p, g) ← allCommon X Z kern l
  let ksz ← if kern = "RBF" then rbfKsz Z l x else perKsz Z l x
  let I ← NumOps.inv (innerMat C p.Ksinv p.A)
  .ok (mm (mm (mm ksz (negM I)) p.Ksinv) (fun m ii => g ii m))

/-- Common part of `score_function_multid_seperate_old` and of
`score_function_multid_seperate2`: only the RBF kernel is defined
(score_function_estimators.py:551-606; score.py:32-100). -/
def oldCommon (X : Mat N d K) (Z : Mat M d K) (kern : String) (l : LS d K) (whichDim : Int) :
    Except PyErr (ScorePre N M K × (Fin M → K)) :=
  if kern = "RBF" then do
    let p ← scorePre (rbfK X Z l) (rbfK Z Z l)
    let ii ← pyIdx d (whichDim - 1)
    if h : ii < d then .ok (p, sumGrad (rbfGrad X Z ⟨ii, h⟩ l)) else .error .indexError
  else .error .nameError

/-- `score_function_multid_seperate_old(..., func_out=False)` and
`score_function_multid_seperate2(..., func_out=False)`
(score_function_estimators.py:515-609; score.py:19-103). -/
def scoreOld (X : Mat N d K) (Z : Mat M d K) (C : K) (kern : String) (l : LS d K)
    (whichDim : Int) : Except PyErr (Fin N → K) := do
  let (p, g) ← oldCommon X Z kern l whichDim
  directOut C p g

/-- Function output of `score_function_multid_seperate_old`
(score_function_estimators.py:610-619). -/
def scoreOldFn (X : Mat N d K) (Z : Mat M d K) (C : K) (kern : String) (l : LS d K)
    (whichDim : Int) {n c : Nat} (x : Mat n c K) : Except PyErr (Fin n → K) := do
  let (p, g) ← oldCommon X Z kern l whichDim
  let ksz ← rbfKsz Z l x
  fnOut C p g ksz

/-- `K_sz` of score.py:106-113: with a vector lengthscale only columns 0 and 1 are used. -/
def rbfKsz2 (Z : Mat M d K) (l : LS d K) {n c : Nat} (x : Mat n c K) :
    Except PyErr (Mat n M K) :=
  match l with
  | .vec l =>
      if h : 2 ≤ c ∧ 2 ≤ d then
        .ok fun i j =>
          rbfFactor (x i ⟨0, by omega⟩) (Z j ⟨0, by omega⟩) (l ⟨0, by omega⟩)
            * rbfFactor (x i ⟨1, by omega⟩) (Z j ⟨1, by omega⟩) (l ⟨1, by omega⟩)
      else .error .indexError
  | .scalar l =>
      if h : c = d then .ok fun i j => rbfScalar (fun k => x i (Fin.cast h.symm k)) (Z j) l
      else .error .valueError

/-- Function output of `score_function_multid_seperate2` (score.py:104-115). -/
def score2Fn (X : Mat N d K) (Z : Mat M d K) (C : K) (kern : String) (l : LS d K)
    (whichDim : Int) {n c : Nat} (x : Mat n c K) : Except PyErr (Fin n → K) := do
  let (p, g) ← oldCommon X Z kern l whichDim
  let ksz ← rbfKsz2 Z l x
  fnOut C p g ksz

/-! ### `my_cdist` -/

/-- The value computed by one iteration `(i, j)` of the loops of `my_cdist`
(score_function_estimators.py:56-76), `none` if `dist` matches no branch. -/
def cdistCell (r : Mat N d K) (y : Mat M d K) (dist : String) (i : Fin N) (j : Fin M) : Option K :=
  let tmp := NumOps.sum fun k => sq (r i k - y j k)
  if dist = "euclidean" then some (NumOps.sqrt tmp)
  else if dist = "sqeuclidean" then some tmp
  else if dist = "l1" then some (NumOps.sqrt tmp)
  else none

/-- One iteration: `output[i,j] = ...` -/
def cdistIter (r : Mat N d K) (y : Mat M d K) (dist : String) (out : Mat N M K)
    (c : Fin N × Fin M) : Mat N M K :=
  match cdistCell r y dist c.1 c.2 with
  | some v => fun i j => if i = c.1 ∧ j = c.2 then v else out i j
  | none => out

/-- `my_cdist(r, y, output, dist)` with the parallel iterations executed in the order `sched`
(score_function_estimators.py:29-77): `numba.prange` may run them in any order.
Simplification: an iteration is atomic; it reads only `r`, `y` and its private `tmp`, and
performs one store. -/
def myCdist (r : Mat N d K) (y : Mat M d K) (dist : String) (sched : List (Fin N × Fin M))
    (out : Mat N M K) : Mat N M K :=
  sched.foldl (cdistIter r y dist) out

end
end DPFC
