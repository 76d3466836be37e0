import Verif.Model.TorchDPFC

/-!
# Options that are neither `True` nor `False`

The switches `reweight`, `brown_bridge`, `deterministic` of the two classes and `func_out` of the estimators are
looked at in three ways: by their truth value (`if self.reweight:`), by comparison with `True`
(`self.reweight == True`) and by comparison with `False` (`self.reweight == False`). For `True` and `False` these
agree. Here the switches are arbitrary Python objects with a truth value.

F.py = DeterministicParticleFlowControl/DeterministicParticleFlowControl.py,
S.py = DeterministicParticleFlowControl/score_estimators/score_function_estimators.py,
T.py = DeterministicParticleFlowControl/score_estimators/score_function_estimators_pytorch.py.
-/

namespace DPFC

/-- The values of a switch, up to what the code looks at. Objects whose comparison or truth value raises (arrays
with several entries) or that are equal to `True` without being true are left out. -/
inductive Flag
  /-- `True`, `1`, `1.0`, `np.bool_(True)`: true and equal to `True` -/
  | yes
  /-- `False`, `0`, `0.0`, `np.bool_(False)`: false and equal to `False` -/
  | no
  /-- `2`, `'yes'`, `'False'`, `[0]`: true but not equal to `True` -/
  | truthy
  /-- `None`, `''`, `[]`: false but not equal to `False` -/
  | falsy
  deriving DecidableEq, Repr

namespace Flag

/-- `bool(v)`, used by `if v:`, `v and w`, `not v` -/
def truth : Flag → Bool
  | yes | truthy => true
  | no | falsy => false

/-- `v == True` -/
def isTrue : Flag → Bool
  | yes => true
  | _ => false

/-- `v == False` -/
def isFalse : Flag → Bool
  | no => true
  | _ => false

/-- The switch `True` or `False`. -/
def ofBool : Bool → Flag
  | true => yes
  | false => no

end Flag

/-- The three switches of the constructors (F.py:156, 811-813). -/
structure Flags where
  reweight : Flag
  brownBridge : Flag
  deterministic : Flag
  deriving DecidableEq, Repr

/-- The switches given by truth values, as stored in `Cfg`. -/
def Flags.ofCfg {d N M : Nat} {K : Type} (c : Cfg d N M K) : Flags :=
  ⟨.ofBool c.reweight, .ofBool c.brownBridge, .ofBool c.deterministic⟩

section
variable {K ρ : Type} [Add K] [Sub K] [Mul K] [Div K] [Neg K] [NumOps K]
variable {N M d : Nat}

/-- The arguments as one part of the code sees them: the switches of `c` are replaced by what that part makes of
them. -/
def Cfg.switches (c : Cfg d N M K) (rw bb det : Bool) : Cfg d N M K :=
  { c with reweight := rw, brownBridge := bb, deterministic := det }

/-- `DPFC(...)` with arbitrary switches (F.py:156-221). The three switches stored in `c` are not used. Storage for the
true-drift flow exists if both `reweight` and `brown_bridge` are true (194-196); `deterministic` is used by its truth
value (211, 539); the forward flows reweight if `reweight == True` (252, 436) and pin the end if `brown_bridge` is true
(423); the true-drift flow is sampled if `reweight and brown_bridge` (214). The attributes `U` and `f_true` exist where
they are used, because a switch equal to `True` is true. -/
def constructFlags (env : Env ρ K) (c : Cfg d N M K) (s : Flags) : RandM ρ (Obj d N M K) := do
  let timegrid := mkGrid c.t1 c.t2
  let k := timegrid.length
  let both := s.reweight.truth && s.brownBridge.truth
  let Ztr0 : Option (Traj d N K) := if both then some (zerosT d N k) else none
  let Z0 : Traj d N K := zerosT d N k
  let B0 : Traj d N K := zerosT d N k
  let cF := c.switches s.reweight.isTrue s.brownBridge.truth s.deterministic.truth
  if s.deterministic.truth then do
    let Z ← forwardOtto env cF timegrid Z0
    let Ztr ← match Ztr0 with
      | some T => do
        let T' ← forwardOttoTrue env cF timegrid T
        pure (some T')
      | none => pure none
    let B ← backwardSim env cF timegrid Z B0
    pure ⟨cF, timegrid, Z, B, Ztr⟩
  else do
    let Z ← forwardStoch env cF timegrid Z0
    let B ← backwardSim env cF timegrid Z B0
    pure ⟨cF, timegrid, Z, B, Ztr0⟩

/-- `torched_DPFC(...)` with arbitrary switches (F.py:811-893; the switches are looked at in 861-863, 881, 885, 922, 1119,
1140 and 1278 as in the numpy class). -/
def torchConstructFlags (env : Env ρ K) (c : Cfg d N M K) (s : Flags) : RandM ρ (Obj d N M K) := do
  let timegrid ← (torchGrid c.t1 c.t2 : Except PyErr (List K))
  let k := timegrid.length
  let both := s.reweight.truth && s.brownBridge.truth
  let Ztr0 : Option (Traj d N K) := if both then some (zerosT d N k) else none
  let Z0 : Traj d N K := zerosT d N k
  let B0 : Traj d N K := zerosT d N k
  let cF := c.switches s.reweight.isTrue s.brownBridge.truth s.deterministic.truth
  if s.deterministic.truth then do
    let Z ← torchForwardOtto env cF timegrid Z0
    let Ztr ← match Ztr0 with
      | some T => do
        let T' ← torchForwardOttoTrue env cF timegrid T
        pure (some T')
      | none => pure none
    let B ← torchBackwardSim env cF timegrid Z B0
    pure ⟨cF, timegrid, Z, B, Ztr⟩
  else do
    let Z ← torchForwardStoch env cF timegrid Z0
    let B ← torchBackwardSim env cF timegrid Z B0
    pure ⟨cF, timegrid, Z, B, Ztr0⟩

/-- The slice of the true-drift flow that `calculate_u` works with: none if `reweight == False or brown_bridge == False`
(F.py:634, 640, 680; 1380, 1389, 1444), otherwise `self.Ztr[:, :, ti]`, an AttributeError if there is no `self.Ztr`. -/
def queryZtr (o : Obj d N M K) (s : Flags) (ti : Int) : Except PyErr (Option (Mat d N K)) :=
  if s.reweight.isFalse || s.brownBridge.isFalse then .ok none
  else match o.Ztr with
    | some T => do let z ← pyGet T ti; .ok (some z)
    | none => .error .attributeError

/-- `calculate_u(grid_x, ti)` on an object constructed with the switches `s` (F.py:602-696). In the Gaussian branch nothing
is written into the zeros `u_t` unless one of the switches equals `False` or both equal `True` (640, 648). -/
def calculateUFlags (env : Env ρ K) (o : Obj d N M K) (s : Flags) {n c : Nat} (x : Mat n c K) (ti : Int) :
    RandM ρ (Mat c n K) := do
  let b ← (pyGet o.B ti : Except PyErr (Mat d N K))
  let z ← (pyGet o.Z ti : Except PyErr (Mat d N K))
  let zt ← (queryZtr o s ti : Except PyErr (Option (Mat d N K)))
  let bnds ← (interBox (zt.getD z) b : Except PyErr (Fin d → K × K))
  if ti ≤ 5 ∨ (o.timegrid.length : Int) - 5 ≤ ti then
    if s.reweight.isFalse || s.brownBridge.isFalse then (edgeU npStd b z x : Except PyErr (Mat c n K))
    else if s.reweight.isTrue && s.brownBridge.isTrue then
      (edgeU npStd b (zt.getD z) x : Except PyErr (Mat c n K))
    else pure fun _ _ => lit 0 1
  else do
    let Sxx ← npInducing env bnds M
    (kernelU (effKern o.cfg.kern) Sxx b z zt x : Except PyErr (Mat c n K))

/-- The torch version of `calculate_u` (F.py:1345-1474; the switches in 1380, 1389, 1397, 1444). -/
def torchCalculateUFlags (env : Env ρ K) (o : Obj d N M K) (s : Flags) {n c : Nat} (x : Mat n c K) (ti : Int) :
    RandM ρ (Dyn2 K) := do
  let b ← (pyGet o.B ti : Except PyErr (Mat d N K))
  let z ← (pyGet o.Z ti : Except PyErr (Mat d N K))
  let zt ← (queryZtr o s ti : Except PyErr (Option (Mat d N K)))
  let bnds ← (hullBox (zt.getD z) b : Except PyErr (Fin d → K × K))
  if ti ≤ 5 ∨ (o.timegrid.length : Int) - 5 ≤ ti then do
    let u ← if s.reweight.isFalse || s.brownBridge.isFalse then (edgeU torchStd b z x : Except PyErr (Mat c n K))
      else if s.reweight.isTrue && s.brownBridge.isTrue then
        (edgeU torchStd b (zt.getD z) x : Except PyErr (Mat c n K))
      else (.ok fun _ _ => lit 0 1 : Except PyErr (Mat c n K))
    pure ⟨c, n, u⟩
  else do
    let Sxx ← torchInducing env bnds M
    let sB ← (torchScoreFn (tr b) Sxx (.tensor (torchLengthScales b)) (lit 1 1000)
      (effKern o.cfg.kern) (.tensor x) : Except PyErr (Mat n d K))
    let sF ← (torchScoreFn (tr (zt.getD z)) Sxx (.tensor (torchLengthScales (zt.getD z)))
      (lit 1 1000) (effKern o.cfg.kern) (.tensor x) : Except PyErr (Mat n d K))
    pure ⟨d, n, fun i j => sB j i - sF j i⟩

/-- What an estimator hands back: values at the samples, or a function to be evaluated at other points. -/
inductive EstOut (V : Type) (W : Nat → Type) (K : Type)
  | values (v : V)
  | function (F : (n c : Nat) → Mat n c K → Except PyErr (W n))

/-- `score_function_multid_seperate(X, Z, func_out, C, kern, l, which, which_dim)` with an arbitrary `func_out`: the values at
the samples if `func_out == False`, otherwise a function (S.py:81, 242-294). -/
def callSep (fo : Flag) (X : Mat N d K) (Z : Mat M d K) (C : K) (kern : String) (l : LS d K) (whichDim : Int) :
    Except PyErr (EstOut (Fin N → K) (fun n => Fin n → K) K) := do
  let (p, g) ← sepCommon X Z kern l whichDim
  if fo.isFalse then do
    let v ← directOut C p g
    .ok (.values v)
  else .ok (.function fun _ _ x => do
    let ksz ← if kern = "RBF" then rbfKsz Z l x else perKsz Z l x
    fnOut C p g ksz)

/-- `torched_score_function_multid_seperate_all_dims(X, Z, l, func_out, C, kern)` with an arbitrary `func_out`
(T.py:17-22, 74-170). -/
def torchCall (fo : Flag) (X : Mat N d K) (Z : Mat M d K) (l : TLS d K) (C : K) (kern : String) :
    Except PyErr (EstOut (Mat N d K) (fun n => Mat n d K) K) :=
  if fo.isFalse then do
    let v ← torchScore X Z l C kern
    .ok (.values v)
  else do
    let _ ← torchCommon X Z l
    .ok (.function fun _ _ x => torchScoreFn X Z l C kern (.tensor x))

end
end DPFC
