import Verif.Model.TorchDPFC
import Verif.Model.Flags

/-!
# Calls: positional arguments, keywords and defaults

How Python assigns the arguments of a call to the parameters of the constructors and estimators.
`F.py` = DeterministicParticleFlowControl/DeterministicParticleFlowControl.py, `S.py` =
DeterministicParticleFlowControl/score_estimators/score_function_estimators.py, `SP.py` =
score_function_estimators_pytorch.py in the same directory.
-/

namespace DPFC

/-- A parameter `name` or `name=default`. -/
structure Param (V : Type) where
  name : String
  default : Option V

/-- The keyword arguments, one after the other, into the slots of the parameters. TypeError for an unknown name and for
a parameter that already has a value. (Python's binding of the calls in F.py:156, 811; S.py:81, 299; SP.py:17.) -/
def bindKw {V : Type} (sig : List (Param V)) :
    List (String × V) → List (Option V) → Except PyErr (List (Option V))
  | [], slots => .ok slots
  | (n, v) :: kw, slots =>
    match sig.findIdx? (fun p => p.name == n) with
    | none => .error .typeError
    | some i =>
      match slots[i]? with
      | some none => bindKw sig kw (slots.set i (some v))
      | _ => .error .typeError

/-- Defaults for the empty slots, TypeError for a required parameter without value. -/
def fillDefaults {V : Type} : List (Param V) → List (Option V) → Except PyErr (List V)
  | p :: ps, s :: ss =>
    match s.or p.default with
    | none => .error .typeError
    | some v => do
      let rest ← fillDefaults ps ss
      .ok (v :: rest)
  | _, _ => .ok []

/-- The values of all parameters in a call `callee(*pos, **kw)`; TypeError for too many positional arguments. -/
def bindArgs {V : Type} (sig : List (Param V)) (pos : List V) (kw : List (String × V)) : Except PyErr (List V) :=
  if sig.length < pos.length then .error .typeError
  else do
    let slots ← bindKw sig kw (pos.map some ++ List.replicate (sig.length - pos.length) none)
    fillDefaults sig slots

/-- The values passed to the constructors and estimators. -/
inductive PyV (d N : Nat) (K : Type)
  | none
  | bool (b : Bool)
  | int (n : Nat)
  | str (s : String)
  | num (x : K)
  | state (y : Fin d → K)
  | drift (f : Drift d N K)
  | constr (U : Constraint d N K)
  | other (tag : Nat)

section
variable {d N : Nat} {K : Type} [NumOps K]

/-- `DPFC.__init__` without `self` (F.py:156) -/
def npSig : List (Param (PyV d N K)) :=
  [⟨"t1", .none⟩, ⟨"t2", .none⟩, ⟨"y1", .none⟩, ⟨"y2", .none⟩, ⟨"f", .none⟩, ⟨"g", .none⟩, ⟨"N", .none⟩,
   ⟨"M", .none⟩, ⟨"reweight", some (.bool false)⟩, ⟨"U", some .none⟩, ⟨"dens_est", some (.str "nonparametric")⟩,
   ⟨"reject", some (.bool true)⟩, ⟨"kern", some (.str "RBF")⟩, ⟨"f_true", some .none⟩,
   ⟨"brown_bridge", some (.bool false)⟩, ⟨"deterministic", some (.bool true)⟩]

/-- `torched_DPFC.__init__` without `self` (F.py:811-814) -/
def torchSig : List (Param (PyV d N K)) :=
  [⟨"t1", .none⟩, ⟨"t2", .none⟩, ⟨"y1", .none⟩, ⟨"y2", .none⟩, ⟨"f", .none⟩, ⟨"g", .none⟩, ⟨"N", .none⟩,
   ⟨"M", .none⟩, ⟨"reweight", some (.bool false)⟩, ⟨"U", some .none⟩, ⟨"dens_est", some (.str "nonparametric")⟩,
   ⟨"reject", some (.bool true)⟩, ⟨"kern", some (.str "RBF")⟩, ⟨"f_true", some .none⟩,
   ⟨"brown_bridge", some (.bool false)⟩, ⟨"deterministic", some (.bool true)⟩, ⟨"device", some .none⟩]

/-- The constructor in the phenotype example (plot_c_elegans_differentiation_2D_systematic.py:148-149), without
`self`: the number of time points `k` comes before `M`. -/
def scriptSig : List (Param (PyV d N K)) :=
  [⟨"t1", .none⟩, ⟨"t2", .none⟩, ⟨"y1", .none⟩, ⟨"y2", .none⟩, ⟨"f", .none⟩, ⟨"g", .none⟩, ⟨"N", .none⟩,
   ⟨"k", .none⟩, ⟨"M", .none⟩, ⟨"reweight", some (.bool false)⟩, ⟨"U", some (.int 1)⟩,
   ⟨"dens_est", some (.str "nonparametric")⟩, ⟨"reject", some (.bool true)⟩, ⟨"plotting", some (.bool true)⟩,
   ⟨"kern", some (.str "RBF")⟩]

/-- The constructor in the Kuramoto example (systematic_multi_N_kuramoto_inhomogeneous.py:482): in addition `dt`. -/
def kuramotoSig : List (Param (PyV d N K)) :=
  scriptSig ++ [⟨"dt", some (.num (lit 1 1000))⟩]

/-- `score_function_multid_seperate` (S.py:81) -/
def scoreSig : List (Param (PyV d N K)) :=
  [⟨"X", .none⟩, ⟨"Z", .none⟩, ⟨"func_out", some (.bool false)⟩, ⟨"C", some (.num (lit 1 1000))⟩,
   ⟨"kern", some (.str "RBF")⟩, ⟨"l", some (.int 1)⟩, ⟨"which", some (.int 1)⟩, ⟨"which_dim", some (.int 1)⟩]

/-- `score_function_multid_seperate_all_dims` (S.py:299) -/
def scoreAllSig : List (Param (PyV d N K)) :=
  [⟨"X", .none⟩, ⟨"Z", .none⟩, ⟨"func_out", some (.bool false)⟩, ⟨"C", some (.num (lit 1 1000))⟩,
   ⟨"kern", some (.str "RBF")⟩, ⟨"l", some (.int 1)⟩]

/-- `torched_score_function_multid_seperate_all_dims` (SP.py:17-20): `l` comes third. -/
def torchScoreSig : List (Param (PyV d N K)) :=
  [⟨"X", .none⟩, ⟨"Z", .none⟩, ⟨"l", some (.num (lit 1 1))⟩, ⟨"func_out", some (.bool false)⟩,
   ⟨"C", some (.num (lit 1 1000))⟩, ⟨"kern", some (.str "RBF")⟩, ⟨"device", some .none⟩]

/-- The configuration of the numpy constructor made of the bound values (F.py:159-208), if they are of the types the
other models deal with: numbers, states, callables, `bool`s and strings; `N` and `M` are the sizes. -/
def cfgFrom (M : Nat) : List (PyV d N K) → Option (Cfg d N M K)
  | [.num t1, .num t2, .state y1, .state y2, .drift f, .num g, .int n, .int m, .bool rw, U, .str de, .bool rj,
      .str kern, ft, .bool bb, .bool det] =>
    if n = N ∧ m = M then
      match U, ft with
      | .none, .none => some ⟨t1, t2, y1, y2, f, g, rw, .none, de, rj, kern, .none, bb, det⟩
      | .constr U, .none => some ⟨t1, t2, y1, y2, f, g, rw, some U, de, rj, kern, .none, bb, det⟩
      | .none, .drift ft => some ⟨t1, t2, y1, y2, f, g, rw, .none, de, rj, kern, some ft, bb, det⟩
      | .constr U, .drift ft => some ⟨t1, t2, y1, y2, f, g, rw, some U, de, rj, kern, some ft, bb, det⟩
      | _, _ => .none
    else .none
  | _ => .none

/-- A value used as a switch (F.py:194-196, 211-214, 252, 436): `None` is false but not equal to `False`, a non-empty
string is true but not equal to `True`, the integers 0 and 1 equal `False` and `True`. -/
def flagOf : PyV d N K → Option Flag
  | .bool b => some (.ofBool b)
  | .int 0 => some .no
  | .int 1 => some .yes
  | .int _ => some .truthy
  | .none => some .falsy
  | .str s => some (if s = "" then .falsy else .truthy)
  | _ => .none

/-- As `cfgFrom`, with arbitrary values for the three switches (F.py:156-214, 811-880): the configuration and the
switches. -/
def flagCfgFrom (M : Nat) : List (PyV d N K) → Option (Cfg d N M K × Flags)
  | t1 :: t2 :: y1 :: y2 :: f :: g :: n :: m :: rw :: U :: de :: rj :: kern :: ft :: bb :: det :: _ => do
    let frw ← flagOf rw
    let fbb ← flagOf bb
    let fdet ← flagOf det
    let c ← cfgFrom M [t1, t2, y1, y2, f, g, n, m, .bool frw.truth, U, de, rj, kern, ft, .bool fbb.truth,
      .bool fdet.truth]
    some (c, ⟨frw, fbb, fdet⟩)
  | _ => .none

end
end DPFC
