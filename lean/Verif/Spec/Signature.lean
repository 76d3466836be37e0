import Verif.Spec.Effects

/-!
# Signatures of the user's callables

For C102: which numbers of arguments the callables accept. `def f(x)` accepts one, `def f(x, t)` two, `def f(x, t=0)`
both.
-/

namespace DPFC.Spec

variable {K ρ : Type} {d N M : Nat}

/-- A callable accepts a call with one argument, a call with two arguments. -/
structure Arity where
  one : Bool
  two : Bool

/-- `def f(x)` -/
def Arity.x : Arity := ⟨true, false⟩
/-- `def f(x, t)` -/
def Arity.xt : Arity := ⟨false, true⟩
/-- `def f(x, t=0)` -/
def Arity.opt : Arity := ⟨true, true⟩

/-- The signatures of drift, true drift and path constraint. -/
structure Signatures where
  f : Arity
  fTrue : Arity
  U : Arity

/-- Whether the call fits the signature. -/
def Signatures.fits (s : Signatures) : Call d N K → Bool
  | .f _ _ => s.f.two
  | .f1 _ => s.f.one
  | .fTrue _ _ => s.fTrue.two
  | .U _ _ => s.U.two
  | .U1 _ => s.U.one

/-- Python checks the arguments of a call before the body runs: TypeError if they do not fit. -/
def Signatures.check (s : Signatures) (c : Call d N K) (_ : Unit) : Except PyErr Unit :=
  if s.fits c then .ok () else .error .typeError

/-- The callables of a configuration with the given signatures. The world gets a further trivial component, see
`watch`. -/
def withSignatures (s : Signatures) (c : ECfg d N M ρ K) : ECfg d N M (ρ × Unit) K := watch s.check c

end DPFC.Spec
