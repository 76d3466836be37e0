import Verif.Model.DPFC

/-! Comparing constructed objects by their observable data. -/

namespace DPFC.Spec
variable {K ρ : Type} {N M d : Nat}

/-- Same grid and flows `Z`, `B`, `Ztr` (the stored options may differ). -/
def SameFlows (o o' : Obj d N M K) : Prop :=
  o.timegrid = o'.timegrid ∧ o.Z = o'.Z ∧ o.B = o'.B ∧ o.Ztr = o'.Ztr

/-- Same outcome of two constructions: the same exception, or the same flows and random state. -/
def SameOutcome (x y : Except PyErr (Obj d N M K × ρ)) : Prop :=
  match x, y with
  | .error e, .error e' => e = e'
  | .ok (o, r), .ok (o', r') => SameFlows o o' ∧ r = r'
  | _, _ => False

end DPFC.Spec

namespace DPFC.Spec

/-- `cn` and `cu` count the standard normals and standard uniforms drawn so far. Any generator can be
equipped with such counters by pairing its state with two numbers. -/
structure Counters {ρ K : Type} (env : Env ρ K) (cn cu : ρ → Nat) : Prop where
  normal_cn : ∀ r, cn (env.normal r).2 = cn r + 1
  normal_cu : ∀ r, cu (env.normal r).2 = cu r
  uniform_cn : ∀ r, cn (env.uniform r).2 = cn r
  uniform_cu : ∀ r, cu (env.uniform r).2 = cu r + 1

end DPFC.Spec
