import Verif.Model.Binding

/-! What a call assigns to the parameters. -/

namespace DPFC.Spec
variable {V : Type}

/-- In the list `vals` of values of the parameters `sig`, the parameter called `name` has the value `v`. -/
def HasValue (sig : List (Param V)) (vals : List V) (name : String) (v : V) : Prop :=
  ∃ (i : ℕ) (p : Param V), sig[i]? = some p ∧ p.name = name ∧ vals[i]? = some v

/-- The call `callee(*pos, **kw)` is well-formed: not too many positional arguments, each keyword given once and naming
a parameter not filled by position, and every parameter without default given. -/
def WellFormed (sig : List (Param V)) (pos : List V) (kw : List (String × V)) : Prop :=
  pos.length ≤ sig.length ∧ (kw.map Prod.fst).Nodup ∧
  (∀ n v, (n, v) ∈ kw → ∃ (i : ℕ) (p : Param V), sig[i]? = some p ∧ p.name = n ∧ pos.length ≤ i) ∧
  ∀ (i : ℕ) (p : Param V), sig[i]? = some p → p.default = none → i < pos.length ∨ ∃ v, (p.name, v) ∈ kw

/-- The value of parameter number `i`: by position, else by keyword, else the default. -/
def Gets (pos : List V) (kw : List (String × V)) (i : ℕ) (p : Param V) (v : V) : Prop :=
  pos[i]? = some v ∨
  (pos.length ≤ i ∧ (p.name, v) ∈ kw) ∨
  (pos.length ≤ i ∧ (∀ w, (p.name, w) ∉ kw) ∧ p.default = some v)

end DPFC.Spec
