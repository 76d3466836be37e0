import Verif.Model.States

/-! What an array prescribes for the particles when its entry `i` is broadcast along the particle axis of coordinate `i`. -/

namespace DPFC.Spec
variable {K : Type} {N d : Nat}

/-- `Y` prescribes the cloud `P`: entry `i` of a vector gives coordinate `i` of all particles, row `i` of a matrix with one
column as well, and row `i` of a matrix with `N` columns gives coordinate `i` of the particles one by one. Further entries or
rows of `Y` do not matter. -/
def Prescribes : StateArg K → Mat d N K → Prop
  | .flat v, P => ∀ i : Fin d, ∃ x, v[i.val]? = some x ∧ ∀ n, P i n = x
  | @StateArg.mat _ a b m, P => (b = N ∨ b = 1) ∧ ∀ i : Fin d, ∃ h : i.val < a, ∀ (n : Fin N) (j : Fin b),
      b = 1 ∨ j.val = n.val → m ⟨i.val, h⟩ j = P i n
  | .foreign _, _ => False

end DPFC.Spec
