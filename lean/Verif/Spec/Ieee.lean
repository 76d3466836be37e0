import Verif.Model.Base

/-!
# Special values

The rules of IEEE 754 about NaN, infinities and zeros that C37, C48, C56, C57 and C60 use, for an arbitrary scalar type.
They hold for binary64 arithmetic with any rounding, and for exact real arithmetic extended by two
infinities and NaN (`Verif.Inst.XR`). Nothing is assumed about the value of `linalg.inv`, about rounding,
or about the order of summation.
-/

namespace DPFC.Spec

/-- `nan`, `fin`, `zero` recognise NaN, the finite numbers and the (positive or negative) zeros. -/
structure Ieee (K : Type) [Add K] [Sub K] [Mul K] [Div K] [Neg K] [NumOps K] where
  nan : K → Prop
  fin : K → Prop
  zero : K → Prop
  -- the three classes
  zero_fin : ∀ {a}, zero a → fin a
  nan_not_fin : ∀ {a}, nan a → ¬ fin a
  -- NaN propagates
  nan_add_left : ∀ {a b : K}, nan a → nan (a + b)
  nan_add_right : ∀ {a b : K}, nan b → nan (a + b)
  nan_sub_left : ∀ {a b : K}, nan a → nan (a - b)
  nan_sub_right : ∀ {a b : K}, nan b → nan (a - b)
  nan_mul_left : ∀ {a b : K}, nan a → nan (a * b)
  nan_mul_right : ∀ {a b : K}, nan b → nan (a * b)
  nan_div_left : ∀ {a b : K}, nan a → nan (a / b)
  nan_div_right : ∀ {a b : K}, nan b → nan (a / b)
  nan_neg : ∀ {a : K}, nan a → nan (-a)
  nan_exp : ∀ {a : K}, nan a → nan (NumOps.exp a)
  nan_sqrt : ∀ {a : K}, nan a → nan (NumOps.sqrt a)
  nan_sum : ∀ {n : Nat} {v : Fin n → K} (i : Fin n), nan (v i) → nan (NumOps.sum v)
  nan_amin : ∀ {n : Nat} {v : Fin (n+1) → K} (i : Fin (n+1)), nan (v i) → nan (NumOps.amin v)
  nan_amax : ∀ {n : Nat} {v : Fin (n+1) → K} (i : Fin (n+1)), nan (v i) → nan (NumOps.amax v)
  -- tests
  isFinite_nan : ∀ {a : K}, nan a → NumOps.isFinite a = false
  ltB_nan : ∀ {a b : K}, nan a ∨ nan b → NumOps.ltB a b = false
  -- zeros
  lit_two : fin (lit 2 1 : K)
  lit_zero : zero (lit 0 1 : K)
  sub_self : ∀ {a : K}, fin a → zero (a - a)
  sub_add_zero : ∀ {a z : K}, fin a → zero z → zero (a - (a + z))
  zero_mul : ∀ {a b : K}, zero a → fin b → zero (a * b)
  mul_zero : ∀ {a b : K}, fin a → zero b → zero (a * b)
  zero_mul_any : ∀ {a b : K}, zero a → zero (a * b) ∨ nan (a * b)
  mul_zero_any : ∀ {a b : K}, zero b → zero (a * b) ∨ nan (a * b)
  zero_neg : ∀ {a : K}, zero a → zero (-a)
  zero_abs : ∀ {a : K}, zero a → zero (NumOps.abs a)
  zero_sqrt : ∀ {a : K}, zero a → zero (NumOps.sqrt a)
  zero_sum : ∀ {n : Nat} {v : Fin n → K}, (∀ i, zero (v i)) → zero (NumOps.sum v)
  zero_div : ∀ {a : K} {n : Int}, zero a → 0 < n → zero (a / lit n 1)
  -- division by zero, and infinities
  zero_div_zero : ∀ {a b : K}, zero a → zero b → nan (a / b)
  div_zero : ∀ {a b : K}, zero b → ¬ fin (a / b)
  sub_of_not_fin : ∀ {a b : K}, ¬ fin a → ¬ fin (a - b)
  sub_self_of_not_fin : ∀ {a : K}, ¬ fin a → nan (a - a)
  -- extreme values of constant vectors
  amin_const : ∀ {n : Nat} {a : K}, fin a → NumOps.amin (fun _ : Fin (n+1) => a) = a
  amax_const : ∀ {n : Nat} {a : K}, fin a → NumOps.amax (fun _ : Fin (n+1) => a) = a

/-- Averaging `N` copies of `y` gives back `y` without rounding error. (True in exact arithmetic; in
binary64 for instance whenever `N` is a power of two.) -/
def ExactMean {K : Type} [Add K] [Sub K] [Mul K] [Div K] [Neg K] [NumOps K] (N : Nat) (y : K) : Prop :=
  NumOps.sum (fun _ : Fin N => y) / lit N 1 = y

end DPFC.Spec
