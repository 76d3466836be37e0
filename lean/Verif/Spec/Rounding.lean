import Verif.Model.TorchDPFC
import Mathlib.Analysis.SpecialFunctions.Pow.Real

/-!
# Rounded arithmetic

`Rounds fin val u Ω η` is the usual model of floating-point arithmetic: the finite numbers of `K` have real values;
an operation whose exact result is at most `Ω` in absolute value (and, for products and quotients, zero or at
least `η`) gives a finite number whose relative error is at most `u`. IEEE binary64 satisfies it with `u = 2^-53`,
`Ω = 2^1023`, `η = 2^-1022`. Nothing is said about NaN, infinities, overflow and underflow.
-/

namespace DPFC.Spec

/-- `x` approximates `y` with relative error `u`. -/
def RelErr (u x y : ℝ) : Prop := |x - y| ≤ u * |y|

section
variable {K : Type} [Add K] [Sub K] [Mul K] [Div K] [NumOps K]

structure Rounds (fin : K → Prop) (val : K → ℝ) (u Ω η : ℝ) : Prop where
  lit : ∀ (p : ℤ) (q : ℕ), |(p : ℝ) / q| ≤ Ω → ((p : ℝ) / q = 0 ∨ η ≤ |(p : ℝ) / q|) →
    fin (lit p q) ∧ RelErr u (val (lit p q)) ((p : ℝ) / q)
  add : ∀ a b, fin a → fin b → |val a + val b| ≤ Ω → fin (a + b) ∧ RelErr u (val (a + b)) (val a + val b)
  sub : ∀ a b, fin a → fin b → |val a - val b| ≤ Ω → fin (a - b) ∧ RelErr u (val (a - b)) (val a - val b)
  mul : ∀ a b, fin a → fin b → |val a * val b| ≤ Ω → (val a * val b = 0 ∨ η ≤ |val a * val b|) →
    fin (a * b) ∧ RelErr u (val (a * b)) (val a * val b)
  div : ∀ a b, fin a → fin b → val b ≠ 0 → |val a / val b| ≤ Ω →
    (val a / val b = 0 ∨ η ≤ |val a / val b|) → fin (a / b) ∧ RelErr u (val (a / b)) (val a / val b)
  ceilNat : ∀ a, fin a → NumOps.ceilNat a = ⌈val a⌉₊

end
end DPFC.Spec
