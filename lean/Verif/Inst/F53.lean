import Verif.Spec.Rounding
import Verif.Inst.Real
import Mathlib.Algebra.Order.Round
import Mathlib.Data.Int.Log

/-!
# Layer F: arithmetic rounded to 53 significant bits

Every operation is the exact one followed by rounding to the nearest number with 53 significant bits, as in IEEE
binary64 except that the exponent is unbounded (no overflow, no underflow) and ties go upwards.
-/

namespace DPFC

/-- Rounding to 53 significant bits, what `float64` does to every intermediate result
(DeterministicParticleFlowControl.py:213, 855). Simplification: exponents are unbounded. -/
noncomputable def rnd53 (x : ℝ) : ℝ :=
  round (x / 2 ^ (Int.log 2 |x| - 52)) * (2 : ℝ) ^ (Int.log 2 |x| - 52)

theorem rnd53_err (x : ℝ) : |rnd53 x - x| ≤ 1 / 2 ^ 53 * |x| := by
  rcases eq_or_ne x 0 with rfl | hx
  · simp [rnd53]
  · have hp : (0:ℝ) < 2 ^ (Int.log 2 |x| - 52) := by positivity
    have hl : ((2:ℕ):ℝ) ^ Int.log 2 |x| ≤ |x| := Int.zpow_log_le_self (by norm_num) (abs_pos.2 hx)
    have hr := abs_sub_round (x / 2 ^ (Int.log 2 |x| - 52))
    have e : rnd53 x - x =
        -((x / 2 ^ (Int.log 2 |x| - 52) - round (x / 2 ^ (Int.log 2 |x| - 52))) * 2 ^ (Int.log 2 |x| - 52)) := by
      unfold rnd53
      rw [sub_mul, div_mul_cancel₀ _ hp.ne']; ring
    rw [e, abs_neg, abs_mul, abs_of_pos hp]
    refine (mul_le_mul_of_nonneg_right hr hp.le).trans ?_
    rw [zpow_sub₀ (by norm_num : (2:ℝ) ≠ 0)]
    push_cast at hl
    have : (1:ℝ)/2 * (2 ^ Int.log 2 |x| / 2 ^ (52:ℤ)) = 1 / 2 ^ 53 * 2 ^ Int.log 2 |x| := by
      rw [show ((2:ℝ) ^ (52:ℤ)) = 2 ^ 52 by norm_cast]; ring
    rw [this]
    exact mul_le_mul_of_nonneg_left hl (by positivity)

/-- A number with rounded operations; the `float64` scalars of DeterministicParticleFlowControl.py:176-215. -/
structure F53 where
  val : ℝ

namespace F53

noncomputable instance : Add F53 := ⟨fun a b => ⟨rnd53 (a.val + b.val)⟩⟩
noncomputable instance : Sub F53 := ⟨fun a b => ⟨rnd53 (a.val - b.val)⟩⟩
noncomputable instance : Mul F53 := ⟨fun a b => ⟨rnd53 (a.val * b.val)⟩⟩
noncomputable instance : Div F53 := ⟨fun a b => ⟨rnd53 (a.val / b.val)⟩⟩
noncomputable instance : Neg F53 := ⟨fun a => ⟨-a.val⟩⟩

/-- The rounded operations on scalars (as used throughout DeterministicParticleFlowControl.py:176-400).
Simplification: sums and inverses are computed exactly and rounded once. -/
noncomputable instance : NumOps F53 where
  lit p q := ⟨rnd53 (lit p q)⟩
  exp a := ⟨rnd53 (NumOps.exp a.val)⟩
  sqrt a := ⟨rnd53 (NumOps.sqrt a.val)⟩
  sin a := ⟨rnd53 (NumOps.sin a.val)⟩
  cos a := ⟨rnd53 (NumOps.cos a.val)⟩
  abs a := ⟨|a.val|⟩
  ltB a b := NumOps.ltB a.val b.val
  leB a b := NumOps.leB a.val b.val
  eqB a b := NumOps.eqB a.val b.val
  isFinite _ := true
  ceilNat a := ⌈a.val⌉₊
  sum v := ⟨rnd53 (NumOps.sum fun i => (v i).val)⟩
  amin v := ⟨NumOps.amin fun i => (v i).val⟩
  amax v := ⟨NumOps.amax fun i => (v i).val⟩
  inv A := (NumOps.inv fun i j => (A i j).val).map fun B i j => ⟨rnd53 (B i j)⟩

theorem rounds (Ω η : ℝ) : Spec.Rounds (fun _ : F53 => True) F53.val (1 / 2 ^ 53) Ω η where
  lit p q _ _ := ⟨trivial, rnd53_err _⟩
  add a b _ _ _ := ⟨trivial, rnd53_err _⟩
  sub a b _ _ _ := ⟨trivial, rnd53_err _⟩
  mul a b _ _ _ _ := ⟨trivial, rnd53_err _⟩
  div a b _ _ _ _ _ := ⟨trivial, rnd53_err _⟩
  ceilNat _ _ := rfl

end F53

theorem rounds_real (Ω η : ℝ) : Spec.Rounds (fun _ : ℝ => True) (fun x => x) 0 Ω η where
  lit p q _ _ := ⟨trivial, by simp [Spec.RelErr, real_lit]⟩
  add a b _ _ _ := ⟨trivial, by simp [Spec.RelErr]⟩
  sub a b _ _ _ := ⟨trivial, by simp [Spec.RelErr]⟩
  mul a b _ _ _ _ := ⟨trivial, by simp [Spec.RelErr]⟩
  div a b _ _ _ _ _ := ⟨trivial, by simp [Spec.RelErr]⟩
  ceilNat _ _ := rfl

end DPFC
