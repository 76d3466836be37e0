import Verif.Model.Base
import Mathlib.Analysis.SpecialFunctions.Trigonometric.Basic
import Mathlib.Analysis.SpecialFunctions.Exp
import Mathlib.Analysis.SpecialFunctions.Sqrt
import Mathlib.LinearAlgebra.Matrix.NonsingularInverse

/-!
# Layer R: exact real arithmetic

The operations of `NumOps` on Mathlib's reals. `inv` is the true matrix inverse, LinAlgError if
there is none. Every real is finite. (Division by zero is `0` as everywhere in Mathlib; theorems
about quotients therefore carry a hypothesis that the denominator is non-zero wherever the real
program would produce a special value.)
-/

namespace DPFC

/-- The matrix inverse (of an invertible matrix) returned by `np.linalg.inv` / `torch.linalg.inv`
(score_function_estimators.py:254, 273). -/
noncomputable def matInv {m : Nat} (A : Mat m m ℝ) : Mat m m ℝ :=
  let B : Matrix (Fin m) (Fin m) ℝ := (Matrix.of A)⁻¹
  B

open Classical in
/-- Exact real arithmetic as an interpretation of the scalar operations used in
score_function_estimators.py and DeterministicParticleFlowControl.py (e.g. `np.exp`, `np.sqrt`,
`np.linalg.inv` in score_function_estimators.py:254-273, `np.min`/`np.max` in
DeterministicParticleFlowControl.py:298-300). Simplification: no rounding, no special values. -/
noncomputable instance instNumOpsReal : NumOps ℝ where
  lit p q := (p : ℝ) / (q : ℝ)
  exp := Real.exp
  sqrt := Real.sqrt
  sin := Real.sin
  cos := Real.cos
  abs x := |x|
  ltB a b := decide (a < b)
  leB a b := decide (a ≤ b)
  eqB a b := decide (a = b)
  isFinite _ := true
  ceilNat x := ⌈x⌉₊
  sum v := ∑ i, v i
  amin v := Finset.univ.inf' Finset.univ_nonempty v
  amax v := Finset.univ.sup' Finset.univ_nonempty v
  inv A := if IsUnit (Matrix.of A).det then .ok (matInv A) else .error .linAlgError

section
variable {n m : Nat}

theorem real_lit (p : ℤ) (q : ℕ) : (lit p q : ℝ) = (p : ℝ) / (q : ℝ) := rfl
@[simp] theorem real_lit_zero (q : ℕ) : (lit 0 q : ℝ) = 0 := by simp [real_lit]
@[simp] theorem real_lit_one : (lit 1 1 : ℝ) = 1 := by simp [real_lit]
@[simp] theorem real_lit_int (p : ℤ) : (lit p 1 : ℝ) = p := by simp [real_lit]
@[simp] theorem real_lit_milli : (lit 1 1000 : ℝ) = 1/1000 := by simp [real_lit]
@[simp] theorem real_lit_half : (lit 1 2 : ℝ) = 1/2 := by simp [real_lit]
@[simp] theorem real_exp (x : ℝ) : NumOps.exp x = Real.exp x := rfl
@[simp] theorem real_sqrt (x : ℝ) : NumOps.sqrt x = Real.sqrt x := rfl
@[simp] theorem real_sin (x : ℝ) : NumOps.sin x = Real.sin x := rfl
@[simp] theorem real_cos (x : ℝ) : NumOps.cos x = Real.cos x := rfl
@[simp] theorem real_abs (x : ℝ) : NumOps.abs x = |x| := rfl
@[simp] theorem real_ltB (a b : ℝ) : NumOps.ltB a b = true ↔ a < b := by
  simp [NumOps.ltB]
@[simp] theorem real_leB (a b : ℝ) : NumOps.leB a b = true ↔ a ≤ b := by
  simp [NumOps.leB]
@[simp] theorem real_eqB (a b : ℝ) : NumOps.eqB a b = true ↔ a = b := by
  simp [NumOps.eqB]
@[simp] theorem real_isFinite (a : ℝ) : NumOps.isFinite a = true := rfl
@[simp] theorem real_ceilNat (a : ℝ) : NumOps.ceilNat a = ⌈a⌉₊ := rfl
@[simp] theorem real_sum (v : Fin n → ℝ) : NumOps.sum v = ∑ i, v i := rfl
theorem real_amin (v : Fin (n+1) → ℝ) :
    NumOps.amin v = Finset.univ.inf' Finset.univ_nonempty v := rfl
theorem real_amax (v : Fin (n+1) → ℝ) :
    NumOps.amax v = Finset.univ.sup' Finset.univ_nonempty v := rfl

theorem real_inv_ok {A : Mat m m ℝ} (h : IsUnit (Matrix.of A).det) :
    NumOps.inv A = .ok (matInv A) := by
  simp only [NumOps.inv]; exact if_pos h

theorem real_inv_err {A : Mat m m ℝ} (h : ¬ IsUnit (Matrix.of A).det) :
    NumOps.inv A = .error .linAlgError := by
  simp only [NumOps.inv]; exact if_neg h

theorem real_inv_eq {A : Mat m m ℝ} {B : Mat m m ℝ} (h : NumOps.inv A = .ok B) :
    IsUnit (Matrix.of A).det ∧ B = matInv A := by
  by_cases hu : IsUnit (Matrix.of A).det
  · rw [real_inv_ok hu] at h
    exact ⟨hu, (Except.ok.inj h).symm⟩
  · rw [real_inv_err hu] at h; cases h

@[simp] theorem of_eye : Matrix.of (eye : Mat m m ℝ) = (1 : Matrix (Fin m) (Fin m) ℝ) := by
  ext i j
  simp only [eye, real_lit_one, real_lit_zero, Matrix.one_apply, Matrix.of_apply]

theorem of_mm {p : Nat} (A : Mat n m ℝ) (B : Mat m p ℝ) :
    Matrix.of (mm A B) = Matrix.of A * Matrix.of B := by
  ext i j
  simp [mm, Matrix.mul_apply]

theorem real_mv (A : Mat n m ℝ) (v : Fin m → ℝ) : mv A v = (Matrix.of A).mulVec v := by
  funext i
  simp [mv, Matrix.mulVec, dotProduct]

theorem of_tr (A : Mat n m ℝ) : Matrix.of (tr A) = (Matrix.of A).transpose := rfl
theorem of_negM (A : Mat n m ℝ) : Matrix.of (negM A) = -(Matrix.of A) := rfl
theorem of_matInv (A : Mat m m ℝ) : Matrix.of (matInv A) = (Matrix.of A)⁻¹ := rfl

theorem mat_ext {A B : Mat n m ℝ} (h : Matrix.of A = Matrix.of B) : A = B :=
  Matrix.of.injective h

@[simp] theorem real_sq (x : ℝ) : sq x = x ^ 2 := by simp [sq, pow_two]
@[simp] theorem real_mean (v : Fin n → ℝ) : mean v = (∑ i, v i) / n := by simp [mean]

end
end DPFC
