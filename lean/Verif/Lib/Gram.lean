import Verif.Inst.Real
import Mathlib.Analysis.Matrix.Order
import Mathlib.Analysis.Matrix.PosDef
import Mathlib.Analysis.SpecialFunctions.Exponential

/-! Gaussian Gram matrices are positive semidefinite. -/

namespace DPFC
open Matrix

variable {n d : Nat}

theorem exp_mul_posSemidef (a : Fin n → ℝ) :
    (Matrix.of fun i j => Real.exp (a i * a j)).PosSemidef := by
  refine Matrix.PosSemidef.of_dotProduct_mulVec_nonneg ?_ ?_
  · ext i j; simp [mul_comm]
  · intro x
    have h : ∀ i j, HasSum (fun k : ℕ => x i * ((a i * a j)^k / (k.factorial : ℝ) * x j))
        (x i * (Real.exp (a i * a j) * x j)) := fun i j => by
      have := NormedSpace.expSeries_div_hasSum_exp (𝔸 := ℝ) (a i * a j)
      rw [← Real.exp_eq_exp_ℝ] at this
      exact (this.mul_right _).mul_left _
    have h2 : HasSum (fun k : ℕ => ∑ i, ∑ j, x i * ((a i * a j)^k / (k.factorial : ℝ) * x j))
        (∑ i, ∑ j, x i * (Real.exp (a i * a j) * x j)) :=
      hasSum_sum fun i _ => hasSum_sum fun j _ => h i j
    have e : star x ⬝ᵥ (Matrix.of fun i j => Real.exp (a i * a j)) *ᵥ x
        = ∑ i, ∑ j, x i * (Real.exp (a i * a j) * x j) := by
      simp [dotProduct, mulVec, Finset.mul_sum]
    rw [e]
    refine h2.nonneg fun k => ?_
    have : ∑ i, ∑ j, x i * ((a i * a j)^k / (k.factorial : ℝ) * x j)
        = (∑ i, x i * a i ^ k)^2 / k.factorial := by
      rw [pow_two, Finset.sum_mul_sum, Finset.sum_div]
      refine Finset.sum_congr rfl fun i _ => ?_
      rw [Finset.sum_div]
      refine Finset.sum_congr rfl fun j _ => ?_
      rw [mul_pow]; ring
    rw [this]
    positivity

theorem gauss1_posSemidef (a : Fin n → ℝ) (l : ℝ) :
    (Matrix.of fun i j => Real.exp (-((a i - a j)^2) / (2 * l * l))).PosSemidef := by
  have h := exp_mul_posSemidef fun i => a i / l
  have hd := (Matrix.PosSemidef.conjTranspose_mul_mul_same h
    (Matrix.diagonal fun i => Real.exp (-(a i)^2 / (2*l*l))))
  convert hd using 1
  ext i j
  simp only [Matrix.of_apply, Matrix.diagonal_conjTranspose, Matrix.mul_diagonal,
    Matrix.diagonal_mul, star_trivial]
  rw [← Real.exp_add, ← Real.exp_add]
  congr 1
  ring

theorem ones_posSemidef : (Matrix.of fun (_ _ : Fin n) => (1:ℝ)).PosSemidef := by
  have := gauss1_posSemidef (fun _ : Fin n => (0:ℝ)) 1
  simpa using this

theorem gauss_foldl_posSemidef (z : Fin n → Fin d → ℝ) (l : Fin d → ℝ) :
    (Matrix.of fun i j => ∏ k, Real.exp (-((z i k - z j k)^2) / (2 * l k * l k))).PosSemidef := by
  induction d with
  | zero => simpa using ones_posSemidef
  | succ d ih =>
    have h1 := ih (fun i k => z i k.succ) (fun k => l k.succ)
    have h0 := gauss1_posSemidef (fun i => z i 0) (l 0)
    have := h0.hadamard h1
    have e : (Matrix.of fun i j => ∏ k, Real.exp (-((z i k - z j k)^2) / (2 * l k * l k)))
        = (Matrix.of fun i j => Real.exp (-((z i 0 - z j 0)^2) / (2 * l 0 * l 0))) ⊙
          (Matrix.of fun i j =>
            ∏ k : Fin d, Real.exp (-((z i k.succ - z j k.succ)^2) / (2 * l k.succ * l k.succ))) := by
      ext i j
      simp [Matrix.hadamard, Fin.prod_univ_succ]
    rw [e]
    exact this

end DPFC
