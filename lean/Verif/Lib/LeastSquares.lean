import Verif.Spec.Pice
import Mathlib.LinearAlgebra.Matrix.DotProduct
import Mathlib.Analysis.Matrix.Spectrum

/-! The Moore-Penrose inverse of a weighted Gram matrix solves the weighted least-squares problem. -/

namespace DPFC
open Spec Matrix
variable {n m : ℕ}

/-- Weighted Gram matrix of the features. -/
def gram (w : Fin n → ℝ) (h : Fin m → Fin n → ℝ) : Matrix (Fin m) (Fin m) ℝ := fun l l' => ∑ j, w j * h l j * h l' j

theorem gram_symm (w : Fin n → ℝ) (h : Fin m → Fin n → ℝ) : (gram w h)ᵀ = gram w h := by
  ext l l'
  simp only [transpose_apply, gram]
  exact Finset.sum_congr rfl fun j _ => by ring

theorem gram_mulVec (w : Fin n → ℝ) (h : Fin m → Fin n → ℝ) (c : Fin m → ℝ) (l : Fin m) :
    (gram w h *ᵥ c) l = ∑ j, w j * h l j * ∑ l', c l' * h l' j := by
  simp only [mulVec, dotProduct, gram, Finset.sum_mul, Finset.mul_sum]
  rw [Finset.sum_comm]
  exact Finset.sum_congr rfl fun j _ => Finset.sum_congr rfl fun l' _ => by ring

theorem gram_quad (w : Fin n → ℝ) (h : Fin m → Fin n → ℝ) (c : Fin m → ℝ) :
    c ⬝ᵥ (gram w h *ᵥ c) = ∑ j, w j * (∑ l, c l * h l j) ^ 2 := by
  simp only [dotProduct, gram_mulVec, Finset.mul_sum (s := Finset.univ)]
  rw [Finset.sum_comm]
  refine Finset.sum_congr rfl fun j _ => ?_
  rw [pow_two, Finset.sum_mul_sum, Finset.mul_sum]
  refine Finset.sum_congr rfl fun l _ => ?_
  rw [Finset.mul_sum]
  exact Finset.sum_congr rfl fun l' _ => by ring

theorem isPinv_transpose {A P : Matrix (Fin m) (Fin m) ℝ} (hA : Aᵀ = A) (h : IsPinv A P) : IsPinv A Pᵀ where
  h1 := by
    have := congrArg transpose h.h1
    simpa [transpose_mul, hA, Matrix.mul_assoc] using this
  h2 := by
    have := congrArg transpose h.h2
    simpa [transpose_mul, hA, Matrix.mul_assoc] using this
  h3 := by
    have e : A * Pᵀ = P * A := by
      have := h.h4; rwa [transpose_mul, hA] at this
    rw [e]; exact h.h4
  h4 := by
    have e : Pᵀ * A = A * P := by
      have := h.h3; rwa [transpose_mul, hA] at this
    rw [e]; exact h.h3

/-- The normal equations are solved exactly. -/
theorem normal_eq (w : Fin n → ℝ) (hw : ∀ j, 0 ≤ w j) (h : Fin m → Fin n → ℝ) (v : Fin n → ℝ)
    {Q : Matrix (Fin m) (Fin m) ℝ} (hQ : IsPinv (gram w h) Q) :
    gram w h *ᵥ (Q *ᵥ fun l => ∑ j, w j * v j * h l j) = fun l => ∑ j, w j * v j * h l j := by
  set t : Fin m → ℝ := fun l => ∑ j, w j * v j * h l j with ht
  set H := gram w h with hH
  set d := t - H *ᵥ (Q *ᵥ t) with hd
  have hHd : H *ᵥ d = 0 := by
    have : d = (1 - H * Q) *ᵥ t := by rw [hd, sub_mulVec, one_mulVec, mulVec_mulVec]
    rw [this, mulVec_mulVec, Matrix.mul_sub, Matrix.mul_one]
    have e : H * (H * Q) = H := by
      have := congrArg transpose hQ.h1
      rwa [transpose_mul, hQ.h3, gram_symm] at this
    rw [e, sub_self, zero_mulVec]
  have hz : ∀ j, w j * ∑ l, d l * h l j = 0 := by
    have h0 : ∑ j, w j * (∑ l, d l * h l j) ^ 2 = 0 := by
      rw [← gram_quad, ← hH, hHd, dotProduct_zero]
    intro j
    have := (Finset.sum_eq_zero_iff_of_nonneg (fun j _ => mul_nonneg (hw j) (sq_nonneg _))).1 h0 j (Finset.mem_univ _)
    rcases mul_eq_zero.1 this with h1 | h1
    · rw [h1, zero_mul]
    · rw [pow_eq_zero_iff two_ne_zero] at h1; rw [h1, mul_zero]
  have hdt : d ⬝ᵥ t = 0 := by
    simp only [dotProduct, ht, Finset.mul_sum]
    rw [Finset.sum_comm]
    refine Finset.sum_eq_zero fun j _ => ?_
    have : ∑ l, d l * (w j * v j * h l j) = v j * (w j * ∑ l, d l * h l j) := by
      rw [Finset.mul_sum, Finset.mul_sum]; exact Finset.sum_congr rfl fun l _ => by ring
    rw [this, hz, mul_zero]
  have hdd : d ⬝ᵥ d = 0 := by
    have e : d ⬝ᵥ (H *ᵥ (Q *ᵥ t)) = 0 := by
      rw [dotProduct_mulVec, ← mulVec_transpose, gram_symm, hHd, zero_dotProduct]
    calc d ⬝ᵥ d = d ⬝ᵥ t - d ⬝ᵥ (H *ᵥ (Q *ᵥ t)) := by rw [← dotProduct_sub]
      _ = 0 := by rw [hdt, e, sub_zero]
  have : d = 0 := dotProduct_self_eq_zero.1 hdd
  exact (sub_eq_zero.1 this).symm

theorem sqError_diff (w : Fin n → ℝ) (h : Fin m → Fin n → ℝ) (v : Fin n → ℝ) (c c' : Fin m → ℝ)
    (hN : gram w h *ᵥ c = fun l => ∑ j, w j * v j * h l j) :
    sqError w h v c' = sqError w h v c + ∑ j, w j * (∑ l, (c' l - c l) * h l j) ^ 2 := by
  unfold sqError
  have key : ∑ j, w j * (v j - ∑ l, c l * h l j) * (∑ l, (c' l - c l) * h l j) = 0 := by
    have : ∀ j, w j * (v j - ∑ l, c l * h l j) * (∑ l, (c' l - c l) * h l j)
        = ∑ l, (c' l - c l) * (w j * v j * h l j - w j * h l j * ∑ l', c l' * h l' j) := by
      intro j
      rw [Finset.mul_sum]
      exact Finset.sum_congr rfl fun l _ => by ring
    simp only [this]
    rw [Finset.sum_comm]
    refine Finset.sum_eq_zero fun l _ => ?_
    rw [← Finset.mul_sum, Finset.sum_sub_distrib, ← gram_mulVec, hN, sub_self, mul_zero]
  have h2 : ∀ j, w j * (v j - ∑ l, c' l * h l j) ^ 2 = w j * (v j - ∑ l, c l * h l j) ^ 2
      + w j * (∑ l, (c' l - c l) * h l j) ^ 2 - 2 * (w j * (v j - ∑ l, c l * h l j) * (∑ l, (c' l - c l) * h l j)) := by
    intro j
    have : ∑ l, c' l * h l j = ∑ l, c l * h l j + ∑ l, (c' l - c l) * h l j := by
      rw [← Finset.sum_add_distrib]; exact Finset.sum_congr rfl fun l _ => by ring
    rw [this]; ring
  simp only [h2]
  rw [Finset.sum_sub_distrib, Finset.sum_add_distrib, ← Finset.mul_sum, key]
  ring

theorem pinv_shortest (w : Fin n → ℝ) (hw : ∀ j, 0 ≤ w j) (h : Fin m → Fin n → ℝ) (v : Fin n → ℝ)
    {Q : Matrix (Fin m) (Fin m) ℝ} (hQ : IsPinv (gram w h) Q) :
    ShortestLeastSquares w h v (Q *ᵥ fun l => ∑ j, w j * v j * h l j) := by
  set t : Fin m → ℝ := fun l => ∑ j, w j * v j * h l j with ht
  have hN := normal_eq w hw h v hQ
  rw [← ht] at hN
  constructor
  · intro c'
    rw [sqError_diff w h v _ c' hN]
    have : 0 ≤ ∑ j, w j * (∑ l, (c' l - (Q *ᵥ t) l) * h l j) ^ 2 :=
      Finset.sum_nonneg fun j _ => mul_nonneg (hw j) (sq_nonneg _)
    linarith
  · intro c' he hne
    rw [sqError_diff w h v _ c' hN] at he
    set c := Q *ᵥ t with hc
    have h0 : ∑ j, w j * (∑ l, (c' l - c l) * h l j) ^ 2 = 0 := by linarith
    have hz : gram w h *ᵥ (c' - c) = 0 := by
      funext l
      rw [gram_mulVec]
      refine Finset.sum_eq_zero fun j _ => ?_
      have := (Finset.sum_eq_zero_iff_of_nonneg (fun j _ => mul_nonneg (hw j) (sq_nonneg _))).1 h0 j (Finset.mem_univ _)
      have e : ∑ l', (c' - c) l' * h l' j = ∑ l', (c' l' - c l') * h l' j := rfl
      rw [e]
      rcases mul_eq_zero.1 this with h1 | h1
      · rw [h1]; ring
      · rw [pow_eq_zero_iff two_ne_zero] at h1; rw [h1, mul_zero]
    have horth : c ⬝ᵥ (c' - c) = 0 := by
      have e1 : c = (Q * gram w h) *ᵥ c := by
        rw [hc, mulVec_mulVec, hQ.h2]
      calc c ⬝ᵥ (c' - c) = ((Q * gram w h) *ᵥ c) ⬝ᵥ (c' - c) := by rw [← e1]
        _ = 0 := by
          rw [dotProduct_comm, dotProduct_mulVec, ← mulVec_transpose, hQ.h4, ← mulVec_mulVec, hz, mulVec_zero,
            zero_dotProduct]
    have hpos : 0 < (c' - c) ⬝ᵥ (c' - c) := by
      have h1 : (c' - c) ⬝ᵥ (c' - c) ≠ 0 := fun h => hne (sub_eq_zero.1 (dotProduct_self_eq_zero.1 h))
      have h2 : 0 ≤ (c' - c) ⬝ᵥ (c' - c) := Finset.sum_nonneg fun l _ => mul_self_nonneg _
      exact lt_of_le_of_ne h2 (Ne.symm h1)
    have e : ∑ l, c' l ^ 2 = ∑ l, c l ^ 2 + 2 * (c ⬝ᵥ (c' - c)) + (c' - c) ⬝ᵥ (c' - c) := by
      simp only [dotProduct, Finset.mul_sum, ← Finset.sum_add_distrib, Pi.sub_apply]
      exact Finset.sum_congr rfl fun l _ => by ring
    rw [e, horth]
    linarith

/-- Symmetric matrices have a Moore-Penrose inverse. -/
theorem exists_pinv (A : Matrix (Fin m) (Fin m) ℝ) (hA : Aᵀ = A) : ∃ P, IsPinv A P := by
  have hH : A.IsHermitian := by
    unfold Matrix.IsHermitian
    rw [conjTranspose_eq_transpose_of_trivial, hA]
  obtain ⟨V, D, hV, hAe⟩ : ∃ (V : Matrix (Fin m) (Fin m) ℝ) (D : Fin m → ℝ), Vᵀ * V = 1 ∧ A = V * diagonal D * Vᵀ := by
    refine ⟨hH.eigenvectorUnitary, hH.eigenvalues, ?_, ?_⟩
    · have := (Matrix.mem_unitaryGroup_iff').1 hH.eigenvectorUnitary.2
      rwa [star_eq_conjTranspose, conjTranspose_eq_transpose_of_trivial] at this
    · have := hH.spectral_theorem
      rw [Unitary.conjStarAlgAut_apply] at this
      rw [star_eq_conjTranspose, conjTranspose_eq_transpose_of_trivial] at this
      simpa [Function.comp_def] using this
  have key : ∀ X Y : Fin m → ℝ, (V * diagonal X * Vᵀ) * (V * diagonal Y * Vᵀ) = V * diagonal (fun i => X i * Y i) * Vᵀ := by
    intro X Y
    have : (V * diagonal X * Vᵀ) * (V * diagonal Y * Vᵀ) = V * (diagonal X * (Vᵀ * V) * diagonal Y) * Vᵀ := by
      simp only [Matrix.mul_assoc]
    rw [this, hV, Matrix.mul_one, diagonal_mul_diagonal]
  have keyT : ∀ X : Fin m → ℝ, (V * diagonal X * Vᵀ)ᵀ = V * diagonal X * Vᵀ := by
    intro X
    simp only [transpose_mul, transpose_transpose, diagonal_transpose, Matrix.mul_assoc]
  refine ⟨V * diagonal (fun i => (D i)⁻¹) * Vᵀ, ?_, ?_, ?_, ?_⟩
  · rw [hAe, key, key]
    congr 3
    funext i
    by_cases h : D i = 0
    · simp [h]
    · field_simp
  · rw [hAe, key, key]
    congr 3
    funext i
    by_cases h : D i = 0
    · simp [h]
    · field_simp
  · rw [hAe, key, keyT]
  · rw [hAe, key, keyT]

end DPFC
