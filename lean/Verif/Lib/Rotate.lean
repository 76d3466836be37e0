import Verif.Lib.ScoreLaws
import Verif.Lib.TorchReal
import Verif.Spec.Rotate

/-! Rotations and renumbered coordinates of the closed-form score (helpers for C111). -/

namespace DPFC
open Matrix Spec

variable {N M d n : Nat}

theorem gauss_turn {R : Fin d → Fin d → ℝ} (hR : Orthogonal R) (l : ℝ) (x y : Fin d → ℝ) :
    gauss (fun _ => l) (fun k => ∑ a, R k a * x a) (fun k => ∑ a, R k a * y a) = gauss (fun _ => l) x y := by
  unfold gauss
  congr 2
  rw [← Finset.sum_div, ← Finset.sum_div]
  congr 1
  have e : ∀ k, (∑ a, R k a * x a - ∑ a, R k a * y a) ^ 2
      = ∑ a, ∑ b, (x a - y a) * (x b - y b) * (R k a * R k b) := by
    intro k
    rw [← Finset.sum_sub_distrib, pow_two, Finset.sum_mul_sum]
    exact Finset.sum_congr rfl fun a _ => Finset.sum_congr rfl fun b _ => by ring
  simp only [e]
  rw [Finset.sum_comm]
  refine Finset.sum_congr rfl fun a _ => ?_
  rw [Finset.sum_comm]
  simp only [← Finset.mul_sum, hR a, mul_ite, mul_one, mul_zero, Finset.sum_ite_eq, Finset.mem_univ, if_true,
    pow_two]

theorem kmat_turn {R : Fin d → Fin d → ℝ} (hR : Orthogonal R) (l : ℝ) (X : Mat N d ℝ) (Z : Mat M d ℝ) :
    kmat (fun _ => l) (turn R X) (turn R Z) = kmat (fun _ => l) X Z := by
  ext i j; exact gauss_turn hR l (X i) (Z j)

theorem gradSum_turn {R : Fin d → Fin d → ℝ} (hR : Orthogonal R) (l : ℝ) (X : Mat N d ℝ) (Z : Mat M d ℝ)
    (j : Fin d) (m : Fin M) :
    gradSum (fun _ => l) (turn R X) (turn R Z) j m = ∑ a, R j a * gradSum (fun _ => l) X Z a m := by
  simp only [gradSum_eq, Finset.mul_sum]
  rw [Finset.sum_comm]
  refine Finset.sum_congr rfl fun s _ => ?_
  have e : gauss (fun _ => l) (turn R X s) (turn R Z m) = gauss (fun _ => l) (X s) (Z m) :=
    gauss_turn hR l (X s) (Z m)
  rw [e]
  simp only [turn]
  rw [← Finset.sum_sub_distrib, ← Finset.sum_neg_distrib, Finset.sum_div, Finset.sum_mul]
  exact Finset.sum_congr rfl fun a _ => by ring

theorem score_turn {R : Fin d → Fin d → ℝ} (hR : Orthogonal R) (C l : ℝ) (X : Mat N d ℝ) (Z : Mat M d ℝ)
    (j : Fin d) (x : Fin d → ℝ) :
    score C (fun _ => l) (turn R X) (turn R Z) j (fun k => ∑ a, R k a * x a)
      = ∑ a, R j a * score C (fun _ => l) X Z a x := by
  have hc : coef C (fun _ => l) (turn R X) (turn R Z) j = fun m => ∑ a, R j a * coef C (fun _ => l) X Z a m := by
    funext m
    unfold coef sysMat gramReg
    rw [kmat_turn hR, kmat_turn hR]
    simp only [Pi.neg_apply, Matrix.mulVec, dotProduct, gradSum_turn hR, Finset.mul_sum, mul_neg,
      Finset.sum_neg_distrib]
    rw [Finset.sum_comm]
    congr 1
    exact Finset.sum_congr rfl fun a _ => Finset.sum_congr rfl fun b _ => by ring
  unfold score
  simp only [hc, Finset.mul_sum, Finset.sum_mul]
  rw [Finset.sum_comm]
  refine Finset.sum_congr rfl fun a _ => Finset.sum_congr rfl fun m _ => ?_
  have e : gauss (fun _ => l) (fun k => ∑ a, R k a * x a) (turn R Z m) = gauss (fun _ => l) x (Z m) :=
    gauss_turn hR l x (Z m)
  rw [e]; ring

theorem gauss_renumber (σ : Equiv.Perm (Fin d)) {e : Fin d → ℝ} (he : ∀ k, e k ^ 2 = 1) (l x y : Fin d → ℝ) :
    gauss (fun k => l (σ k)) (fun k => e k * x (σ k)) (fun k => e k * y (σ k)) = gauss l x y := by
  unfold gauss
  congr 2
  rw [← Equiv.sum_comp σ fun k => (x k - y k) ^ 2 / (2 * l k ^ 2)]
  refine Finset.sum_congr rfl fun k _ => ?_
  rw [← mul_sub, mul_pow, he, one_mul]

theorem score_renumber (σ : Equiv.Perm (Fin d)) {e : Fin d → ℝ} (he : ∀ k, e k ^ 2 = 1) (C : ℝ) (l : Fin d → ℝ)
    (X : Mat N d ℝ) (Z : Mat M d ℝ) (j : Fin d) (x : Fin d → ℝ) :
    score C (fun k => l (σ k)) (renumber σ e X) (renumber σ e Z) j (fun k => e k * x (σ k))
      = e j * score C l X Z (σ j) x := by
  have hk : ∀ {a b : Nat} (A : Mat a d ℝ) (B : Mat b d ℝ),
      kmat (fun k => l (σ k)) (renumber σ e A) (renumber σ e B) = kmat l A B := by
    intro a b A B; ext i j; exact gauss_renumber σ he l (A i) (B j)
  have hg : gradSum (fun k => l (σ k)) (renumber σ e X) (renumber σ e Z) j = e j • gradSum l X Z (σ j) := by
    funext m
    simp only [gradSum_eq, Pi.smul_apply, smul_eq_mul, Finset.mul_sum]
    refine Finset.sum_congr rfl fun s _ => ?_
    have h : gauss (fun k => l (σ k)) (renumber σ e X s) (renumber σ e Z m) = gauss l (X s) (Z m) :=
      gauss_renumber σ he l (X s) (Z m)
    rw [h]
    simp only [renumber]
    ring
  unfold score coef sysMat gramReg
  rw [hk, hk, hg]
  simp only [Matrix.mulVec_smul, Pi.neg_apply, Pi.smul_apply, smul_eq_mul, Finset.mul_sum]
  refine Finset.sum_congr rfl fun m _ => ?_
  have h : gauss (fun k => l (σ k)) (fun k => e k * x (σ k)) (renumber σ e Z m) = gauss l x (Z m) :=
    gauss_renumber σ he l x (Z m)
  rw [h]; ring

/-- The estimate depends on the lengthscales through their squares only. -/
theorem score_sq (C : ℝ) {l l' : Fin d → ℝ} (h : ∀ k, l k ^ 2 = l' k ^ 2) (X : Mat N d ℝ) (Z : Mat M d ℝ) (j : Fin d)
    (x : Fin d → ℝ) : score C l X Z j x = score C l' X Z j x := by
  have hg : ∀ a b : Fin d → ℝ, gauss l a b = gauss l' a b := by
    intro a b; simp [gauss, h]
  have hk : ∀ (p q : Nat) (A : Mat p d ℝ) (B : Mat q d ℝ), kmat l A B = kmat l' A B := by
    intro p q A B; ext a b; exact hg _ _
  have hs : gradSum l X Z j = gradSum l' X Z j := by
    funext m; simp [gradSum_eq, hg, h]
  unfold score coef sysMat gramReg
  simp only [hg, hk, hs]

/-- `score_turn` for lengthscales of one size. -/
theorem score_turn_iso {R : Fin d → Fin d → ℝ} (hR : Orthogonal R) (C : ℝ) {l : Fin d → ℝ}
    (hl : ∀ a b, l a ^ 2 = l b ^ 2) (X : Mat N d ℝ) (Z : Mat M d ℝ) (j : Fin d) (x : Fin d → ℝ) :
    score C l (turn R X) (turn R Z) j (fun k => ∑ a, R k a * x a) = ∑ a, R j a * score C l X Z a x := by
  have e : ∀ {n m : Nat} (A : Mat n d ℝ) (B : Mat m d ℝ) (i : Fin d) (y : Fin d → ℝ),
      score C l A B i y = score C (fun _ => l j) A B i y := fun A B i y => score_sq C (fun k => hl k j) A B i y
  rw [e, score_turn hR]
  simp only [e]

/-- The estimate from one sample and one inducing point. -/
theorem score_one {C : ℝ} (hC : -1/1000 < C) (l : Fin d → ℝ) (X Z : Mat 1 d ℝ) (j : Fin d) :
    score C l X Z j (X 0) * (gauss l (X 0) (Z 0) ^ 2 + (C + 1/1000) * (1 + 1/1000))
      = (X 0 j - Z 0 j) / l j ^ 2 * gauss l (X 0) (Z 0) ^ 2 := by
  have h0 := congrFun (sysMat_mulVec_coef hC l X Z j) 0
  have g1 : gauss l (Z 0) (Z 0) = 1 := by simp [gauss]
  simp only [sysMat, gramReg, kmat, Matrix.mulVec, dotProduct, Matrix.add_apply, Matrix.smul_apply,
    Matrix.mul_apply, Matrix.transpose_apply, Matrix.of_apply, Finset.univ_unique,
    Finset.sum_singleton, Pi.neg_apply, gradSum, pderiv_gauss, smul_eq_mul,
    Matrix.one_apply, Fin.default_eq_zero, if_true, g1] at h0
  simp only [score, Finset.univ_unique, Finset.sum_singleton, Fin.default_eq_zero]
  linear_combination gauss l (X 0) (Z 0) * h0

end DPFC
