import Verif.Lib.ScoreReal
import Mathlib.LinearAlgebra.Matrix.Rank

/-! Laws of the closed-form score (helpers for the properties C17-C26). -/

namespace DPFC
open Matrix Spec

variable {N M d n : Nat}

theorem gauss_translate (l x y v : Fin d → ℝ) :
    gauss l (fun k => x k + v k) (fun k => y k + v k) = gauss l x y := by
  simp [gauss]

theorem gauss_scale (l x y : Fin d → ℝ) {s : ℝ} (hs : s ≠ 0) :
    gauss (fun k => s * l k) (fun k => s * x k) (fun k => s * y k) = gauss l x y := by
  unfold gauss
  congr 2
  refine Finset.sum_congr rfl fun k _ => ?_
  rw [← mul_sub, mul_pow, mul_pow, mul_left_comm, mul_div_mul_left _ _ (pow_ne_zero 2 hs)]

theorem kmat_translate (l v : Fin d → ℝ) (X : Mat N d ℝ) (Z : Mat M d ℝ) :
    kmat l (fun i k => X i k + v k) (fun i k => Z i k + v k) = kmat l X Z := by
  ext i j; exact gauss_translate l (X i) (Z j) v

theorem kmat_scale (l : Fin d → ℝ) (X : Mat N d ℝ) (Z : Mat M d ℝ) {s : ℝ} (hs : s ≠ 0) :
    kmat (fun k => s * l k) (fun i k => s * X i k) (fun i k => s * Z i k) = kmat l X Z := by
  ext i j; exact gauss_scale l (X i) (Z j) hs

theorem gradSum_eq (l : Fin d → ℝ) (X : Mat N d ℝ) (Z : Mat M d ℝ) (j : Fin d) (m : Fin M) :
    gradSum l X Z j m = ∑ s, -(X s j - Z m j) / l j ^ 2 * gauss l (X s) (Z m) := by
  unfold gradSum
  exact Finset.sum_congr rfl fun s _ => pderiv_gauss l (X s) (Z m) j

theorem gradSum_translate (l v : Fin d → ℝ) (X : Mat N d ℝ) (Z : Mat M d ℝ) (j : Fin d) :
    gradSum l (fun i k => X i k + v k) (fun i k => Z i k + v k) j = gradSum l X Z j := by
  funext m
  simp only [gradSum_eq, gauss_translate l (X _) (Z m) v, add_sub_add_right_eq_sub]

theorem gradSum_scale (l : Fin d → ℝ) (X : Mat N d ℝ) (Z : Mat M d ℝ) (j : Fin d) {s : ℝ}
    (hs : s ≠ 0) :
    gradSum (fun k => s * l k) (fun i k => s * X i k) (fun i k => s * Z i k) j
      = s⁻¹ • gradSum l X Z j := by
  funext m
  simp only [gradSum_eq, gauss_scale l (X _) (Z m) hs, Pi.smul_apply, smul_eq_mul, Finset.mul_sum]
  refine Finset.sum_congr rfl fun i _ => ?_
  rw [← mul_sub, ← mul_assoc]
  congr 1
  rw [mul_pow, ← mul_neg, pow_two s, mul_assoc s s, mul_div_mul_left _ _ hs, ← div_eq_inv_mul,
    div_div, mul_comm s]

theorem score_translate (C : ℝ) (l v : Fin d → ℝ) (X : Mat N d ℝ) (Z : Mat M d ℝ) (j : Fin d)
    (x : Fin d → ℝ) :
    score C l (fun i k => X i k + v k) (fun i k => Z i k + v k) j (fun k => x k + v k)
      = score C l X Z j x := by
  unfold score coef sysMat gramReg
  rw [kmat_translate l v X Z, kmat_translate l v Z Z, gradSum_translate l v X Z]
  simp only [gauss_translate l x (Z _) v]

theorem score_scale (C : ℝ) (l : Fin d → ℝ) (X : Mat N d ℝ) (Z : Mat M d ℝ) (j : Fin d)
    (x : Fin d → ℝ) {s : ℝ} (hs : s ≠ 0) :
    score C (fun k => s * l k) (fun i k => s * X i k) (fun i k => s * Z i k) j (fun k => s * x k)
      = score C l X Z j x / s := by
  unfold score coef sysMat gramReg
  rw [kmat_scale l X Z hs, kmat_scale l Z Z hs, gradSum_scale l X Z j hs]
  simp only [gauss_scale l x (Z _) hs, Matrix.mulVec_smul, Finset.sum_div, Pi.neg_apply,
    Pi.smul_apply, smul_eq_mul]
  refine Finset.sum_congr rfl fun i _ => ?_
  rw [div_eq_inv_mul]; ring

theorem score_perm_samples (C : ℝ) (l : Fin d → ℝ) (X : Mat N d ℝ) (Z : Mat M d ℝ) (j : Fin d)
    (x : Fin d → ℝ) (σ : Equiv.Perm (Fin N)) :
    score C l (fun i => X (σ i)) Z j x = score C l X Z j x := by
  have hA : (kmat l (fun i => X (σ i)) Z).transpose * kmat l (fun i => X (σ i)) Z
      = (kmat l X Z).transpose * kmat l X Z := by
    ext a b
    simp only [Matrix.mul_apply, Matrix.transpose_apply, kmat, Matrix.of_apply]
    exact Equiv.sum_comp σ fun i => gauss l (X i) (Z a) * gauss l (X i) (Z b)
  have hg : gradSum l (fun i => X (σ i)) Z j = gradSum l X Z j := by
    funext m
    exact Equiv.sum_comp σ fun i => pderiv (fun x => gauss l x (Z m)) j (X i)
  unfold score coef sysMat
  rw [hA, hg]

theorem score_perm_inducing (C : ℝ) (l : Fin d → ℝ) (X : Mat N d ℝ) (Z : Mat M d ℝ) (j : Fin d)
    (x : Fin d → ℝ) (τ : Equiv.Perm (Fin M)) :
    score C l X (fun i => Z (τ i)) j x = score C l X Z j x := by
  have hQ : sysMat C l X (fun i => Z (τ i)) = (sysMat C l X Z).submatrix τ τ := by
    ext a b
    simp [sysMat, gramReg, kmat, Matrix.mul_apply, Matrix.one_apply]
  have hc : coef C l X (fun i => Z (τ i)) j = fun i => coef C l X Z j (τ i) := by
    funext i
    unfold coef
    rw [hQ, Matrix.inv_submatrix_equiv]
    simp only [Pi.neg_apply, Matrix.mulVec, dotProduct, Matrix.submatrix_apply]
    congr 1
    exact Equiv.sum_comp τ fun m => (sysMat C l X Z)⁻¹ (τ i) m * gradSum l X Z j m
  unfold score
  rw [hc]
  exact Equiv.sum_comp τ fun m => coef C l X Z j m * gauss l x (Z m)

theorem sysMat_mulVec_coef {C : ℝ} (hC : -1/1000 < C) (l : Fin d → ℝ) (X : Mat N d ℝ)
    (Z : Mat M d ℝ) (j : Fin d) :
    (sysMat C l X Z).mulVec (coef C l X Z j) = -gradSum l X Z j := by
  unfold coef
  rw [Matrix.mulVec_neg, Matrix.mulVec_mulVec,
    Matrix.mul_nonsing_inv _ (posDef_isUnit_det (sysMat_posDef hC l X Z)), Matrix.one_mulVec]

/-- Coercivity: `(C+1e-3) 1e-3 |b|^2 <= b . Q b`. -/
theorem sysMat_coercive {C : ℝ} (hC : -1/1000 < C) (l : Fin d → ℝ) (X : Mat N d ℝ) (Z : Mat M d ℝ)
    (b : Fin M → ℝ) :
    (C + 1/1000) * (1/1000) * ∑ m, b m ^ 2 ≤ b ⬝ᵥ (sysMat C l X Z).mulVec b := by
  have h1 : 0 ≤ b ⬝ᵥ ((kmat l X Z).transpose * kmat l X Z).mulVec b := by
    have := (Matrix.posSemidef_conjTranspose_mul_self (kmat l X Z)).dotProduct_mulVec_nonneg b
    rwa [Matrix.conjTranspose_eq_transpose_of_trivial] at this
  have h2 : 0 ≤ b ⬝ᵥ (kmat l Z Z).mulVec b := (kmat_posSemidef l Z).dotProduct_mulVec_nonneg b
  have h3 : b ⬝ᵥ b = ∑ m, b m ^ 2 := by simp [dotProduct, pow_two]
  unfold sysMat gramReg
  rw [Matrix.add_mulVec, dotProduct_add, Matrix.smul_mulVec, Matrix.add_mulVec,
    Matrix.smul_mulVec, Matrix.one_mulVec, dotProduct_smul, dotProduct_add, dotProduct_smul, h3]
  simp only [smul_eq_mul]
  have hc : 0 < C + 1/1000 := by linarith
  nlinarith [mul_nonneg hc.le h2]

/-- Each coefficient is bounded by `sum |g| / ((C+1e-3) 1e-3)`. -/
theorem coef_bound {C : ℝ} (hC : -1/1000 < C) (l : Fin d → ℝ) (X : Mat N d ℝ) (Z : Mat M d ℝ)
    (j : Fin d) (m : Fin M) :
    |coef C l X Z j m| ≤ (∑ i, |gradSum l X Z j i|) / ((C + 1/1000) * (1/1000)) := by
  set b := coef C l X Z j with hb
  set g := gradSum l X Z j with hg
  have hc : 0 < (C + 1/1000) * (1/1000) := by
    have : 0 < C + 1/1000 := by linarith
    positivity
  obtain ⟨p, _, hp⟩ := Finset.exists_max_image Finset.univ (fun i => |b i|) ⟨m, Finset.mem_univ m⟩
  refine le_trans (hp m (Finset.mem_univ m)) ?_
  rw [le_div_iff₀ hc]
  have h1 := sysMat_coercive hC l X Z b
  rw [sysMat_mulVec_coef hC, ← hg] at h1
  have h2 : b ⬝ᵥ (-g) ≤ |b p| * ∑ i, |g i| := by
    rw [Finset.mul_sum, dotProduct]
    refine Finset.sum_le_sum fun i _ => ?_
    calc b i * (-g) i ≤ |b i * (-g) i| := le_abs_self _
      _ = |b i| * |g i| := by rw [abs_mul, Pi.neg_apply, abs_neg]
      _ ≤ |b p| * |g i| := mul_le_mul_of_nonneg_right (hp i (Finset.mem_univ i)) (abs_nonneg _)
  have h3 : b p ^ 2 ≤ ∑ i, b i ^ 2 :=
    Finset.single_le_sum (f := fun i => b i ^ 2) (fun i _ => sq_nonneg _) (Finset.mem_univ p)
  by_cases h0 : |b p| = 0
  · rw [h0, zero_mul]; exact Finset.sum_nonneg fun i _ => abs_nonneg _
  · have hpos : 0 < |b p| := lt_of_le_of_ne (abs_nonneg _) (Ne.symm h0)
    have h4 : (C + 1/1000) * (1/1000) * |b p| ^ 2 ≤ |b p| * ∑ i, |g i| := by
      rw [sq_abs]
      exact le_trans (mul_le_mul_of_nonneg_left h3 hc.le) (le_trans h1 h2)
    have h5 : |b p| * (|b p| * ((C + 1/1000) * (1/1000))) ≤ |b p| * ∑ i, |g i| := by
      calc _ = (C + 1/1000) * (1/1000) * |b p| ^ 2 := by ring
        _ ≤ _ := h4
    exact le_of_mul_le_mul_left h5 hpos

theorem gauss_pos (l x y : Fin d → ℝ) : 0 < gauss l x y := Real.exp_pos _

theorem gauss_le_one (l x y : Fin d → ℝ) : gauss l x y ≤ 1 := by
  rw [gauss, Real.exp_le_one_iff, neg_nonpos]
  exact Finset.sum_nonneg fun k _ => by positivity

theorem gauss_eq_one_iff (l x y : Fin d → ℝ) (hl : ∀ k, l k ≠ 0) : gauss l x y = 1 ↔ x = y := by
  rw [gauss, Real.exp_eq_one_iff, neg_eq_zero,
    Finset.sum_eq_zero_iff_of_nonneg (fun k _ => by positivity)]
  constructor
  · intro h
    funext k
    have := h k (Finset.mem_univ k)
    rw [div_eq_zero_iff] at this
    rcases this with h | h
    · exact sub_eq_zero.1 (pow_eq_zero_iff (two_ne_zero) |>.1 h)
    · have : l k ^ 2 = 0 := by linarith
      exact absurd (pow_eq_zero_iff two_ne_zero |>.1 this) (hl k)
  · rintro rfl k _
    simp

theorem score_bound {C : ℝ} (hC : -1/1000 < C) (l : Fin d → ℝ) (X : Mat N d ℝ) (Z : Mat M d ℝ)
    (j : Fin d) (x : Fin d → ℝ) :
    |score C l X Z j x| ≤ M * ((∑ i, |gradSum l X Z j i|) / ((C + 1/1000) * (1/1000))) := by
  unfold score
  refine le_trans (Finset.abs_sum_le_sum_abs _ _) ?_
  calc ∑ i, |coef C l X Z j i * gauss l x (Z i)|
      ≤ ∑ _i : Fin M, (∑ i, |gradSum l X Z j i|) / ((C + 1/1000) * (1/1000)) := by
        refine Finset.sum_le_sum fun i _ => ?_
        rw [abs_mul, abs_of_pos (gauss_pos _ _ _)]
        calc _ ≤ |coef C l X Z j i| * 1 :=
              mul_le_mul_of_nonneg_left (gauss_le_one _ _ _) (abs_nonneg _)
          _ = |coef C l X Z j i| := mul_one _
          _ ≤ _ := coef_bound hC l X Z j i
    _ = _ := by simp

/-- `t e^{-t²/2} ≤ 1`. -/
theorem abs_mul_exp_le (t : ℝ) : |t| * Real.exp (-(t^2/2)) ≤ 1 := by
  have h1 : |t| ≤ Real.exp (t^2/2) := by
    have := Real.add_one_le_exp (t^2/2)
    have h2 : |t| ≤ t^2/2 + 1 := by
      rw [← sq_abs]; nlinarith [sq_nonneg (|t| - 1)]
    linarith
  rw [Real.exp_neg, ← div_eq_mul_inv, div_le_one (Real.exp_pos _)]
  exact h1

theorem gradSum_bound (l : Fin d → ℝ) (hl : ∀ k, l k ≠ 0) (X : Mat N d ℝ) (Z : Mat M d ℝ)
    (j : Fin d) (m : Fin M) : |gradSum l X Z j m| ≤ N / |l j| := by
  rw [gradSum_eq]
  refine le_trans (Finset.abs_sum_le_sum_abs _ _) ?_
  have hterm : ∀ s, |-(X s j - Z m j) / l j ^ 2 * gauss l (X s) (Z m)| ≤ 1 / |l j| := by
    intro s
    have hlj : 0 < |l j| := abs_pos.2 (hl j)
    set t := (X s j - Z m j) / l j with ht
    have hg : gauss l (X s) (Z m) ≤ Real.exp (-(t^2/2)) := by
      unfold gauss
      apply Real.exp_le_exp.2
      apply neg_le_neg
      have := Finset.single_le_sum (f := fun k => (X s k - Z m k) ^ 2 / (2 * l k ^ 2))
        (fun k _ => by positivity) (Finset.mem_univ j)
      refine le_trans (le_of_eq ?_) this
      rw [ht, div_pow, div_div, mul_comm]
    have e : -(X s j - Z m j) / l j ^ 2 = -t / l j := by
      rw [ht, pow_two, ← div_div, neg_div]
    rw [e, abs_mul, abs_div, abs_neg, abs_of_pos (gauss_pos _ _ _), div_mul_eq_mul_div]
    refine div_le_div_of_nonneg_right ?_ hlj.le
    exact le_trans (mul_le_mul_of_nonneg_left hg (abs_nonneg _)) (abs_mul_exp_le t)
  calc _ ≤ ∑ _s : Fin N, 1 / |l j| := Finset.sum_le_sum fun s _ => hterm s
    _ = _ := by simp [div_eq_mul_inv]

/-- With `C = -1e-3` and fewer samples than inducing points the inner matrix is singular. -/
theorem inner_singular (l : Fin d → ℝ) (X : Mat N d ℝ) (Z : Mat M d ℝ) (h : N < M) :
    ¬ IsUnit (Matrix.of (innerMat (-1/1000 : ℝ) (preReal l X Z).Ksinv (preReal l X Z).A)).det := by
  rw [of_innerMat, of_Ksinv, of_A]
  rw [inner_eq _ _ (posDef_isUnit_det (gramReg_posDef l Z))]
  have e : ((-1/1000 : ℝ) + 1/1000) = 0 := by norm_num
  rw [e, zero_smul, add_zero]
  intro hu
  have hr := Matrix.rank_of_isUnit _ ((Matrix.isUnit_iff_isUnit_det _).2 hu)
  have h1 := Matrix.rank_mul_le_right (gramReg l Z)⁻¹ ((kmat l X Z).transpose * kmat l X Z)
  have h2 := Matrix.rank_mul_le_right (kmat l X Z).transpose (kmat l X Z)
  have h3 := Matrix.rank_le_card_height (kmat l X Z)
  simp only [Fintype.card_fin] at hr h3
  omega

end DPFC
