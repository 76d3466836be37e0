import Verif.Model.Score
import Verif.Model.Torch
import Verif.Lib.Monad
import Verif.Lib.Gram
import Verif.Spec.Score
import Mathlib.Analysis.SpecialFunctions.ExpDeriv
import Mathlib.Analysis.Calculus.Deriv.Pow

/-! Closed forms of all score estimators over the reals. -/

set_option linter.unusedSimpArgs false

namespace DPFC
open Matrix Spec

variable {N M d n : Nat}

/-! ### Kernels -/

theorem foldl_mul_prod {α : Type} [CommMonoid α] : ∀ (d : Nat) (f : Fin d → α) (a : α),
    Fin.foldl d (fun res i => res * f i) a = a * ∏ i, f i
  | 0, f, a => by simp [Fin.foldl_zero]
  | d+1, f, a => by
    rw [Fin.foldl_succ, foldl_mul_prod d, Fin.prod_univ_succ, mul_assoc]

theorem reduceMul_prod : ∀ {c : Nat} (v : Fin c → ℝ), reduceMul v = ∏ i, v i
  | 0, v => by simp [reduceMul]
  | c+1, v => by
    rw [reduceMul, foldl_mul_prod, Fin.prod_univ_succ]

/-- Kernel matrix as an array. -/
noncomputable def gk (l : Fin d → ℝ) (X : Mat N d ℝ) (Z : Mat M d ℝ) : Mat N M ℝ :=
  fun i j => gauss l (X i) (Z j)

theorem of_gk (l : Fin d → ℝ) (X : Mat N d ℝ) (Z : Mat M d ℝ) :
    Matrix.of (gk l X Z) = kmat l X Z := rfl

theorem gauss_prod (l x y : Fin d → ℝ) :
    gauss l x y = ∏ k, Real.exp (-((x k - y k)^2) / (2 * l k * l k)) := by
  rw [gauss, ← Real.exp_sum, ← Finset.sum_neg_distrib]
  congr 1
  refine Finset.sum_congr rfl fun k _ => ?_
  rw [← neg_div, pow_two (l k), mul_assoc]

theorem rbfFactor_real (x y l : ℝ) : rbfFactor x y l = Real.exp (-((x - y)^2) / (2 * l * l)) := by
  simp [rbfFactor]

theorem rbfScalar_real (x y : Fin d → ℝ) (l : ℝ) : rbfScalar x y l = gauss (fun _ => l) x y := by
  simp only [rbfScalar, gauss, real_exp, real_sum, real_sq, real_lit_int]
  congr 1
  rw [neg_div, Finset.sum_div]
  congr 1
  refine Finset.sum_congr rfl fun k _ => ?_
  push_cast
  ring

theorem rbfK_real (X : Mat N d ℝ) (Z : Mat M d ℝ) (l : LS d ℝ) :
    rbfK X Z l = gk l.at X Z := by
  funext i j
  cases l with
  | scalar l => exact rbfScalar_real _ _ _
  | vec l =>
    simp only [rbfK, gk, LS.at]
    rw [foldl_mul_prod, gauss_prod, real_lit_one, one_mul]
    simp only [rbfFactor_real]
    rfl

theorem torchKern_real (l : LS d ℝ) (x y : Fin d → ℝ) : torchKern l x y = gauss l.at x y := by
  have e : ((lit 1 2 : ℝ)) = 1/2 := real_lit_half
  cases l with
  | scalar l =>
    simp only [torchKern, gauss, real_exp, real_sum, real_sq, e, LS.at]
    congr 1
    rw [Finset.sum_div, Finset.mul_sum, ← Finset.sum_neg_distrib]
    refine Finset.sum_congr rfl fun k _ => ?_
    ring
  | vec l =>
    simp only [torchKern, gauss, real_exp, real_sum, real_sq, e, LS.at]
    congr 1
    rw [Finset.mul_sum, ← Finset.sum_neg_distrib]
    refine Finset.sum_congr rfl fun k _ => ?_
    ring

/-! ### Gradients -/

theorem hasDerivAt_gauss (l x y : Fin d → ℝ) (j : Fin d) (s : ℝ) :
    HasDerivAt (fun s => gauss l (Function.update x j s) y)
      (-(s - y j) / l j ^ 2 * gauss l (Function.update x j s) y) s := by
  unfold gauss
  have h1 : ∀ k ∈ (Finset.univ : Finset (Fin d)), HasDerivAt
      (fun s => (Function.update x j s k - y k) ^ 2 / (2 * l k ^ 2))
      (if k = j then (s - y j) / l j ^ 2 else 0) s := by
    intro k _
    by_cases hk : k = j
    · subst hk
      simp only [Function.update_self, if_true]
      have := (((hasDerivAt_id s).sub_const (y k)).fun_pow 2).div_const (2 * l k ^ 2)
      have e : ((2 : ℕ) : ℝ) * (id s - y k) ^ (2 - 1) * 1 / (2 * l k ^ 2)
          = (s - y k) / l k ^ 2 := by
        simp only [id, Nat.cast_ofNat, Nat.reduceSub, pow_one, mul_one]
        rw [mul_div_mul_left _ _ (two_ne_zero)]
      rw [e] at this
      exact this
    · simp only [Function.update_of_ne hk, if_neg hk]
      exact hasDerivAt_const _ _
  have h2 := (HasDerivAt.fun_sum h1).fun_neg.exp
  convert h2 using 1
  rw [Finset.sum_ite_eq' Finset.univ j, if_pos (Finset.mem_univ _)]
  ring

theorem pderiv_gauss (l x y : Fin d → ℝ) (j : Fin d) :
    pderiv (fun x => gauss l x y) j x = -(x j - y j) / l j ^ 2 * gauss l x y := by
  rw [pderiv, (hasDerivAt_gauss l x y j (x j)).deriv]
  simp

theorem rbfGrad_real (X : Mat N d ℝ) (Z : Mat M d ℝ) (j : Fin d) (l : LS d ℝ) (i : Fin N)
    (m : Fin M) : rbfGrad X Z j l i m = -pderiv (fun x => gauss l.at x (Z m)) j (X i) := by
  rw [pderiv_gauss]
  cases l with
  | scalar l =>
    simp only [rbfGrad, rbfK_real, gk, LS.at]; ring
  | vec l =>
    simp only [rbfGrad, rbfK_real, gk, LS.at]; ring

theorem sumGrad_real (X : Mat N d ℝ) (Z : Mat M d ℝ) (j : Fin d) (l : LS d ℝ) :
    sumGrad (rbfGrad X Z j l) = gradSum l.at X Z j := by
  funext m
  simp [sumGrad, negM, rbfGrad_real, gradSum]

/-! ### The linear algebra -/

theorem kmat_posSemidef (l : Fin d → ℝ) (Z : Mat M d ℝ) : (kmat l Z Z).PosSemidef := by
  have := gauss_foldl_posSemidef Z l
  have e : kmat l Z Z
      = Matrix.of fun i j => ∏ k, Real.exp (-((Z i k - Z j k)^2) / (2 * l k * l k)) := by
    ext i j
    simp only [kmat, Matrix.of_apply, gauss_prod]
  rw [e]; exact this

theorem gramReg_posDef (l : Fin d → ℝ) (Z : Mat M d ℝ) : (gramReg l Z).PosDef := by
  unfold gramReg
  have h1 : ((1/1000 : ℝ) • (1 : Matrix (Fin M) (Fin M) ℝ)).PosDef :=
    Matrix.PosDef.smul Matrix.PosDef.one (by norm_num)
  exact Matrix.PosDef.posSemidef_add (kmat_posSemidef l Z) h1

theorem sysMat_posDef {C : ℝ} (hC : -1/1000 < C) (l : Fin d → ℝ) (X : Mat N d ℝ) (Z : Mat M d ℝ) :
    (sysMat C l X Z).PosDef := by
  unfold sysMat
  refine Matrix.PosDef.posSemidef_add ?_ ?_
  · have := Matrix.posSemidef_conjTranspose_mul_self (kmat l X Z)
    rwa [Matrix.conjTranspose_eq_transpose_of_trivial] at this
  · exact Matrix.PosDef.smul (gramReg_posDef l Z) (by linarith)

theorem posDef_isUnit_det {A : Matrix (Fin M) (Fin M) ℝ} (h : A.PosDef) : IsUnit A.det :=
  (h.det_pos).ne'.isUnit

/-- The inner matrix `C I + S⁻¹ A + 1e-3 I` is `S⁻¹ (A + (C+1e-3) S)`. -/
theorem inner_eq {C : ℝ} (S A : Matrix (Fin M) (Fin M) ℝ) (hS : IsUnit S.det) :
    (C • (1 : Matrix (Fin M) (Fin M) ℝ) + S⁻¹ * A + (1/1000 : ℝ) • 1)
      = S⁻¹ * (A + (C + 1/1000) • S) := by
  rw [Matrix.mul_add, Matrix.mul_smul, Matrix.nonsing_inv_mul _ hS, add_smul]
  abel

theorem inner_inv {C : ℝ} (S A : Matrix (Fin M) (Fin M) ℝ) (hS : IsUnit S.det) :
    (C • (1 : Matrix (Fin M) (Fin M) ℝ) + S⁻¹ * A + (1/1000 : ℝ) • 1)⁻¹ * S⁻¹
      = (A + (C + 1/1000) • S)⁻¹ := by
  rw [inner_eq S A hS, Matrix.mul_inv_rev, Matrix.nonsing_inv_nonsing_inv _ hS, Matrix.mul_assoc,
    Matrix.mul_nonsing_inv _ hS, Matrix.mul_one]

theorem inner_unit {C : ℝ} (S A : Matrix (Fin M) (Fin M) ℝ) (hS : IsUnit S.det)
    (hQ : IsUnit (A + (C + 1/1000) • S).det) :
    IsUnit (C • (1 : Matrix (Fin M) (Fin M) ℝ) + S⁻¹ * A + (1/1000 : ℝ) • 1).det := by
  rw [inner_eq S A hS, Matrix.det_mul]
  exact (Matrix.isUnit_nonsing_inv_det _ hS).mul hQ

theorem of_ridge (A : Mat M M ℝ) :
    Matrix.of (ridge A) = Matrix.of A + (1/1000 : ℝ) • (1 : Matrix (Fin M) (Fin M) ℝ) := by
  ext i j
  simp only [ridge, Matrix.of_apply, Matrix.add_apply, Matrix.smul_apply, ← of_eye, real_lit_milli,
    smul_eq_mul]

theorem of_innerMat (C : ℝ) (S A : Mat M M ℝ) :
    Matrix.of (innerMat C S A)
      = C • (1 : Matrix (Fin M) (Fin M) ℝ) + Matrix.of S * Matrix.of A + (1/1000 : ℝ) • 1 := by
  ext i j
  simp only [innerMat, Matrix.of_apply, Matrix.add_apply, Matrix.smul_apply, ← of_eye, ← of_mm,
    real_lit_milli, smul_eq_mul]

/-- The record of shared quantities over the reals. -/
noncomputable def preReal (l : Fin d → ℝ) (X : Mat N d ℝ) (Z : Mat M d ℝ) : ScorePre N M ℝ :=
  ⟨gk l X Z, matInv (ridge (gk l Z Z)), mm (tr (gk l X Z)) (gk l X Z)⟩

theorem of_ridge_gk (l : Fin d → ℝ) (Z : Mat M d ℝ) :
    Matrix.of (ridge (gk l Z Z)) = gramReg l Z := by
  rw [of_ridge, of_gk]; rfl

theorem of_Ksinv (l : Fin d → ℝ) (X : Mat N d ℝ) (Z : Mat M d ℝ) :
    Matrix.of (preReal l X Z).Ksinv = (gramReg l Z)⁻¹ := by
  rw [preReal, of_matInv, of_ridge_gk]

theorem of_A (l : Fin d → ℝ) (X : Mat N d ℝ) (Z : Mat M d ℝ) :
    Matrix.of (preReal l X Z).A = (kmat l X Z).transpose * kmat l X Z := by
  rw [preReal, of_mm, of_tr, of_gk]

theorem ridge_unit (l : Fin d → ℝ) (Z : Mat M d ℝ) :
    IsUnit (Matrix.of (ridge (gk l Z Z))).det := by
  rw [of_ridge_gk]; exact posDef_isUnit_det (gramReg_posDef l Z)

theorem scorePre_real (l : Fin d → ℝ) (X : Mat N d ℝ) (Z : Mat M d ℝ) :
    scorePre (gk l X Z) (gk l Z Z) = .ok (preReal l X Z) := by
  simp only [scorePre, real_inv_ok (ridge_unit l Z), Except.ok_bind', preReal]

theorem inner_real_unit {C : ℝ} (hC : -1/1000 < C) (l : Fin d → ℝ) (X : Mat N d ℝ) (Z : Mat M d ℝ) :
    IsUnit (Matrix.of (innerMat C (preReal l X Z).Ksinv (preReal l X Z).A)).det := by
  rw [of_innerMat, of_Ksinv, of_A]
  exact inner_unit _ _ (posDef_isUnit_det (gramReg_posDef l Z))
    (posDef_isUnit_det (sysMat_posDef hC l X Z))

theorem inner_real_inv (C : ℝ) (l : Fin d → ℝ) (X : Mat N d ℝ) (Z : Mat M d ℝ) :
    (Matrix.of (matInv (innerMat C (preReal l X Z).Ksinv (preReal l X Z).A)))
      * (Matrix.of (preReal l X Z).Ksinv) = (sysMat C l X Z)⁻¹ := by
  have := inner_inv (C := C) (gramReg l Z) ((kmat l X Z).transpose * kmat l X Z)
    (posDef_isUnit_det (gramReg_posDef l Z))
  rw [sysMat, ← this, of_matInv, of_innerMat, of_Ksinv, of_A]

theorem score_eq_mulVec (C : ℝ) (l : Fin d → ℝ) (X : Mat N d ℝ) (Z : Mat M d ℝ) (j : Fin d)
    (Y : Mat n d ℝ) (i : Fin n) :
    score C l X Z j (Y i) = -((kmat l Y Z * (sysMat C l X Z)⁻¹).mulVec (gradSum l X Z j)) i := by
  rw [← Matrix.mulVec_mulVec, score]
  simp only [coef, Matrix.mulVec, dotProduct, kmat, Matrix.of_apply, Pi.neg_apply]
  rw [← Finset.sum_neg_distrib]
  refine Finset.sum_congr rfl fun m _ => ?_
  ring

theorem of_out1 (Kx : Mat n M ℝ) (I S : Mat M M ℝ) :
    Matrix.of (mm (mm (negM Kx) I) S) = -(Matrix.of Kx * (Matrix.of I * Matrix.of S)) := by
  rw [of_mm, of_mm, of_negM, Matrix.neg_mul, Matrix.neg_mul, Matrix.mul_assoc]

theorem of_out2 (Kx : Mat n M ℝ) (I S : Mat M M ℝ) :
    Matrix.of (mm (mm Kx (negM I)) S) = -(Matrix.of Kx * (Matrix.of I * Matrix.of S)) := by
  rw [of_mm, of_mm, of_negM, Matrix.mul_neg, Matrix.neg_mul, Matrix.mul_assoc]

theorem directOut_real {C : ℝ} (hC : -1/1000 < C) (l : Fin d → ℝ) (X : Mat N d ℝ) (Z : Mat M d ℝ)
    (j : Fin d) :
    directOut C (preReal l X Z) (gradSum l X Z j) = .ok fun i => score C l X Z j (X i) := by
  simp only [directOut, real_inv_ok (inner_real_unit hC l X Z), Except.ok_bind']
  congr 1
  funext i
  rw [real_mv, of_out1, inner_real_inv, score_eq_mulVec, Matrix.neg_mulVec]
  rfl

theorem fnOut_real {C : ℝ} (hC : -1/1000 < C) (l : Fin d → ℝ) (X : Mat N d ℝ) (Z : Mat M d ℝ)
    (j : Fin d) (Y : Mat n d ℝ) :
    fnOut C (preReal l X Z) (gradSum l X Z j) (gk l Y Z)
      = .ok fun i => score C l X Z j (Y i) := by
  simp only [fnOut, real_inv_ok (inner_real_unit hC l X Z), Except.ok_bind']
  congr 1
  funext i
  rw [real_mv, of_out2, inner_real_inv, score_eq_mulVec, Matrix.neg_mulVec]
  rfl

/-! ### The estimators -/

theorem rbfKsz_real (Z : Mat M d ℝ) (l : LS d ℝ) (Y : Mat n d ℝ)
    (hd : 0 < d ∨ ∃ v, l = .scalar v) : rbfKsz Z l Y = .ok (gk l.at Y Z) := by
  cases l with
  | scalar l =>
    rw [rbfKsz, dif_pos rfl]
    congr 1
    funext i j
    exact rbfScalar_real _ _ _
  | vec l =>
    have h0 : d ≠ 0 := by
      rcases hd with h | ⟨v, h⟩
      · omega
      · cases h
    rw [rbfKsz, if_neg h0, dif_pos (le_refl d)]
    congr 1
    funext i j
    rw [reduceMul_prod]
    simp only [gk, gauss_prod, LS.at, rbfFactor_real]
    rfl

theorem sepCommon_real (X : Mat N d ℝ) (Z : Mat M d ℝ) (l : LS d ℝ) (w : Int) (j : Fin d)
    (hj : pyIdx d (w - 1) = .ok j.val) :
    sepCommon X Z "RBF" l w = .ok (preReal l.at X Z, gradSum l.at X Z j) := by
  simp only [sepCommon, if_true, rbfK_real, scorePre_real, Except.ok_bind', hj, dif_pos j.2,
    sumGrad_real]

theorem oldCommon_real (X : Mat N d ℝ) (Z : Mat M d ℝ) (l : LS d ℝ) (w : Int) (j : Fin d)
    (hj : pyIdx d (w - 1) = .ok j.val) :
    oldCommon X Z "RBF" l w = .ok (preReal l.at X Z, gradSum l.at X Z j) := by
  simp only [oldCommon, if_true, rbfK_real, scorePre_real, Except.ok_bind', hj, dif_pos j.2,
    sumGrad_real]

theorem scoreSep_real {C : ℝ} (hC : -1/1000 < C) (X : Mat N d ℝ) (Z : Mat M d ℝ) (l : LS d ℝ)
    (w : Int) (j : Fin d) (hj : pyIdx d (w - 1) = .ok j.val) :
    scoreSep X Z C "RBF" l w = .ok fun i => score C l.at X Z j (X i) := by
  simp only [scoreSep, sepCommon_real X Z l w j hj, Except.ok_bind', directOut_real hC]

theorem scoreSepFn_real {C : ℝ} (hC : -1/1000 < C) (X : Mat N d ℝ) (Z : Mat M d ℝ) (l : LS d ℝ)
    (w : Int) (j : Fin d) (hj : pyIdx d (w - 1) = .ok j.val) (Y : Mat n d ℝ) :
    scoreSepFn X Z C "RBF" l w Y = .ok fun i => score C l.at X Z j (Y i) := by
  simp only [scoreSepFn, sepCommon_real X Z l w j hj, Except.ok_bind', if_true,
    rbfKsz_real Z l Y (Or.inl (by have := j.2; omega)), fnOut_real hC]

theorem scoreOld_real {C : ℝ} (hC : -1/1000 < C) (X : Mat N d ℝ) (Z : Mat M d ℝ) (l : LS d ℝ)
    (w : Int) (j : Fin d) (hj : pyIdx d (w - 1) = .ok j.val) :
    scoreOld X Z C "RBF" l w = .ok fun i => score C l.at X Z j (X i) := by
  simp only [scoreOld, oldCommon_real X Z l w j hj, Except.ok_bind', directOut_real hC]

theorem scoreOldFn_real {C : ℝ} (hC : -1/1000 < C) (X : Mat N d ℝ) (Z : Mat M d ℝ) (l : LS d ℝ)
    (w : Int) (j : Fin d) (hj : pyIdx d (w - 1) = .ok j.val) (Y : Mat n d ℝ) :
    scoreOldFn X Z C "RBF" l w Y = .ok fun i => score C l.at X Z j (Y i) := by
  simp only [scoreOldFn, oldCommon_real X Z l w j hj, Except.ok_bind', if_true,
    rbfKsz_real Z l Y (Or.inl (by have := j.2; omega)), fnOut_real hC]

theorem allOut_real (C : ℝ) (l : Fin d → ℝ) (X : Mat N d ℝ) (Z : Mat M d ℝ) (Y : Mat n d ℝ)
    (P : Mat n M ℝ) (hP : Matrix.of P = -(kmat l Y Z * (sysMat C l X Z)⁻¹)) :
    mm P (fun m ii => gradSum l X Z ii m) = fun i j => score C l X Z j (Y i) := by
  funext i j
  rw [score_eq_mulVec, mm]
  simp only [real_sum, Matrix.mulVec, dotProduct]
  rw [← Finset.sum_neg_distrib]
  refine Finset.sum_congr rfl fun m _ => ?_
  rw [← neg_mul, ← Matrix.neg_apply, ← hP]; rfl

theorem scoreAll_real {C : ℝ} (hC : -1/1000 < C) (X : Mat N d ℝ) (Z : Mat M d ℝ) (l : LS d ℝ) :
    scoreAll X Z C "RBF" l = .ok fun i j => score C l.at X Z j (X i) := by
  simp only [scoreAll, allCommon, if_true, rbfK_real, scorePre_real, Except.ok_bind', sumGrad_real,
    real_inv_ok (inner_real_unit hC l.at X Z)]
  congr 1
  exact allOut_real C l.at X Z X _ (by rw [of_out1, inner_real_inv]; rfl)

theorem scoreAllFn_real {C : ℝ} (hC : -1/1000 < C) (X : Mat N d ℝ) (Z : Mat M d ℝ) (l : LS d ℝ)
    (Y : Mat n d ℝ) (hd : 0 < d ∨ ∃ v, l = .scalar v) :
    scoreAllFn X Z C "RBF" l Y = .ok fun i j => score C l.at X Z j (Y i) := by
  simp only [scoreAllFn, allCommon, if_true, rbfK_real, scorePre_real, Except.ok_bind', sumGrad_real,
    real_inv_ok (inner_real_unit hC l.at X Z), rbfKsz_real Z l Y hd]
  congr 1
  exact allOut_real C l.at X Z Y _ (by rw [of_out2, inner_real_inv]; rfl)

theorem score2Fn_real {C : ℝ} (hC : -1/1000 < C) (X : Mat N 2 ℝ) (Z : Mat M 2 ℝ) (l : LS 2 ℝ)
    (w : Int) (j : Fin 2) (hj : pyIdx 2 (w - 1) = .ok j.val) (Y : Mat n 2 ℝ) :
    score2Fn X Z C "RBF" l w Y = .ok fun i => score C l.at X Z j (Y i) := by
  have hk : rbfKsz2 Z l Y = .ok (gk l.at Y Z) := by
    cases l with
    | scalar l =>
      rw [rbfKsz2, dif_pos rfl]
      congr 1
      funext i j
      exact rbfScalar_real _ _ _
    | vec l =>
      rw [rbfKsz2, dif_pos (by omega)]
      congr 1
      funext i j
      simp only [gk, gauss_prod, LS.at, rbfFactor_real, Fin.prod_univ_two]
      rfl
  simp only [score2Fn, oldCommon_real X Z l w j hj, Except.ok_bind', hk, fnOut_real hC]

/-! ### Torch -/

theorem torch_kernel_real (ls : LS d ℝ) (X : Mat N d ℝ) (Z : Mat M d ℝ) :
    (RBF.new ls).kernel X Z
      = (gk ls.at X Z, ⟨ls, lit 1 1, some ⟨N, M, gk ls.at X Z⟩⟩) := by
  have : (fun i j => (lit 1 1 : ℝ) * torchKern ls (X i) (Z j)) = gk ls.at X Z := by
    funext i j
    simp [torchKern_real, gk]
  simp only [RBF.kernel, RBF.new, this]

theorem bidx_of_fin {n : ℕ} (i : Fin n) : bidx n i.val = i.val := by
  unfold bidx; split <;> omega

/-- `gradient_X` on points of the shapes of the cached kernel matrix. -/
theorem gradientX_shape (l : LS d ℝ) (X : Mat n d ℝ) (Y : Mat m d ℝ) (G : Mat n m ℝ) :
    (⟨l, lit 1 1, some ⟨n, m, G⟩⟩ : RBF d ℝ).gradientX X (some ⟨m, d, Y⟩)
      = .ok ⟨n, m, d, fun i j k => (X i k - Y j k) / l.at k ^ 2 * G i j⟩ := by
  simp only [RBF.gradientX, bdim, if_true]
  congr 2
  funext i j k
  rw [dif_pos (by simp only [bidx_of_fin]; exact ⟨⟨i.2, j.2⟩, ⟨i.2, j.2⟩, k.2, k.2⟩)]
  simp only [bidx_of_fin, Fin.eta, real_sq]

theorem torch_gradient_real (ls : LS d ℝ) (X : Mat N d ℝ) (Z : Mat M d ℝ) :
    (⟨ls, lit 1 1, some ⟨N, M, gk ls.at X Z⟩⟩ : RBF d ℝ).gradientX X (some ⟨M, d, Z⟩)
      = .ok ⟨N, M, d, fun i j k => -pderiv (fun x => gauss ls.at x (Z j)) k (X i)⟩ := by
  rw [gradientX_shape]
  congr 2
  funext i j k
  rw [pderiv_gauss]
  simp only [gk]
  ring

theorem torchCommon_real (X : Mat N d ℝ) (Z : Mat M d ℝ) (l : TLS d ℝ) (ls : LS d ℝ)
    (hl : l.classify = .ok ls) :
    torchCommon X Z l = .ok (ls, preReal ls.at X Z, fun m k => gradSum ls.at X Z k m) := by
  simp only [torchCommon, hl, Except.ok_bind', torch_kernel_real, real_inv_ok (ridge_unit ls.at Z),
    torch_gradient_real]
  congr 3
  funext m k
  simp [gradSum]

theorem torchScore_real (X : Mat N d ℝ) (Z : Mat M d ℝ) (l : TLS d ℝ) (ls : LS d ℝ)
    (hl : l.classify = .ok ls) (C : ℝ) (kern : String) :
    torchScore X Z l C kern = .ok fun i j => score (1/1000) ls.at X Z j (X i) := by
  simp only [torchScore, torchCommon_real X Z l ls hl, Except.ok_bind', real_lit_milli]
  rw [seqM_except_ok (v := fun j i => score (1/1000) ls.at X Z j (X i)) |>.2]
  · rfl
  · intro j
    exact directOut_real (by norm_num) ls.at X Z j

theorem torchKsz_vec_real (Z : Mat M d ℝ) (l : TLS d ℝ) (v : Fin d → ℝ) (hn : ∀ w, l ≠ .ndarray w)
    (Y : Mat n d ℝ) : torchKsz Z l (.vec v) "RBF" (.tensor Y) = .ok (gk v Y Z) := by
  have e : ((lit 1 2 : ℝ)) = 1/2 := real_lit_half
  cases l with
  | ndarray w => exact absurd rfl (hn w)
  | _ =>
    simp only [torchKsz, if_true, true_or, dite_true]
    congr 1
    funext i j
    simp only [gk, gauss, real_exp, real_sum, real_sq, e]
    congr 1
    rw [Finset.mul_sum, ← Finset.sum_neg_distrib]
    refine Finset.sum_congr rfl fun k _ => ?_
    simp only [Fin.cast_eq_self]
    ring

theorem torchScoreFn_real (X : Mat N d ℝ) (Z : Mat M d ℝ) (l : TLS d ℝ) (v : Fin d → ℝ)
    (hl : l.classify = .ok (.vec v)) (hn : ∀ w, l ≠ .ndarray w) (C : ℝ) (Y : Mat n d ℝ) :
    torchScoreFn X Z l C "RBF" (.tensor Y) = .ok fun i j => score (1/1000) v X Z j (Y i) := by
  simp only [torchScoreFn, torchCommon_real X Z l _ hl, Except.ok_bind', real_lit_milli,
    torchKsz_vec_real Z l v hn, real_inv_ok (inner_real_unit (C := 1/1000) (by norm_num) _ X Z)]
  congr 1
  exact allOut_real (1/1000) v X Z Y _ (by rw [of_out2, inner_real_inv]; rfl)

end DPFC
