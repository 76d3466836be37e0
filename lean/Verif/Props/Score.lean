import Verif.Lib.ScoreLaws

/-!
# Properties of the score estimators over the reals (C17 - C26)

The estimators are called as `scoreSep X Z C kern l which_dim` (array output) and
`scoreSepFn X Z C kern l which_dim x` (function output applied to `x`), and likewise for the other
implementations. A lengthscale `l : LS d ℝ` is a scalar or a vector; `l.at k` is its value in
coordinate `k`. `Spec.score` is the specification in `Verif.Spec.Score`.
-/

set_option linter.unusedVariables false

namespace DPFC
open Spec

variable {N M d n : Nat}

theorem which_dim_ok (j : Fin d) : pyIdx d ((j.val : Int) + 1 - 1) = .ok j.val := by
  rw [Int.add_sub_cancel]; exact pyIdx_nat d j.2

/-! ## C17 -/

/-- **C17.** With the RBF kernel, non-zero lengthscales and `C > -1e-3`, every estimator returns a
value, for every sample set and every inducing set (in particular no LinAlgError). -/
theorem C17_estimators_total (X : Mat N d ℝ) (Z : Mat M d ℝ) (l : LS d ℝ) (hl : ∀ k, l.at k ≠ 0)
    (C : ℝ) (hC : -1/1000 < C) (j : Fin d) (x : Mat n d ℝ) :
    (∃ v, scoreSep X Z C "RBF" l (j.val + 1) = .ok v) ∧
    (∃ v, scoreSepFn X Z C "RBF" l (j.val + 1) x = .ok v) ∧
    (∃ v, scoreOld X Z C "RBF" l (j.val + 1) = .ok v) ∧
    (∃ v, scoreOldFn X Z C "RBF" l (j.val + 1) x = .ok v) ∧
    (∃ v, scoreAll X Z C "RBF" l = .ok v) ∧
    (∃ v, scoreAllFn X Z C "RBF" l x = .ok v) :=
  ⟨⟨_, scoreSep_real hC X Z l _ j (which_dim_ok j)⟩,
   ⟨_, scoreSepFn_real hC X Z l _ j (which_dim_ok j) x⟩,
   ⟨_, scoreOld_real hC X Z l _ j (which_dim_ok j)⟩,
   ⟨_, scoreOldFn_real hC X Z l _ j (which_dim_ok j) x⟩,
   ⟨_, scoreAll_real hC X Z l⟩,
   ⟨_, scoreAllFn_real hC X Z l x (Or.inl (by have := j.2; omega))⟩⟩

/-- **C17**, torch estimator: for a Python float or a vector (`d ≥ 2`) lengthscale the array output
never fails, whatever `C` and the kernel name; the function output never fails for a vector
lengthscale tensor. -/
theorem C17_torch_total (X : Mat N d ℝ) (Z : Mat M d ℝ) (C : ℝ) (kern : String) (x : Mat n d ℝ) :
    (∀ l : ℝ, l ≠ 0 → ∃ v, torchScore X Z (.pyFloat l) C kern = .ok v) ∧
    (2 ≤ d → ∀ l : Fin d → ℝ, (∀ k, l k ≠ 0) →
      (∃ v, torchScore X Z (.tensor l) C kern = .ok v) ∧
      ∃ v, torchScoreFn X Z (.tensor l) C "RBF" (.tensor x) = .ok v) := by
  refine ⟨fun l _ => ⟨_, torchScore_real X Z _ (.scalar l) rfl C kern⟩, fun hd l _ => ?_⟩
  have hc : (TLS.tensor l).classify = .ok (LS.vec l) := by
    simp only [TLS.classify]; rw [if_pos (by omega)]
  exact ⟨⟨_, torchScore_real X Z _ _ hc C kern⟩,
    ⟨_, torchScoreFn_real X Z _ l hc (by intro w h; cases h) C x⟩⟩

/-- The bound on `C` in C17 cannot be weakened: at `C = -1e-3`, whenever there are fewer samples than
inducing points, the estimator raises LinAlgError. -/
theorem C17_bound_sharp (X : Mat N d ℝ) (Z : Mat M d ℝ) (l : LS d ℝ) (hl : ∀ k, l.at k ≠ 0)
    (j : Fin d) (h : N < M) :
    scoreSep X Z (-1/1000) "RBF" l (j.val + 1) = .error .linAlgError := by
  simp only [scoreSep, sepCommon_real X Z l _ j (which_dim_ok j), Except.ok_bind', directOut,
    real_inv_err (inner_singular l.at X Z h), Except.error_bind']

/-- Non-vacuity of C17: repeated samples and repeated inducing points, `C = 0`. -/
example : ∃ v, scoreSep (fun (_ : Fin 3) (_ : Fin 2) => (1:ℝ)) (fun (_ : Fin 4) (_ : Fin 2) => (1:ℝ))
    0 "RBF" (.vec fun _ => 2) 2 = .ok v :=
  (C17_estimators_total (n := 0) _ _ (.vec fun _ => 2) (by intro k; norm_num [LS.at]) 0 (by norm_num)
    (1 : Fin 2) (fun i => i.elim0)).1

/-! ## C18 -/

/-- **C18.** The function output evaluated at the samples equals the array output. -/
theorem C18_function_output_at_samples (X : Mat N d ℝ) (Z : Mat M d ℝ) (l : LS d ℝ)
    (hl : ∀ k, l.at k ≠ 0) (C : ℝ) (hC : -1/1000 < C) (j : Fin d) :
    scoreSepFn X Z C "RBF" l (j.val + 1) X = scoreSep X Z C "RBF" l (j.val + 1) ∧
    scoreOldFn X Z C "RBF" l (j.val + 1) X = scoreOld X Z C "RBF" l (j.val + 1) ∧
    scoreAllFn X Z C "RBF" l X = scoreAll X Z C "RBF" l := by
  have hd : 0 < d := by have := j.2; omega
  rw [scoreSepFn_real hC X Z l _ j (which_dim_ok j), scoreSep_real hC X Z l _ j (which_dim_ok j),
    scoreOldFn_real hC X Z l _ j (which_dim_ok j), scoreOld_real hC X Z l _ j (which_dim_ok j),
    scoreAllFn_real hC X Z l X (Or.inl hd), scoreAll_real hC X Z l]
  exact ⟨rfl, rfl, rfl⟩

/-- **C18**, torch, vector lengthscales. -/
theorem C18_torch_function_output_at_samples (X : Mat N d ℝ) (Z : Mat M d ℝ) (l : Fin d → ℝ)
    (hl : ∀ k, l k ≠ 0) (C : ℝ) (hd : 2 ≤ d) :
    torchScoreFn X Z (.tensor l) C "RBF" (.tensor X) = torchScore X Z (.tensor l) C "RBF" := by
  have hc : (TLS.tensor l).classify = .ok (LS.vec l) := by
    simp only [TLS.classify]; rw [if_pos (by omega)]
  rw [torchScoreFn_real X Z _ l hc (by intro w h; cases h), torchScore_real X Z _ _ hc]
  rfl

/-- Non-vacuity of C18: the hypotheses are met by, e.g., unit lengthscales and the default `C`. -/
example : scoreSepFn (fun (i : Fin 3) (k : Fin 2) => (i.val + k.val : ℝ))
    (fun (i : Fin 4) (_ : Fin 2) => (i.val : ℝ)) (1/1000) "RBF" (.scalar 1) 1
      (fun (i : Fin 3) (k : Fin 2) => (i.val + k.val : ℝ))
    = scoreSep (fun (i : Fin 3) (k : Fin 2) => (i.val + k.val : ℝ))
    (fun (i : Fin 4) (_ : Fin 2) => (i.val : ℝ)) (1/1000) "RBF" (.scalar 1) 1 :=
  (C18_function_output_at_samples _ _ (.scalar 1) (by intro k; norm_num [LS.at]) _ (by norm_num)
    (0 : Fin 2)).1

/-! ## C19 -/

/-- **C19.** All numpy implementations return, for coordinate `j`, the values of the same function
(namely of `Spec.score`), at the samples and as functions. -/
theorem C19_numpy_estimators_agree (X : Mat N d ℝ) (Z : Mat M d ℝ) (l : LS d ℝ)
    (hl : ∀ k, l.at k ≠ 0) (C : ℝ) (hC : -1/1000 < C) (j : Fin d) (x : Mat n d ℝ) :
    scoreSep X Z C "RBF" l (j.val + 1) = .ok (fun i => score C l.at X Z j (X i)) ∧
    scoreOld X Z C "RBF" l (j.val + 1) = .ok (fun i => score C l.at X Z j (X i)) ∧
    (∃ v, scoreAll X Z C "RBF" l = .ok v ∧ ∀ i, v i j = score C l.at X Z j (X i)) ∧
    scoreSepFn X Z C "RBF" l (j.val + 1) x = .ok (fun i => score C l.at X Z j (x i)) ∧
    scoreOldFn X Z C "RBF" l (j.val + 1) x = .ok (fun i => score C l.at X Z j (x i)) ∧
    (∃ v, scoreAllFn X Z C "RBF" l x = .ok v ∧ ∀ i, v i j = score C l.at X Z j (x i)) :=
  ⟨scoreSep_real hC X Z l _ j (which_dim_ok j), scoreOld_real hC X Z l _ j (which_dim_ok j),
   ⟨_, scoreAll_real hC X Z l, fun _ => rfl⟩,
   scoreSepFn_real hC X Z l _ j (which_dim_ok j) x, scoreOldFn_real hC X Z l _ j (which_dim_ok j) x,
   ⟨_, scoreAllFn_real hC X Z l x (Or.inl (by have := j.2; omega)), fun _ => rfl⟩⟩

/-- **C19.** The torch estimator agrees with the numpy one at `C = 0.001` (array output for scalar
and vector lengthscales, function output for vector lengthscales). -/
theorem C19_torch_agrees (X : Mat N d ℝ) (Z : Mat M d ℝ) (C : ℝ) (x : Mat n d ℝ) :
    (∀ l : ℝ, l ≠ 0 →
      torchScore X Z (.pyFloat l) C "RBF" = scoreAll X Z (1/1000) "RBF" (.scalar l)) ∧
    (2 ≤ d → ∀ l : Fin d → ℝ, (∀ k, l k ≠ 0) →
      torchScore X Z (.tensor l) C "RBF" = scoreAll X Z (1/1000) "RBF" (.vec l) ∧
      torchScoreFn X Z (.tensor l) C "RBF" (.tensor x)
        = scoreAllFn X Z (1/1000) "RBF" (.vec l) x) := by
  have h3 : (-1/1000 : ℝ) < 1/1000 := by norm_num
  refine ⟨fun l _ => ?_, fun hd l _ => ?_⟩
  · rw [torchScore_real X Z _ (.scalar l) rfl C, scoreAll_real h3]
  · have hc : (TLS.tensor l).classify = .ok (LS.vec l) := by
      simp only [TLS.classify]; rw [if_pos (by omega)]
    rw [torchScore_real X Z _ _ hc, scoreAll_real h3,
      torchScoreFn_real X Z _ l hc (by intro w h; cases h),
      scoreAllFn_real h3 X Z (.vec l) x (Or.inl (by omega))]
    exact ⟨rfl, rfl⟩

/-- **C19.** `score_function_multid_seperate2` agrees with the others as a function for two
dimensional data. -/
theorem C19_score2_agrees_dim2 (X : Mat N 2 ℝ) (Z : Mat M 2 ℝ) (l : LS 2 ℝ)
    (hl : ∀ k, l.at k ≠ 0) (C : ℝ) (hC : -1/1000 < C) (j : Fin 2) (x : Mat n 2 ℝ) :
    score2Fn X Z C "RBF" l (j.val + 1) x = scoreSepFn X Z C "RBF" l (j.val + 1) x := by
  rw [score2Fn_real hC X Z l _ j (which_dim_ok j), scoreSepFn_real hC X Z l _ j (which_dim_ok j)]

/-- **C19.** In three or more dimensions the two can disagree: there is input on which both return values,
and the values differ. -/
theorem C19_score2_disagrees (d : ℕ) (hd : 3 ≤ d) :
    ∃ (X : Mat 1 d ℝ) (Z : Mat 1 d ℝ) (x : Mat 1 d ℝ) (u v : Fin 1 → ℝ),
      score2Fn X Z (1/1000) "RBF" (.vec fun _ => 1) 1 x = .ok u ∧
      scoreSepFn X Z (1/1000) "RBF" (.vec fun _ => 1) 1 x = .ok v ∧ u ≠ v := by
  have h3 : (-1/1000 : ℝ) < 1/1000 := by norm_num
  obtain ⟨i0, hi0⟩ : ∃ i : Fin d, i.val = 0 := ⟨⟨0, by omega⟩, rfl⟩
  obtain ⟨i2, hi2⟩ : ∃ i : Fin d, i.val = 2 := ⟨⟨2, by omega⟩, rfl⟩
  let X : Mat 1 d ℝ := fun _ k => if k = i0 then 1 else 0
  let Z : Mat 1 d ℝ := fun _ _ => 0
  let x : Mat 1 d ℝ := fun _ k => if k = i2 then 1 else 0
  let l : LS d ℝ := .vec fun _ => 1
  have hj : pyIdx d ((1:Int) - 1) = .ok i0.val := by
    rw [hi0]; simp only [pyIdx]; simp; omega
  have hw := oldCommon_real X Z l 1 i0 hj
  -- the kernel matrix used by `seperate2` at `x` is the one at the origin
  have hk : rbfKsz2 Z l x = .ok (gk l.at (fun (_ : Fin 1) (_ : Fin d) => (0:ℝ)) Z) := by
    simp only [rbfKsz2, l]
    rw [dif_pos (by omega)]
    congr 1
    funext i j
    have e0 : (⟨0, by omega⟩ : Fin d) ≠ i2 := fun h => by rw [← h] at hi2; simp at hi2
    have e1 : (⟨1, by omega⟩ : Fin d) ≠ i2 := fun h => by rw [← h] at hi2; simp at hi2
    simp [gk, gauss, rbfFactor_real, x, Z, e0, e1]
  have h1 : score2Fn X Z (1/1000) "RBF" l 1 x
      = .ok fun _ => score (1/1000) l.at X Z i0 (fun _ => 0) := by
    simp only [score2Fn, hw, Except.ok_bind', hk]
    exact fnOut_real h3 l.at X Z i0 _
  have h2 := scoreSepFn_real h3 X Z l 1 i0 hj x
  refine ⟨X, Z, x, _, _, h1, h2, ?_⟩
  intro he
  have h0 := congrFun he 0
  simp only [score, Fin.sum_univ_one] at h0
  have hg : gauss l.at (fun _ => 0) (Z 0) = 1 := by simp [gauss, Z]
  have hg2 : gauss l.at (x 0) (Z 0) < 1 := by
    refine lt_of_le_of_ne (gauss_le_one _ _ _) fun h => ?_
    have := (gauss_eq_one_iff l.at (x 0) (Z 0) (by intro k; simp [LS.at, l])).1 h
    have := congrFun this i2
    simp [x, Z] at this
  rw [hg, mul_one] at h0
  have hc : coef (1/1000) l.at X Z i0 0 = 0 := by
    have : coef (1/1000) l.at X Z i0 0 * (1 - gauss l.at (x 0) (Z 0)) = 0 := by
      rw [mul_sub, mul_one, ← h0, sub_self]
    rcases mul_eq_zero.1 this with h | h
    · exact h
    · linarith
  have hz : coef (1/1000) l.at X Z i0 = 0 := by
    funext i; rw [Subsingleton.elim i 0, hc]; rfl
  have hs := sysMat_mulVec_coef h3 l.at X Z i0
  rw [hz, Matrix.mulVec_zero] at hs
  have hs0 := congrFun hs 0
  rw [Pi.neg_apply, gradSum_eq] at hs0
  simp [X, Z, LS.at, l] at hs0
  exact absurd hs0.symm (gauss_pos _ _ _).ne'

/-! ## C20 -/

/-- **C20.** The gradient term of the numpy estimators is, per inducing point, the sum over the
samples of the true partial derivative of the kernel in its first argument (`pderiv` is Mathlib's
derivative, and the kernel is differentiable). -/
theorem C20_summed_gradient_is_true_derivative (X : Mat N d ℝ) (Z : Mat M d ℝ) (l : LS d ℝ)
    (hl : ∀ k, l.at k ≠ 0) (j : Fin d) (m : Fin M) :
    sumGrad (rbfGrad X Z j l) m = ∑ s, pderiv (fun x => gauss l.at x (Z m)) j (X s) ∧
    ∀ s, DifferentiableAt ℝ (fun t => gauss l.at (Function.update (X s) j t) (Z m)) (X s j) :=
  ⟨congrFun (sumGrad_real X Z j l) m,
   fun s => (hasDerivAt_gauss l.at (X s) (Z m) j (X s j)).differentiableAt⟩

/-- **C20.** `RBF.gradient_X(X, Y)` called right after `RBF.Kernel(X, Y)` returns, entry by entry,
the *negative* of the partial derivative of the kernel in its first argument. -/
theorem C20_gradient_X_is_negative_derivative (X : Mat N d ℝ) (Y : Mat M d ℝ) (l : LS d ℝ)
    (hl : ∀ k, l.at k ≠ 0) :
    (((RBF.new l).kernel X Y).2).gradientX X (some ⟨M, d, Y⟩)
      = .ok ⟨N, M, d, fun i j k => -pderiv (fun x => gauss l.at x (Y j)) k (X i)⟩ := by
  rw [torch_kernel_real]
  exact torch_gradient_real l X Y

/-- The derivative in C20 is not identically zero, so the sign matters. -/
example : pderiv (fun x : Fin 1 → ℝ => gauss (fun _ => 1) x (fun _ => 0)) 0 (fun _ => 1)
    = -Real.exp (-(1/2)) := by
  rw [pderiv_gauss]
  simp [gauss]

/-! ## C21 -/

/-- The regularised empirical score-matching objective in coordinate `j` for the function
`psi(x) = sum_m b_m k(x, z_m)`:
`sum_n (psi(x_n)^2/2 + d_j psi(x_n)) + (C+1e-3)/2 (b . K_zz b + 1e-3 |b|^2)`. -/
noncomputable def Spec.objective (C : ℝ) (l : Fin d → ℝ) (X : Mat N d ℝ) (Z : Mat M d ℝ)
    (j : Fin d) (b : Fin M → ℝ) : ℝ :=
  (∑ s, ((∑ m, b m * gauss l (X s) (Z m)) ^ 2 / 2
      + pderiv (fun x => ∑ m, b m * gauss l x (Z m)) j (X s)))
    + (C + 1/1000) / 2 * (∑ m, ∑ m', b m * gauss l (Z m) (Z m') * b m' + 1/1000 * ∑ m, b m ^ 2)

theorem pderiv_psi (l : Fin d → ℝ) (Z : Mat M d ℝ) (j : Fin d) (b : Fin M → ℝ) (x : Fin d → ℝ) :
    pderiv (fun x => ∑ m, b m * gauss l x (Z m)) j x
      = ∑ m, b m * pderiv (fun x => gauss l x (Z m)) j x := by
  unfold pderiv
  have h : ∀ m ∈ (Finset.univ : Finset (Fin M)), HasDerivAt
      (fun s => b m * gauss l (Function.update x j s) (Z m))
      (b m * deriv (fun s => gauss l (Function.update x j s) (Z m)) (x j)) (x j) := fun m _ =>
    ((hasDerivAt_gauss l x (Z m) j (x j)).differentiableAt.hasDerivAt).const_mul _
  exact (HasDerivAt.fun_sum h).deriv

open Matrix in
theorem objective_quadratic (C : ℝ) (l : Fin d → ℝ) (X : Mat N d ℝ) (Z : Mat M d ℝ) (j : Fin d)
    (b : Fin M → ℝ) :
    Spec.objective C l X Z j b
      = 1/2 * (b ⬝ᵥ (sysMat C l X Z).mulVec b) + b ⬝ᵥ gradSum l X Z j := by
  have hpsi : ∀ s, ∑ m, b m * gauss l (X s) (Z m) = (kmat l X Z).mulVec b s := by
    intro s
    simp only [Matrix.mulVec, dotProduct, kmat, Matrix.of_apply]
    exact Finset.sum_congr rfl fun m _ => mul_comm _ _
  have h1 : b ⬝ᵥ ((kmat l X Z).transpose * kmat l X Z).mulVec b
      = ∑ s, (∑ m, b m * gauss l (X s) (Z m)) ^ 2 := by
    rw [← Matrix.mulVec_mulVec, Matrix.dotProduct_mulVec, Matrix.vecMul_transpose]
    simp only [dotProduct, ← hpsi, pow_two]
  have h2 : b ⬝ᵥ (kmat l Z Z).mulVec b = ∑ m, ∑ m', b m * gauss l (Z m) (Z m') * b m' := by
    simp only [dotProduct, Matrix.mulVec, kmat, Matrix.of_apply, Finset.mul_sum, mul_assoc]
  have h3 : b ⬝ᵥ b = ∑ m, b m ^ 2 := by simp [dotProduct, pow_two]
  have h4 : b ⬝ᵥ gradSum l X Z j
      = ∑ s, pderiv (fun x => ∑ m, b m * gauss l x (Z m)) j (X s) := by
    simp only [pderiv_psi, dotProduct, gradSum, Finset.mul_sum]
    exact Finset.sum_comm
  unfold Spec.objective
  rw [Finset.sum_add_distrib, ← Finset.sum_div, h4]
  unfold sysMat gramReg
  rw [Matrix.add_mulVec, dotProduct_add, Matrix.smul_mulVec, Matrix.add_mulVec,
    Matrix.smul_mulVec, Matrix.one_mulVec, dotProduct_smul, dotProduct_add, dotProduct_smul,
    h1, h2, h3]
  simp only [smul_eq_mul]
  ring

/-- **C21.** The function returned by the estimator is `x ↦ sum_m b_m k(x, z_m)`, and the direct output its
values at the samples, with the `b` that is the unique minimiser of the objective over all coefficient vectors. -/
theorem C21_score_is_minimiser (X : Mat N d ℝ) (Z : Mat M d ℝ) (l : LS d ℝ)
    (hl : ∀ k, l.at k ≠ 0) (C : ℝ) (hC : -1/1000 < C) (j : Fin d) :
    ∃ b : Fin M → ℝ,
      (∀ (n : Nat) (x : Mat n d ℝ), scoreSepFn X Z C "RBF" l (j.val + 1) x
        = .ok fun i => ∑ m, b m * gauss l.at (x i) (Z m)) ∧
      scoreSep X Z C "RBF" l (j.val + 1) = .ok (fun i => ∑ m, b m * gauss l.at (X i) (Z m)) ∧
      ∀ b', b' ≠ b → Spec.objective C l.at X Z j b < Spec.objective C l.at X Z j b' := by
  refine ⟨coef C l.at X Z j, fun n x => scoreSepFn_real hC X Z l _ j (which_dim_ok j) x,
    scoreSep_real hC X Z l _ j (which_dim_ok j), ?_⟩
  intro b' hb
  rw [objective_quadratic, objective_quadratic]
  set Q := sysMat C l.at X Z with hQ
  set b := coef C l.at X Z j with hbdef
  have hQb : Q.mulVec b = -gradSum l.at X Z j := sysMat_mulVec_coef hC l.at X Z j
  have hpd := sysMat_posDef hC l.at X Z
  have hne : b' - b ≠ 0 := sub_ne_zero.2 hb
  have hpos := hpd.dotProduct_mulVec_pos hne
  rw [star_trivial, ← hQ] at hpos
  have hsym : b ⬝ᵥ Q.mulVec b' = b' ⬝ᵥ Q.mulVec b := by
    have ht : Q.transpose = Q := by
      have := hpd.isHermitian
      rwa [Matrix.IsHermitian, Matrix.conjTranspose_eq_transpose_of_trivial, ← hQ] at this
    rw [Matrix.dotProduct_mulVec, ← Matrix.mulVec_transpose, ht, dotProduct_comm]
  have e1 : (b' - b) ⬝ᵥ Q.mulVec (b' - b)
      = b' ⬝ᵥ Q.mulVec b' - 2 * (b' ⬝ᵥ Q.mulVec b) + b ⬝ᵥ Q.mulVec b := by
    rw [Matrix.mulVec_sub, dotProduct_sub, sub_dotProduct, sub_dotProduct, hsym]
    ring
  have hg : gradSum l.at X Z j = -Q.mulVec b := by rw [hQb, neg_neg]
  rw [hg, dotProduct_neg, dotProduct_neg]
  rw [e1] at hpos
  linarith

/-- Non-vacuity of C21: the minimiser competes against at least one other vector as soon as `M ≥ 1`,
and the objective really depends on `b`. -/
example : ∃ b b' : Fin 1 → ℝ, Spec.objective (N := 1) (1/1000) (fun _ : Fin 1 => (1:ℝ))
    (fun _ _ => 0) (fun _ _ => 0) 0 b
    < Spec.objective (N := 1) (1/1000) (fun _ : Fin 1 => (1:ℝ)) (fun _ _ => 0) (fun _ _ => 0) 0 b' := by
  obtain ⟨b, _, _, h⟩ := C21_score_is_minimiser (N := 1) (M := 1) (d := 1) (fun _ _ => 0) (fun _ _ => 0)
    (.scalar 1) (by intro k; norm_num [LS.at]) (1/1000) (by norm_num) 0
  exact ⟨b, fun i => b i + 1, h _ (by intro e; simpa using congrFun e 0)⟩

/-! ## C22, C23, C24 -/

/-- **C22.** Shifting samples, inducing points and evaluation points by `v` does not change the
estimates. -/
theorem C22_translation (X : Mat N d ℝ) (Z : Mat M d ℝ) (l : LS d ℝ) (hl : ∀ k, l.at k ≠ 0)
    (C : ℝ) (hC : -1/1000 < C) (j : Fin d) (v : Fin d → ℝ) (x : Mat n d ℝ) :
    scoreSep (fun i k => X i k + v k) (fun i k => Z i k + v k) C "RBF" l (j.val + 1)
      = scoreSep X Z C "RBF" l (j.val + 1) ∧
    scoreSepFn (fun i k => X i k + v k) (fun i k => Z i k + v k) C "RBF" l (j.val + 1)
        (fun i k => x i k + v k)
      = scoreSepFn X Z C "RBF" l (j.val + 1) x := by
  rw [scoreSep_real hC _ _ l _ j (which_dim_ok j), scoreSep_real hC X Z l _ j (which_dim_ok j),
    scoreSepFn_real hC _ _ l _ j (which_dim_ok j), scoreSepFn_real hC X Z l _ j (which_dim_ok j)]
  constructor
  · congr 1; funext i; exact score_translate C l.at v X Z j (X i)
  · congr 1; funext i; exact score_translate C l.at v X Z j (x i)

/-- A lengthscale multiplied by `s`. -/
noncomputable def Spec.scaleLS (s : ℝ) : LS d ℝ → LS d ℝ
  | .scalar l => .scalar (s * l)
  | .vec l => .vec fun k => s * l k

theorem scaleLS_at (s : ℝ) (l : LS d ℝ) : (Spec.scaleLS s l).at = fun k => s * l.at k := by
  cases l <;> rfl

/-- **C23.** Scaling samples, inducing points, evaluation points and lengthscales by `s ≠ 0`
divides the estimates by `s`. -/
theorem C23_scaling (X : Mat N d ℝ) (Z : Mat M d ℝ) (l : LS d ℝ) (hl : ∀ k, l.at k ≠ 0)
    (C : ℝ) (hC : -1/1000 < C) (j : Fin d) (s : ℝ) (hs : s ≠ 0) (x : Mat n d ℝ) :
    ∃ u w, scoreSep X Z C "RBF" l (j.val + 1) = .ok u ∧ scoreSepFn X Z C "RBF" l (j.val + 1) x = .ok w ∧
      scoreSep (fun i k => s * X i k) (fun i k => s * Z i k) C "RBF" (Spec.scaleLS s l) (j.val + 1)
        = .ok (fun i => u i / s) ∧
      scoreSepFn (fun i k => s * X i k) (fun i k => s * Z i k) C "RBF" (Spec.scaleLS s l) (j.val + 1)
        (fun i k => s * x i k) = .ok (fun i => w i / s) := by
  refine ⟨_, _, scoreSep_real hC X Z l _ j (which_dim_ok j),
    scoreSepFn_real hC X Z l _ j (which_dim_ok j) x, ?_, ?_⟩
  · rw [scoreSep_real hC _ _ _ _ j (which_dim_ok j), scaleLS_at]
    congr 1; funext i; exact score_scale C l.at X Z j (X i) hs
  · rw [scoreSepFn_real hC _ _ _ _ j (which_dim_ok j), scaleLS_at]
    congr 1; funext i; exact score_scale C l.at X Z j (x i) hs

/-- **C23**, reflection: with all points reflected (the lengthscales unchanged) the estimates change
sign. -/
theorem C23_reflection (X : Mat N d ℝ) (Z : Mat M d ℝ) (l : LS d ℝ) (hl : ∀ k, l.at k ≠ 0)
    (C : ℝ) (hC : -1/1000 < C) (j : Fin d) (x : Mat n d ℝ) :
    ∃ u w, scoreSep X Z C "RBF" l (j.val + 1) = .ok u ∧ scoreSepFn X Z C "RBF" l (j.val + 1) x = .ok w ∧
      scoreSep (fun i k => -X i k) (fun i k => -Z i k) C "RBF" l (j.val + 1) = .ok (fun i => -u i) ∧
      scoreSepFn (fun i k => -X i k) (fun i k => -Z i k) C "RBF" l (j.val + 1) (fun i k => -x i k)
        = .ok (fun i => -w i) := by
  have e : ∀ (Y : Mat N d ℝ) (W : Mat M d ℝ) (y : Fin d → ℝ),
      score C (fun k => -l.at k) Y W j y = score C l.at Y W j y := by
    intro Y W y
    have hg : ∀ a b : Fin d → ℝ, gauss (fun k => -l.at k) a b = gauss l.at a b := by
      intro a b; simp [gauss]
    have hk : ∀ (p q : Nat) (A : Mat p d ℝ) (B : Mat q d ℝ),
        kmat (fun k => -l.at k) A B = kmat l.at A B := by
      intro p q A B; ext a b; exact hg _ _
    have hs : gradSum (fun k => -l.at k) Y W j = gradSum l.at Y W j := by
      funext m; simp [gradSum, hg]
    unfold score coef sysMat gramReg
    simp only [hg, hk, hs]
  have key : ∀ y : Fin d → ℝ, score C l.at (fun i k => -X i k) (fun i k => -Z i k) j (fun k => -y k)
      = -score C l.at X Z j y := by
    intro y
    have h := score_scale C (fun k => -l.at k) X Z j y (s := -1) (by norm_num)
    simp only [neg_mul, one_mul, neg_neg] at h
    rw [h, div_neg, div_one, e]
  refine ⟨_, _, scoreSep_real hC X Z l _ j (which_dim_ok j),
    scoreSepFn_real hC X Z l _ j (which_dim_ok j) x, ?_, ?_⟩
  · rw [scoreSep_real hC _ _ _ _ j (which_dim_ok j)]
    congr 1; funext i; exact key (X i)
  · rw [scoreSepFn_real hC _ _ _ _ j (which_dim_ok j)]
    congr 1; funext i; exact key (x i)

/-- **C24.** Relabelling the samples by `σ` permutes the values at the samples and leaves the
returned function unchanged; relabelling the inducing points by `τ` changes nothing. -/
theorem C24_permutation (X : Mat N d ℝ) (Z : Mat M d ℝ) (l : LS d ℝ) (hl : ∀ k, l.at k ≠ 0)
    (C : ℝ) (hC : -1/1000 < C) (j : Fin d) (σ : Equiv.Perm (Fin N)) (τ : Equiv.Perm (Fin M))
    (x : Mat n d ℝ) :
    (∃ u, scoreSep X Z C "RBF" l (j.val + 1) = .ok u ∧
      scoreSep (fun i => X (σ i)) (fun m => Z (τ m)) C "RBF" l (j.val + 1) = .ok fun i => u (σ i)) ∧
    scoreSepFn (fun i => X (σ i)) (fun m => Z (τ m)) C "RBF" l (j.val + 1) x
      = scoreSepFn X Z C "RBF" l (j.val + 1) x := by
  refine ⟨⟨_, scoreSep_real hC X Z l _ j (which_dim_ok j), ?_⟩, ?_⟩
  · rw [scoreSep_real hC _ _ l _ j (which_dim_ok j)]
    congr 1; funext i
    rw [score_perm_samples, score_perm_inducing]
  · rw [scoreSepFn_real hC _ _ l _ j (which_dim_ok j), scoreSepFn_real hC X Z l _ j (which_dim_ok j)]
    congr 1; funext i
    rw [score_perm_samples, score_perm_inducing]

/-- Non-vacuity of C22-C24: a case where the estimate they speak about is not zero. -/
example : ∃ u, scoreSep (fun (_ : Fin 1) (_ : Fin 1) => (1:ℝ)) (fun (_ : Fin 1) _ => 0) (1/1000) "RBF"
    (.scalar 1) 1 = .ok u ∧ u 0 ≠ 0 := by
  have h3 : (-1/1000 : ℝ) < 1/1000 := by norm_num
  refine ⟨_, scoreSep_real h3 _ _ _ _ (0 : Fin 1) rfl, ?_⟩
  set X : Mat 1 1 ℝ := fun _ _ => 1
  set Z : Mat 1 1 ℝ := fun _ _ => 0
  simp only [score, Fin.sum_univ_one]
  intro h
  have hc : coef (1/1000) (LS.scalar (1:ℝ)).at X Z 0 0 = 0 := by
    rcases mul_eq_zero.1 h with h | h
    · exact h
    · exact absurd h (gauss_pos _ _ _).ne'
  have hz : coef (1/1000) (LS.scalar (1:ℝ)).at X Z 0 = 0 := by
    funext i; rw [Subsingleton.elim i 0, hc]; rfl
  have hs := sysMat_mulVec_coef h3 (LS.scalar (1:ℝ)).at X Z 0
  rw [hz, Matrix.mulVec_zero] at hs
  have hs0 := congrFun hs 0
  rw [Pi.neg_apply, gradSum_eq] at hs0
  simp [X, Z, LS.at] at hs0
  exact absurd hs0.symm (gauss_pos _ _ _).ne'

/-! ## C25 -/

/-- **C25.** The estimated score function is bounded on the whole space, by
`M * (sum_m |g_m|) / ((C+1e-3) 1e-3)` with `g_m` the summed kernel derivatives, and also by the
explicit constant `M^2 N / (|l_j| (C+1e-3) 1e-3)`. -/
theorem C25_score_bounded (X : Mat N d ℝ) (Z : Mat M d ℝ) (l : LS d ℝ) (hl : ∀ k, l.at k ≠ 0)
    (C : ℝ) (hC : -1/1000 < C) (j : Fin d) (x : Mat n d ℝ) :
    ∃ w, scoreSepFn X Z C "RBF" l (j.val + 1) x = .ok w ∧ ∀ i,
      |w i| ≤ M * ((∑ m, |∑ s, pderiv (fun x => gauss l.at x (Z m)) j (X s)|)
        / ((C + 1/1000) * (1/1000))) ∧
      |w i| ≤ M ^ 2 * N / (|l.at j| * ((C + 1/1000) * (1/1000))) := by
  refine ⟨_, scoreSepFn_real hC X Z l _ j (which_dim_ok j) x, fun i => ?_⟩
  have h1 := score_bound hC l.at X Z j (x i)
  have hc : 0 < (C + 1/1000) * (1/1000) := by
    have : 0 < C + 1/1000 := by linarith
    positivity
  refine ⟨h1, le_trans h1 ?_⟩
  have h2 : ∑ m, |gradSum l.at X Z j m| ≤ M * (N / |l.at j|) := by
    calc _ ≤ ∑ _m : Fin M, (N / |l.at j| : ℝ) :=
          Finset.sum_le_sum fun m _ => gradSum_bound l.at hl X Z j m
      _ = _ := by simp
  calc (M:ℝ) * ((∑ m, |gradSum l.at X Z j m|) / ((C + 1/1000) * (1/1000)))
      ≤ M * ((M * (N / |l.at j|)) / ((C + 1/1000) * (1/1000))) := by gcongr
    _ = _ := by
      have hlj : |l.at j| ≠ 0 := abs_ne_zero.2 (hl j)
      field_simp

/-! ## C26 -/

/-- **C26.** The kernel matrix of the numpy estimators has entries in `(0, 1]`, equal to `1` exactly
on coinciding points; it is symmetric and positive semidefinite for equal arguments. -/
theorem C26_kernel_matrix_laws (X : Mat N d ℝ) (Z : Mat M d ℝ) (l : LS d ℝ) (hl : ∀ k, l.at k ≠ 0) :
    (∀ i j, 0 < rbfK X Z l i j ∧ rbfK X Z l i j ≤ 1 ∧ (rbfK X Z l i j = 1 ↔ X i = Z j)) ∧
    (∀ i j, rbfK X X l i j = rbfK X X l j i) ∧
    (∀ b : Fin N → ℝ, 0 ≤ ∑ i, ∑ j, b i * rbfK X X l i j * b j) := by
  simp only [rbfK_real, gk]
  refine ⟨fun i j => ⟨gauss_pos _ _ _, gauss_le_one _ _ _, gauss_eq_one_iff _ _ _ hl⟩, ?_, ?_⟩
  · intro i j
    unfold gauss
    congr 2
    exact Finset.sum_congr rfl fun k _ => by rw [← neg_sub, neg_sq]
  · intro b
    have := (kmat_posSemidef l.at X).dotProduct_mulVec_nonneg b
    simpa only [dotProduct, Matrix.mulVec, kmat, Matrix.of_apply, Finset.mul_sum, mul_assoc,
      star_trivial] using this

/-- **C26**, torch: `RBF.Kernel` returns the same matrix as the numpy kernel function times the
signal variance (1 for a new object). -/
theorem C26_torch_kernel (X : Mat N d ℝ) (Z : Mat M d ℝ) (l : LS d ℝ) (hl : ∀ k, l.at k ≠ 0)
    (o : RBF d ℝ) (ho : o.lengthScale = l) :
    (o.kernel X Z).1 = fun i j => o.signalVariance * rbfK X Z l i j := by
  funext i j
  simp only [RBF.kernel, ho, torchKern_real, rbfK_real, gk]

/-- **C26.** A scalar lengthscale gives the same kernel matrix as the constant vector. -/
theorem C26_scalar_is_constant_vector (X : Mat N d ℝ) (Z : Mat M d ℝ) (l : ℝ) (hl : l ≠ 0) :
    rbfK X Z (.scalar l) = rbfK X Z (.vec fun _ => l) := by
  rw [rbfK_real, rbfK_real]; rfl

/-- Non-vacuity of C25/C26: admissible lengthscales exist in both forms. -/
example : (∀ k, (LS.scalar (2:ℝ) : LS 3 ℝ).at k ≠ 0) ∧
    (∀ k, (LS.vec (fun k : Fin 3 => (k.val : ℝ) + 1) : LS 3 ℝ).at k ≠ 0) := by
  constructor
  · intro k; norm_num [LS.at]
  · intro k; simp only [LS.at]; positivity

end DPFC
