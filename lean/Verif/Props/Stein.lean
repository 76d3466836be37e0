import Verif.Props.Estimators
import Verif.Spec.Stein

/-!
# Property C112: the empirical Stein identity and the effect of the regularisation
-/

set_option linter.unusedVariables false

namespace DPFC
open Spec Matrix

variable {N M d n : Nat}

/-! Helpers. -/

theorem sysMat_form (C : ℝ) (l : Fin d → ℝ) (X : Mat N d ℝ) (Z : Mat M d ℝ) (a b : Fin M → ℝ) :
    a ⬝ᵥ (sysMat C l X Z).mulVec b
      = ∑ s, combo l Z a (X s) * combo l Z b (X s) + (C + 1/1000) * Spec.inner l Z a b := by
  have hpsi : ∀ (b : Fin M → ℝ) s, combo l Z b (X s) = (kmat l X Z).mulVec b s := by
    intro b s
    simp only [combo, Matrix.mulVec, dotProduct, kmat, Matrix.of_apply]
    exact Finset.sum_congr rfl fun m _ => mul_comm _ _
  have h1 : a ⬝ᵥ ((kmat l X Z).transpose * kmat l X Z).mulVec b = ∑ s, combo l Z a (X s) * combo l Z b (X s) := by
    rw [← Matrix.mulVec_mulVec, Matrix.dotProduct_mulVec, Matrix.vecMul_transpose]
    simp only [dotProduct, ← hpsi]
  have h2 : a ⬝ᵥ (kmat l Z Z).mulVec b = ∑ m, ∑ m', a m * gauss l (Z m) (Z m') * b m' := by
    simp only [dotProduct, Matrix.mulVec, kmat, Matrix.of_apply, Finset.mul_sum, mul_assoc]
  unfold sysMat gramReg
  rw [Matrix.add_mulVec, dotProduct_add, Matrix.smul_mulVec, Matrix.add_mulVec,
    Matrix.smul_mulVec, Matrix.one_mulVec, dotProduct_smul, dotProduct_add, dotProduct_smul, h1, h2]
  simp only [smul_eq_mul, Spec.inner, dotProduct]

theorem gradSum_form (l : Fin d → ℝ) (X : Mat N d ℝ) (Z : Mat M d ℝ) (j : Fin d) (a : Fin M → ℝ) :
    a ⬝ᵥ gradSum l X Z j = ∑ s, pderiv (combo l Z a) j (X s) := by
  have e : ∀ x, pderiv (combo l Z a) j x = ∑ m, a m * pderiv (fun x => gauss l x (Z m)) j x :=
    fun x => pderiv_psi l Z j a x
  simp only [e, dotProduct, gradSum, Finset.mul_sum]
  exact Finset.sum_comm

theorem inner_self_nonneg' (l : Fin d → ℝ) (Z : Mat M d ℝ) (b : Fin M → ℝ) : 0 ≤ Spec.inner l Z b b := by
  have h := (kmat_posSemidef l Z).dotProduct_mulVec_nonneg b
  have h' : 0 ≤ ∑ m, ∑ m', b m * gauss l (Z m) (Z m') * b m' := by
    simpa only [dotProduct, Matrix.mulVec, kmat, Matrix.of_apply, Finset.mul_sum, mul_assoc, star_trivial] using h
  have h2 : 0 ≤ ∑ m, b m * b m := Finset.sum_nonneg fun m _ => mul_self_nonneg _
  unfold Spec.inner
  positivity

theorem stein_coef {C : ℝ} (hC : -1/1000 < C) (l : Fin d → ℝ) (X : Mat N d ℝ) (Z : Mat M d ℝ) (j : Fin d)
    (a : Fin M → ℝ) :
    ∑ s, (combo l Z (coef C l X Z j) (X s) * combo l Z a (X s) + pderiv (combo l Z a) j (X s))
      = -((C + 1/1000) * Spec.inner l Z a (coef C l X Z j)) := by
  have h := congrArg (fun v => a ⬝ᵥ v) (sysMat_mulVec_coef hC l X Z j)
  simp only [dotProduct_neg] at h
  rw [sysMat_form, gradSum_form] at h
  rw [Finset.sum_add_distrib]
  have e : ∑ s, combo l Z (coef C l X Z j) (X s) * combo l Z a (X s)
      = ∑ s, combo l Z a (X s) * combo l Z (coef C l X Z j) (X s) :=
    Finset.sum_congr rfl fun s _ => mul_comm _ _
  rw [e]
  linarith

theorem objective_split (C : ℝ) (l : Fin d → ℝ) (X : Mat N d ℝ) (Z : Mat M d ℝ) (j : Fin d) (b : Fin M → ℝ) :
    Spec.objective C l X Z j b = fit X j (combo l Z b) + (C + 1/1000) / 2 * Spec.inner l Z b b := by
  unfold Spec.objective fit Spec.inner
  simp only [pow_two]
  rfl

/-! ## C112 -/

/-- **C112.** Empirical Stein identity. The returned function is a combination `f = ∑ b_m k(·, z_m)`, and for every other
combination `φ`: `∑_n (f(x_n) φ(x_n) + ∂_j φ(x_n)) = -(C+1e-3) ⟨φ, f⟩`, with the regularised inner product. -/
theorem C112_stein (X : Mat N d ℝ) (Z : Mat M d ℝ) (l : LS d ℝ) (hl : ∀ k, l.at k ≠ 0) (C : ℝ) (hC : -1/1000 < C)
    (j : Fin d) :
    ∃ b : Fin M → ℝ,
      (∀ (n : Nat) (x : Mat n d ℝ), scoreSepFn X Z C "RBF" l (j.val + 1) x = .ok fun i => combo l.at Z b (x i)) ∧
      scoreSep X Z C "RBF" l (j.val + 1) = .ok (fun i => combo l.at Z b (X i)) ∧
      ∀ a : Fin M → ℝ,
        ∑ s, (combo l.at Z b (X s) * combo l.at Z a (X s) + pderiv (combo l.at Z a) j (X s))
          = -((C + 1/1000) * Spec.inner l.at Z a b) :=
  ⟨coef C l.at X Z j, fun n x => scoreSepFn_real hC X Z l _ j (which_dim_ok j) x,
    scoreSep_real hC X Z l _ j (which_dim_ok j), stein_coef hC l.at X Z j⟩

/-- **C112.** The estimated score has non-positive divergence on average: whatever the samples, the sum over the samples
of the derivative `∂_j` of the returned function is at most minus the sum of the squares of its values. -/
theorem C112_divergence (X : Mat N d ℝ) (Z : Mat M d ℝ) (l : LS d ℝ) (hl : ∀ k, l.at k ≠ 0) (C : ℝ)
    (hC : -1/1000 < C) (j : Fin d) :
    ∃ f : (Fin d → ℝ) → ℝ,
      (∀ (n : Nat) (x : Mat n d ℝ), scoreSepFn X Z C "RBF" l (j.val + 1) x = .ok fun i => f (x i)) ∧
      ∑ s, pderiv f j (X s) ≤ -∑ s, f (X s) ^ 2 := by
  obtain ⟨b, h1, _, h3⟩ := C112_stein X Z l hl C hC j
  refine ⟨combo l.at Z b, h1, ?_⟩
  have h := h3 b
  rw [Finset.sum_add_distrib] at h
  have h2 : 0 ≤ (C + 1/1000) * Spec.inner l.at Z b b :=
    mul_nonneg (by linarith) (inner_self_nonneg' l.at Z b)
  simp only [← pow_two] at h
  linarith

/-- **C112**, torch: in every coordinate. -/
theorem C112_divergence_torch (X : Mat N d ℝ) (Z : Mat M d ℝ) (l : Fin d → ℝ) (hl : ∀ k, l k ≠ 0) (hd : 2 ≤ d)
    (C : ℝ) :
    ∃ f : Fin d → (Fin d → ℝ) → ℝ,
      (∀ (n : Nat) (x : Mat n d ℝ),
        torchScoreFn X Z (.tensor l) C "RBF" (.tensor x) = .ok fun i j => f j (x i)) ∧
      ∀ j, ∑ s, pderiv (f j) j (X s) ≤ -∑ s, f j (X s) ^ 2 := by
  have hC : (-1/1000 : ℝ) < 1/1000 := by norm_num
  refine ⟨fun j => score (1/1000) l X Z j, fun n x => (C27_value X Z l hl hd C "RBF" x).2, fun j => ?_⟩
  obtain ⟨f, h1, h2⟩ := C112_divergence X Z (.vec l) hl (1/1000) hC j
  have e : f = score (1/1000) l X Z j := by
    funext x
    have h := h1 1 (fun _ => x)
    rw [scoreSepFn_real hC X Z _ _ j (which_dim_ok j)] at h
    exact (congrFun (Except.ok.inj h) 0).symm
  rw [e] at h2
  exact h2

/-- **C112.** Increasing `C` never increases the regularised norm of the estimate and never improves its fit to the
samples. -/
theorem C112_regularisation (X : Mat N d ℝ) (Z : Mat M d ℝ) (l : LS d ℝ) (hl : ∀ k, l.at k ≠ 0) (C C' : ℝ)
    (hC : -1/1000 < C) (hCC : C ≤ C') (j : Fin d) :
    ∃ b b' : Fin M → ℝ,
      (∀ (n : Nat) (x : Mat n d ℝ), scoreSepFn X Z C "RBF" l (j.val + 1) x = .ok fun i => combo l.at Z b (x i)) ∧
      (∀ (n : Nat) (x : Mat n d ℝ), scoreSepFn X Z C' "RBF" l (j.val + 1) x = .ok fun i => combo l.at Z b' (x i)) ∧
      Spec.inner l.at Z b' b' ≤ Spec.inner l.at Z b b ∧
      fit X j (combo l.at Z b) ≤ fit X j (combo l.at Z b') := by
  have hC' : -1/1000 < C' := lt_of_lt_of_le hC hCC
  obtain ⟨b, h1, _, h3⟩ := C21_score_is_minimiser X Z l hl C hC j
  obtain ⟨b', h1', _, h3'⟩ := C21_score_is_minimiser X Z l hl C' hC' j
  refine ⟨b, b', h1, h1', ?_⟩
  rcases eq_or_lt_of_le hCC with he | hlt
  · subst he
    have e : b' = b := by
      by_contra hne
      exact absurd (h3 b' hne) (not_lt.2 (h3' b (Ne.symm hne)).le)
    rw [e]; exact ⟨le_rfl, le_rfl⟩
  · have k1 : Spec.objective C l.at X Z j b ≤ Spec.objective C l.at X Z j b' := by
      by_cases h : b' = b
      · rw [h]
      · exact (h3 b' h).le
    have k2 : Spec.objective C' l.at X Z j b' ≤ Spec.objective C' l.at X Z j b := by
      by_cases h : b = b'
      · rw [h]
      · exact (h3' b h).le
    rw [objective_split, objective_split] at k1 k2
    have hR : Spec.inner l.at Z b' b' ≤ Spec.inner l.at Z b b := by
      by_contra hcon
      have h4 : 0 < (C' - C) * (Spec.inner l.at Z b' b' - Spec.inner l.at Z b b) :=
        mul_pos (by linarith) (by linarith)
      nlinarith
    refine ⟨hR, ?_⟩
    have h5 : 0 ≤ (C + 1/1000) * (Spec.inner l.at Z b b - Spec.inner l.at Z b' b') :=
      mul_nonneg (by linarith) (by linarith)
    nlinarith

/-- **C112.** As `C` grows without bound the estimate tends to zero, uniformly in space: with `c = C + 1e-3` its absolute
value is everywhere at most `1000 M^2 N / (|l_j| c)`. -/
theorem C112_large_C (X : Mat N d ℝ) (Z : Mat M d ℝ) (l : LS d ℝ) (hl : ∀ k, l.at k ≠ 0) (j : Fin d) (ε : ℝ)
    (hε : 0 < ε) :
    ∃ C0 : ℝ, ∀ C, C0 ≤ C → ∀ (n : Nat) (x : Mat n d ℝ), ∃ w, scoreSepFn X Z C "RBF" l (j.val + 1) x = .ok w ∧
      ∀ i, |w i| ≤ 1000 * M ^ 2 * N / (|l.at j| * (C + 1/1000)) ∧ |w i| ≤ ε := by
  have hlj : 0 < |l.at j| := abs_pos.2 (hl j)
  refine ⟨1000 * M ^ 2 * N / (|l.at j| * ε), fun C hC n x => ?_⟩
  have h0 : (0:ℝ) ≤ 1000 * M ^ 2 * N / (|l.at j| * ε) := by positivity
  have hCp : 0 < C + 1/1000 := by linarith
  obtain ⟨w, hw, hb⟩ := C25_score_bounded X Z l hl C (by linarith) j x
  refine ⟨w, hw, fun i => ?_⟩
  have e : (M:ℝ) ^ 2 * N / (|l.at j| * ((C + 1/1000) * (1/1000))) = 1000 * M ^ 2 * N / (|l.at j| * (C + 1/1000)) := by
    field_simp
  have h1 := (hb i).2
  rw [e] at h1
  refine ⟨h1, h1.trans ?_⟩
  rw [div_le_iff₀ (by positivity)] at hC ⊢
  nlinarith [mul_pos hlj hε]

theorem sum_repeat {N' r : ℕ} {φ : Fin N' → Fin N} (hφ : ∀ s, (Finset.univ.filter fun s' => φ s' = s).card = r)
    (F : Fin N → ℝ) : ∑ s', F (φ s') = r * ∑ s, F s := by
  rw [← Finset.sum_fiberwise Finset.univ φ, Finset.mul_sum]
  refine Finset.sum_congr rfl fun s _ => ?_
  rw [Finset.sum_congr rfl fun s' hs' => by rw [(Finset.mem_filter.1 hs').2], Finset.sum_const, hφ, nsmul_eq_mul]

theorem score_repeat {N' r : ℕ} (hr : 0 < r) {φ : Fin N' → Fin N}
    (hφ : ∀ s, (Finset.univ.filter fun s' => φ s' = s).card = r) (C : ℝ) (hC : -1/1000 < C) (l : Fin d → ℝ)
    (X : Mat N d ℝ) (Z : Mat M d ℝ) (j : Fin d) (x : Fin d → ℝ) :
    score C l (fun s' => X (φ s')) Z j x = score ((C + 1/1000) / r - 1/1000) l X Z j x := by
  have hr' : (0:ℝ) < r := by exact_mod_cast hr
  have hC' : -1/1000 < (C + 1/1000) / r - 1/1000 := by
    have : 0 < (C + 1/1000) / r := div_pos (by linarith) hr'
    linarith
  have hQ : sysMat C l (fun s' => X (φ s')) Z = (r:ℝ) • sysMat ((C + 1/1000) / r - 1/1000) l X Z := by
    ext a b
    simp only [sysMat, Matrix.add_apply, Matrix.smul_apply, Matrix.mul_apply, Matrix.transpose_apply, kmat,
      Matrix.of_apply, smul_eq_mul]
    rw [sum_repeat hφ fun s => gauss l (X s) (Z a) * gauss l (X s) (Z b)]
    field_simp
    ring
  have hg : gradSum l (fun s' => X (φ s')) Z j = (r:ℝ) • gradSum l X Z j := by
    funext m
    simp only [gradSum, Pi.smul_apply, smul_eq_mul]
    exact sum_repeat hφ fun s => pderiv (fun x => gauss l x (Z m)) j (X s)
  have hc : coef C l (fun s' => X (φ s')) Z j = coef ((C + 1/1000) / r - 1/1000) l X Z j := by
    have hu := posDef_isUnit_det (sysMat_posDef hC' l X Z)
    letI : Invertible (r:ℝ) := invertibleOfNonzero hr'.ne'
    unfold coef
    rw [hQ, hg, Matrix.inv_smul _ _ hu, Matrix.mulVec_smul, Matrix.smul_mulVec, smul_smul, mul_invOf_self, one_smul]
  unfold score
  rw [hc]

/-- **C112.** Repeating every sample `r` times has exactly the effect of dividing the total regularisation `C + 1e-3` by
`r`. -/
theorem C112_repeated_samples {N' r : ℕ} (hr : 0 < r) (φ : Fin N' → Fin N)
    (hφ : ∀ s, (Finset.univ.filter fun s' => φ s' = s).card = r) (X : Mat N d ℝ) (Z : Mat M d ℝ) (l : LS d ℝ)
    (hl : ∀ k, l.at k ≠ 0) (C : ℝ) (hC : -1/1000 < C) (j : Fin d) (x : Mat n d ℝ) :
    scoreSepFn (fun s' => X (φ s')) Z C "RBF" l (j.val + 1) x
      = scoreSepFn X Z ((C + 1/1000) / r - 1/1000) "RBF" l (j.val + 1) x := by
  have hr' : (0:ℝ) < r := by exact_mod_cast hr
  have hC' : -1/1000 < (C + 1/1000) / r - 1/1000 := by
    have : 0 < (C + 1/1000) / r := div_pos (by linarith) hr'
    linarith
  rw [scoreSepFn_real hC _ _ l _ j (which_dim_ok j), scoreSepFn_real hC' X Z l _ j (which_dim_ok j)]
  congr 1; funext i
  exact score_repeat hr hφ C hC l.at X Z j (x i)

/-- A cloud of two samples, each three times. -/
example : ∀ s : Fin 2, (Finset.univ.filter fun s' : Fin 6 => (⟨s'.val % 2, Nat.mod_lt _ (by norm_num)⟩ : Fin 2) = s).card
    = 3 := by
  intro s
  fin_cases s <;> rfl

/-- Non-vacuity of C112: with one sample next to one inducing point the estimate is not zero, so the divergence is
strictly negative and the identity is not `0 = 0`. -/
example : ∃ f : (Fin 1 → ℝ) → ℝ,
    (∀ (n : Nat) (x : Mat n 1 ℝ), scoreSepFn (fun (_ : Fin 1) (_ : Fin 1) => (1:ℝ)) (fun (_ : Fin 1) _ => 0) (1/1000)
      "RBF" (.scalar 1) 1 x = .ok fun i => f (x i)) ∧ pderiv f 0 (fun _ => 1) < 0 := by
  have hC : (-1/1000 : ℝ) < 1/1000 := by norm_num
  obtain ⟨f, h1, h2⟩ := C112_divergence (fun (_ : Fin 1) (_ : Fin 1) => (1:ℝ)) (fun (_ : Fin 1) _ => 0) (.scalar 1)
    (by intro k; norm_num [LS.at]) (1/1000) hC 0
  refine ⟨f, h1, ?_⟩
  have h := h1 1 (fun _ _ => 1)
  rw [scoreSepFn_real hC _ _ _ _ 0 (which_dim_ok 0)] at h
  have hf := congrFun (Except.ok.inj h) 0
  have hs := score_single (1/1000) hC 1 1 0 one_ne_zero
  have hpos : 0 < f (fun _ => 1) := by
    rw [← hf]
    change 0 < score (1/1000) (fun _ : Fin 1 => (1:ℝ)) (fun _ : Fin 1 => fun _ => 1) (fun _ : Fin 1 => fun _ => 0) 0
      (fun _ => 1)
    rw [hs]
    have := gauss_pos (fun _ : Fin 1 => (1:ℝ)) (fun _ => 1) (fun _ => 0)
    positivity
  simp only [Fin.sum_univ_one] at h2
  nlinarith [sq_pos_of_pos hpos]

end DPFC
