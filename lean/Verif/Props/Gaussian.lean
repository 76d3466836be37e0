import Verif.Lib.Gaussian
import Verif.Lib.Examples
import Mathlib.Analysis.Calculus.Deriv.Mul

/-!
# C94, C95: the linear-Gaussian theory script
-/

namespace DPFC
open Spec Matrix
variable {ρ : Type} {d n : ℕ}

/-- **C94** (drift). The drift of every column `x` is `-2 K C x`; for symmetric `C` and `K` with nonnegative quadratic form
it never increases `x^T C x` to first order. -/
theorem C94_drift (Kc C : Mat d d ℝ) (x : Mat d n ℝ) (j : Fin n) :
    (fun a => gaussDrift Kc C x a j) = (-2 : ℝ) • (Matrix.of Kc *ᵥ (Matrix.of C *ᵥ fun a => x a j)) ∧
    ((Matrix.of C)ᵀ = Matrix.of C → (∀ v : Fin d → ℝ, 0 ≤ v ⬝ᵥ (Matrix.of Kc *ᵥ v)) →
      HasDerivAt (fun t : ℝ => ((fun a => x a j) + t • fun a => gaussDrift Kc C x a j) ⬝ᵥ
        (Matrix.of C *ᵥ ((fun a => x a j) + t • fun a => gaussDrift Kc C x a j)))
        (2 * ((Matrix.of C *ᵥ fun a => x a j) ⬝ᵥ fun a => gaussDrift Kc C x a j)) 0 ∧
      (Matrix.of C *ᵥ fun a => x a j) ⬝ᵥ (fun a => gaussDrift Kc C x a j) ≤ 0) := by
  have h1 : (fun a => gaussDrift Kc C x a j) = (-2 : ℝ) • (Matrix.of Kc *ᵥ (Matrix.of C *ᵥ fun a => x a j)) := by
    unfold gaussDrift
    rw [mm_col, of_minusTwo, smul_mulVec, mulVec_mulVec]
  refine ⟨h1, fun hC hK => ⟨?_, ?_⟩⟩
  · set v := fun a => gaussDrift Kc C x a j
    set y := fun a => x a j
    have he : (fun t : ℝ => (y + t • v) ⬝ᵥ (Matrix.of C *ᵥ (y + t • v)))
        = fun t => y ⬝ᵥ (Matrix.of C *ᵥ y) + t * (2 * ((Matrix.of C *ᵥ y) ⬝ᵥ v)) + t * t * (v ⬝ᵥ (Matrix.of C *ᵥ v)) := by
      funext t
      have hs : y ⬝ᵥ (Matrix.of C *ᵥ v) = (Matrix.of C *ᵥ y) ⬝ᵥ v := by
        rw [dotProduct_mulVec, ← mulVec_transpose, hC]
      simp only [mulVec_add, mulVec_smul, dotProduct_add, add_dotProduct, dotProduct_smul, smul_dotProduct, smul_eq_mul,
        hs, dotProduct_comm v (Matrix.of C *ᵥ y)]
      ring
    rw [he]
    have := ((hasDerivAt_id (0:ℝ)).mul_const (2 * ((Matrix.of C *ᵥ y) ⬝ᵥ v))).const_add (y ⬝ᵥ (Matrix.of C *ᵥ y))
    have h2 := ((hasDerivAt_id (0:ℝ)).mul (hasDerivAt_id (0:ℝ))).mul_const (v ⬝ᵥ (Matrix.of C *ᵥ v))
    exact (this.add h2).congr_deriv (by simp)
  · rw [h1, dotProduct_smul, smul_eq_mul]
    have := hK (Matrix.of C *ᵥ fun a => x a j)
    linarith

/-- **C94** (covariance equation). The drift matrix `P` does not occur in the right-hand side: it is
`-2 (K S S + S S K) + s s'^T`. For the noise of the model (`s s^T = K`) the matrix `I/2` is an equilibrium whatever `P`,
whereas the covariance equation of the drift has the equilibrium `P^{-1}/4`. The two right-hand sides differ by
`-2 (K (S - P) S + S (S - P) K)`. -/
theorem C94_variance (Kc P s s' S : Mat d d ℝ) (hK : (Matrix.of Kc)ᵀ = Matrix.of Kc) (hS : (Matrix.of S)ᵀ = Matrix.of S)
    (hP : (Matrix.of P)ᵀ = Matrix.of P) :
    let F := (-2 : ℝ) • (Matrix.of Kc * Matrix.of P)
    let lyap (S : Matrix (Fin d) (Fin d) ℝ) := F * S + S * Fᵀ + Matrix.of s * (Matrix.of s')ᵀ
    Matrix.of (gaussVar Kc s s' S) = (-2 : ℝ) • (Matrix.of Kc * Matrix.of S * Matrix.of S
        + Matrix.of S * Matrix.of S * Matrix.of Kc) + Matrix.of s * (Matrix.of s')ᵀ ∧
    Matrix.of (gaussVar Kc s s' S) - lyap (Matrix.of S) = (-2 : ℝ) • (Matrix.of Kc * (Matrix.of S - Matrix.of P) * Matrix.of S
        + Matrix.of S * (Matrix.of S - Matrix.of P) * Matrix.of Kc) ∧
    (Matrix.of s * (Matrix.of s')ᵀ = Matrix.of Kc →
      gaussVar Kc s s' (fun a b => if a = b then 1/2 else 0) = (fun _ _ => 0) ∧
      (IsUnit (Matrix.of P).det → lyap ((1/4 : ℝ) • (Matrix.of P)⁻¹) = 0)) := by
  intro F lyap
  have hg : ∀ S : Mat d d ℝ, (Matrix.of S)ᵀ = Matrix.of S → Matrix.of (gaussVar Kc s s' S)
      = (-2 : ℝ) • (Matrix.of Kc * Matrix.of S * Matrix.of S + Matrix.of S * Matrix.of S * Matrix.of Kc)
        + Matrix.of s * (Matrix.of s')ᵀ := by
    intro S hS
    have : Matrix.of (gaussVar Kc s s' S) = Matrix.of (mm (minusTwo Kc S) S) + Matrix.of (mm S (tr (minusTwo Kc S)))
        + Matrix.of (mm s (tr s')) := rfl
    rw [this, of_mm, of_mm, of_mm, of_tr, of_tr, of_minusTwo, transpose_smul, transpose_mul, hK, hS, smul_mul,
      Matrix.mul_smul, ← smul_add, Matrix.mul_assoc (Matrix.of S)]
  have hF : Fᵀ = (-2 : ℝ) • (Matrix.of P * Matrix.of Kc) := by
    simp only [F, transpose_smul, transpose_mul, hK, hP]
  refine ⟨hg S hS, ?_, fun hs => ⟨?_, fun hu => ?_⟩⟩
  · rw [hg S hS]
    simp only [lyap, hF, F, smul_mul, Matrix.mul_smul, Matrix.mul_sub, Matrix.sub_mul, smul_add, smul_sub,
      Matrix.mul_assoc]
    abel
  · have h2 : Matrix.of (fun a b => if a = b then 1/2 else 0 : Mat d d ℝ) = (1/2 : ℝ) • (1 : Matrix (Fin d) (Fin d) ℝ) := by
      ext a b; by_cases h : a = b <;> simp [h]
    have h3 := hg (fun a b => if a = b then 1/2 else 0) (by rw [h2, transpose_smul, transpose_one])
    rw [h2, hs] at h3
    have h4 : Matrix.of (gaussVar Kc s s' fun a b => if a = b then 1/2 else 0) = 0 := by
      rw [h3]
      simp only [Matrix.mul_smul, Matrix.smul_mul, Matrix.mul_one, Matrix.one_mul, smul_smul]
      rw [← add_smul, smul_smul]
      norm_num
    funext a b
    exact congrFun (congrFun h4 a) b
  · simp only [lyap, hF, F, smul_mul, Matrix.mul_smul, hs, smul_smul]
    rw [Matrix.mul_assoc, Matrix.mul_nonsing_inv _ hu, ← Matrix.mul_assoc, Matrix.nonsing_inv_mul _ hu, Matrix.mul_one,
      Matrix.one_mul, ← add_smul]
    norm_num

/-- **C94** (asymmetry of the uncorrelated theory). For a symmetric argument the right-hand side is symmetric exactly if
`s s'^T` is. The script uses `s = diag(a, b)`, `s'` symmetric with off-diagonal entry `t` there: not symmetric unless
`a = b` or `t = 0`. -/
theorem C94_asymmetric (Kc s s' S : Mat d d ℝ) (hS : (Matrix.of S)ᵀ = Matrix.of S) :
    ((Matrix.of (gaussVar Kc s s' S))ᵀ = Matrix.of (gaussVar Kc s s' S) ↔
      Matrix.of s' * (Matrix.of s)ᵀ = Matrix.of s * (Matrix.of s')ᵀ) ∧
    ∀ a b p t q : ℝ, (!![p, t; t, q] * (!![a, 0; 0, b])ᵀ = !![a, 0; 0, b] * (!![p, t; t, q])ᵀ ↔ a = b ∨ t = 0) := by
  constructor
  · have : Matrix.of (gaussVar Kc s s' S) = Matrix.of (mm (minusTwo Kc S) S) + Matrix.of (mm S (tr (minusTwo Kc S)))
        + Matrix.of (mm s (tr s')) := rfl
    rw [this, of_mm, of_mm, of_mm, of_tr, of_tr, transpose_add, transpose_add, transpose_mul, transpose_mul, transpose_mul,
      transpose_transpose, transpose_transpose, hS]
    rw [add_comm (Matrix.of S * (Matrix.of (minusTwo Kc S))ᵀ), add_right_inj]
  · intro a b p t q
    constructor
    · intro h
      have h01 := congrFun (congrFun h 0) 1
      simp [Matrix.mul_apply, Fin.sum_univ_two] at h01
      rcases eq_or_ne t 0 with ht | ht
      · exact Or.inr ht
      · left
        have : t * b = t * a := by linarith
        exact (mul_left_cancel₀ ht this).symm
    · intro h
      ext i j
      rcases h with h | h
      · subst h; fin_cases i <;> fin_cases j <;> simp [Matrix.mul_apply, Fin.sum_univ_two] <;> ring
      · subst h; fin_cases i <;> fin_cases j <;> simp [Matrix.mul_apply, Fin.sum_univ_two] <;> ring

/-- **C94** (uncorrelated theory of the script). Two traits with correlated noise covariance `K` (off-diagonal entry not zero,
different variances), `sigma` a symmetric square root of `K` and `sigma0` a diagonal one of the diagonal part `K0`: the
right-hand side of the second covariance equation is not symmetric for any symmetric argument, so that its solution is not
a covariance. -/
theorem C94_uncorrelated (Kc s0 s S : Mat 2 2 ℝ) (h01 : Kc 0 1 ≠ 0) (hvar : Kc 0 0 ≠ Kc 1 1)
    (hs : (Matrix.of s)ᵀ = Matrix.of s) (hsK : Matrix.of s * (Matrix.of s)ᵀ = Matrix.of Kc)
    (hd : s0 0 1 = 0 ∧ s0 1 0 = 0) (hs0K : Matrix.of s0 * (Matrix.of s0)ᵀ = Matrix.of (diagDiag Kc))
    (hS : (Matrix.of S)ᵀ = Matrix.of S) :
    Matrix.of (diagDiag Kc) = Matrix.diagonal (fun a => Kc a a) ∧
    (Matrix.of (gaussVar (diagDiag Kc) s0 s S))ᵀ ≠ Matrix.of (gaussVar (diagDiag Kc) s0 s S) := by
  refine ⟨by ext a b; simp [diagDiag, Matrix.diagonal_apply], fun h => ?_⟩
  have h1 := (C94_asymmetric (diagDiag Kc) s0 s S hS).1.1 h
  have e01 := congrFun (congrFun h1 0) 1
  have eK := congrFun (congrFun hsK 0) 1
  have e00 := congrFun (congrFun hs0K 0) 0
  have e11 := congrFun (congrFun hs0K 1) 1
  have es := congrFun (congrFun hs 0) 1
  simp only [Matrix.mul_apply, Fin.sum_univ_two, Matrix.transpose_apply, Matrix.of_apply, hd.1, hd.2, diagDiag, if_true]
    at e01 eK e00 e11 es
  rw [es] at e01 eK
  have ht : s 0 1 ≠ 0 := by
    intro h0
    apply h01
    rw [← eK, h0]; ring
  have hab : s0 0 0 = s0 1 1 := by
    have : s 0 1 * s0 1 1 = s 0 1 * s0 0 0 := by linarith
    exact (mul_left_cancel₀ ht this).symm
  apply hvar
  rw [← e00, ← e11, hab]; ring

/-- Such matrices exist: `K = [[5, 8], [8, 13]]` has the symmetric root `[[1, 2], [2, 3]]`. -/
example : ∃ Kc s0 s : Mat 2 2 ℝ, Kc 0 1 ≠ 0 ∧ Kc 0 0 ≠ Kc 1 1 ∧ (Matrix.of s)ᵀ = Matrix.of s ∧
    Matrix.of s * (Matrix.of s)ᵀ = Matrix.of Kc ∧ (s0 0 1 = 0 ∧ s0 1 0 = 0) ∧
    Matrix.of s0 * (Matrix.of s0)ᵀ = Matrix.of (diagDiag Kc) := by
  refine ⟨![![5, 8], ![8, 13]], ![![Real.sqrt 5, 0], ![0, Real.sqrt 13]], ![![1, 2], ![2, 3]], by norm_num, by norm_num,
    ?_, ?_, ⟨rfl, rfl⟩, ?_⟩
  · ext i j; fin_cases i <;> fin_cases j <;> simp [Matrix.transpose_apply, Matrix.of_apply]
  · ext i j; fin_cases i <;> fin_cases j <;>
      simp [Matrix.mul_apply, Fin.sum_univ_two, Matrix.transpose_apply, Matrix.of_apply] <;> norm_num
  · ext i j; fin_cases i <;> fin_cases j <;>
      simp [Matrix.mul_apply, Fin.sum_univ_two, diagDiag, Matrix.transpose_apply, Matrix.of_apply]

/-- **C94** (score). For a symmetric stored covariance with nonnegative quadratic form the score never raises and is the
gradient of the log density of the normal distribution with covariance `C + 1e-6 I`; for zero covariance it is
`-10^6 (x - m)`. If `C^T + 1e-6 I` is singular it raises LinAlgError. -/
theorem C94_score (x : Mat d n ℝ) (m : Fin d → ℝ) (C : Mat d d ℝ) :
    ((Matrix.of C)ᵀ = Matrix.of C → (∀ v : Fin d → ℝ, 0 ≤ v ⬝ᵥ (Matrix.of C *ᵥ v)) →
      ∃ S : Mat d n ℝ, gaussScoreM x m C = .ok S ∧ ∀ j (v : Fin d → ℝ),
        HasDerivAt (fun t : ℝ => logNormal (Matrix.of C) m ((fun a => x a j) + t • v)) ((fun a => S a j) ⬝ᵥ v) 0) ∧
    (C = (fun _ _ => 0) → gaussScoreM x m C = .ok fun a j => -(1000000 * (x a j - m a))) ∧
    (¬ IsUnit ((Matrix.of C)ᵀ + (1/1000000 : ℝ) • (1 : Matrix (Fin d) (Fin d) ℝ)).det →
      gaussScoreM x m C = .error .linAlgError) := by
  refine ⟨fun hC hp => ⟨_, gaussScoreM_ok x m C (reg_unit _ hp), ?_⟩, ?_, gaussScoreM_err x m C⟩
  · intro j v
    rw [hC]
    set R := (Matrix.of C + (1/1000000 : ℝ) • (1 : Matrix (Fin d) (Fin d) ℝ))⁻¹ with hR
    have hRt : Rᵀ = R := by
      rw [hR, transpose_nonsing_inv, transpose_add, hC, transpose_smul, transpose_one]
    set y := (fun a => x a j) - m with hy
    have he : (fun t : ℝ => logNormal (Matrix.of C) m ((fun a => x a j) + t • v))
        = fun t => -(1/2) * (y ⬝ᵥ (R *ᵥ y)) + t * -((R *ᵥ y) ⬝ᵥ v) + t * t * (-(1/2) * (v ⬝ᵥ (R *ᵥ v))) := by
      funext t
      unfold logNormal
      rw [← hR]
      have : (fun a => x a j) + t • v - m = y + t • v := by rw [hy]; abel
      rw [this]
      have hs : y ⬝ᵥ (R *ᵥ v) = (R *ᵥ y) ⬝ᵥ v := by
        rw [dotProduct_mulVec, ← mulVec_transpose, hRt]
      simp only [mulVec_add, mulVec_smul, dotProduct_add, add_dotProduct, dotProduct_smul, smul_dotProduct, smul_eq_mul,
        hs, dotProduct_comm v (R *ᵥ y)]
      ring
    rw [he]
    have hsc : (fun a => normalScore (Matrix.of C) m (fun b => x b j) a) ⬝ᵥ v = -((R *ᵥ y) ⬝ᵥ v) := by
      rw [← neg_dotProduct]; rfl
    rw [hsc]
    have h1 := ((hasDerivAt_id (0:ℝ)).mul_const (-((R *ᵥ y) ⬝ᵥ v))).const_add (-(1/2) * (y ⬝ᵥ (R *ᵥ y)))
    have h2 := ((hasDerivAt_id (0:ℝ)).mul (hasDerivAt_id (0:ℝ))).mul_const (-(1/2) * (v ⬝ᵥ (R *ᵥ v)))
    exact (h1.add h2).congr_deriv (by simp)
  · rintro rfl
    rw [gaussScoreM_ok x m _ (reg_unit _ fun v => by
      have : Matrix.of (fun _ _ => 0 : Mat d d ℝ) = 0 := rfl
      rw [this, zero_mulVec, dotProduct_zero])]
    congr 1
    funext a j
    unfold normalScore
    have : (Matrix.of (fun _ _ => 0 : Mat d d ℝ))ᵀ + (1/1000000 : ℝ) • (1 : Matrix (Fin d) (Fin d) ℝ)
        = (1/1000000 : ℝ) • (1 : Matrix (Fin d) (Fin d) ℝ) := by
      ext a b; simp
    rw [this]
    have hi : ((1/1000000 : ℝ) • (1 : Matrix (Fin d) (Fin d) ℝ))⁻¹ = (1000000 : ℝ) • (1 : Matrix (Fin d) (Fin d) ℝ) := by
      apply inv_eq_right_inv
      rw [smul_mul, Matrix.mul_smul, Matrix.mul_one, smul_smul]
      norm_num
    rw [hi, smul_mulVec, one_mulVec]
    rfl

/-- **C95** (simulation). With as many stored means and matrices as time points and nonnegative quadratic forms, the
simulation returns on every nonempty grid. Both ensembles start in `y1` and follow the Euler-Maruyama scheme with the
correlated drift `-2 K C` and the correlated noise matrix; the second one only uses the control of the uncorrelated theory.
The noises are independent parts of the random stream, those of the uncorrelated theory are drawn first. -/
theorem C95_simulation (env : Env ρ ℝ) (Kc C : Mat d d ℝ) (G G0 : GaussModel d ℝ) (y1 : Fin d → ℝ) (grid : List ℝ)
    (hg : grid ≠ []) (hG : Covariances grid.length G) (hG0 : Covariances grid.length G0) (r : ρ) :
    ∃ (P : GaussPaths d n ℝ) (r' : ρ) (X X0 : ℕ → Fin d → Fin n → ℝ) (rs rs0 : ℕ → ρ),
      gaussRun env (gaussDrift Kc C) G G0 y1 grid r = .ok (P, r') ∧
      P.A = (List.range grid.length).map X ∧ P.A0 = (List.range grid.length).map X0 ∧
      GaussSimulation env ((-2 : ℝ) • (Matrix.of Kc * Matrix.of C)) (Matrix.of G.s) G y1 grid.length X rs ∧
      GaussSimulation env ((-2 : ℝ) • (Matrix.of Kc * Matrix.of C)) (Matrix.of G.s) G0 y1 grid.length X0 rs0 ∧
      rs0 0 = r ∧ (∀ i, i + 1 < grid.length → rs i = normalsNext env d n (rs0 i) ∧
        rs0 (i+1) = normalsNext env d n (rs i)) ∧ rs0 (grid.length - 1) = r' := by
  obtain ⟨t0, ts, rfl⟩ : ∃ t0 ts, grid = t0 :: ts := by
    match grid, hg with
    | a :: l, _ => exact ⟨a, l, rfl⟩
  have hz : (zerosT d n (t0 :: ts).length : Traj d n ℝ) = arrT (t0 :: ts).length fun _ => 0 := by
    unfold zerosT
    simp only [arrT_replicate, real_lit_zero]
    rfl
  obtain ⟨Y, Y0, rs, hl, hrs, hold, hnew⟩ := gauss_loop (n := n) (k := (t0 :: ts).length) env Kc C G G0 hG hG0 y1 ts 0
    (Function.update (fun _ => 0) 0 fun a _ => y1 a) (Function.update (fun _ => 0) 0 fun a _ => y1 a) r
    (by simp [Nat.add_comm])
  have h0 := hold 0 le_rfl
  rw [Function.update_self] at h0
  refine ⟨⟨arrT _ Y, arrT _ Y0⟩, _, Y, Y0, fun i => normalsNext env d n (rs i), rs, ?_, rfl, rfl, ⟨h0.1, ?_⟩, ⟨h0.2, ?_⟩,
    hrs, ?_, rfl⟩
  · unfold gaussRun
    rw [hz, enumLoop]
    have hb : gaussBody env (gaussDrift Kc C) G G0 y1 (t0 :: ts).length 0 t0
        ⟨arrT (t0 :: ts).length fun _ => (0 : Mat d n ℝ), arrT (t0 :: ts).length fun _ => (0 : Mat d n ℝ)⟩
        = pure ⟨arrT (t0 :: ts).length (Function.update (fun _ => 0) 0 fun a _ => y1 a),
          arrT (t0 :: ts).length (Function.update (fun _ => 0) 0 fun a _ => y1 a)⟩ := by
      unfold gaussBody
      rw [if_pos rfl]
      simp only [arrT_setSlice _ (show 0 < (t0 :: ts).length by simp), RandM.liftM_ok, pure_bind]
    rw [hb, pure_bind]
    exact hl
  · intro i hi
    exact (hnew i (Nat.zero_le _) hi).2.2
  · intro i hi
    exact (hnew i (Nat.zero_le _) hi).2.1
  · intro i hi
    exact ⟨rfl, (hnew i (Nat.zero_le _) hi).1⟩

/-- **C95** (mean path). The mean over the repetitions follows the same recursion, with the mean noise: the controls are
affine in the state. -/
theorem C95_mean (env : Env ρ ℝ) (F s : Matrix (Fin d) (Fin d) ℝ) (G : GaussModel d ℝ) (y1 : Fin d → ℝ) (k : ℕ)
    (X : ℕ → Fin d → Fin n → ℝ) (rs : ℕ → ρ) (hn : 0 < n) (h : GaussSimulation env F s G y1 k X rs) {i : ℕ}
    (hi : i + 1 < k) :
    let mu (Y : Fin d → Fin n → ℝ) : Fin d → ℝ := fun a => (∑ j, Y a j) / n
    ∃ u, IsGaussControl G k i (mu (X i)) u ∧ mu (X (i+1)) = mu (X i) + (1/1000 : ℝ) • (F *ᵥ mu (X i) + u)
      + Real.sqrt (1/1000) • (s *ᵥ mu (normals env d n (rs i))) := by
  intro mu
  have hn' : (n : ℝ) ≠ 0 := by exact_mod_cast hn.ne'
  have hst := h.2 i hi
  obtain ⟨_, mq, Cq, mp, Cp, hmq, hCq, hmp, hCp, -⟩ := (hst ⟨0, hn⟩).imp fun _ hh => hh.1
  refine ⟨_, ⟨mq, Cq, mp, Cp, hmq, hCq, hmp, hCp, rfl⟩, ?_⟩
  have hmu : ∀ Y : Fin d → Fin n → ℝ, mu Y = (1/n : ℝ) • ∑ j, fun a => Y a j := by
    intro Y; funext a; simp [mu, Finset.sum_apply]; ring
  have haff : ∀ (C : Matrix (Fin d) (Fin d) ℝ) (m : Fin d → ℝ) (Y : Fin d → Fin n → ℝ),
      normalScore C m (mu Y) = (1/n : ℝ) • ∑ j, normalScore C m fun a => Y a j := by
    intro C m Y
    unfold normalScore
    rw [Finset.sum_neg_distrib, smul_neg, ← mulVec_sum, ← mulVec_smul]
    congr 2
    rw [Finset.sum_sub_distrib, smul_sub, hmu]
    congr 1
    rw [Finset.sum_const, Finset.card_univ, Fintype.card_fin, ← Nat.cast_smul_eq_nsmul ℝ, smul_smul,
      one_div_mul_cancel hn', one_smul]
  have hstep : ∀ j, (fun a => X (i+1) a j) = (fun a => X i a j) + (1/1000 : ℝ) • (F *ᵥ (fun a => X i a j)
      + (Matrix.of G.s * (Matrix.of G.s)ᵀ) *ᵥ (normalScore (Matrix.of Cq)ᵀ mq (fun a => X i a j)
        - normalScore (Matrix.of Cp)ᵀ mp (fun a => X i a j)))
      + Real.sqrt (1/1000) • (s *ᵥ fun a => normals env d n (rs i) a j) := by
    intro j
    obtain ⟨u, ⟨mq', Cq', mp', Cp', h1, h2, h3, h4, rfl⟩, he⟩ := hst j
    rw [hmq] at h1; rw [hCq] at h2; rw [hmp] at h3; rw [hCp] at h4
    cases h1; cases h2; cases h3; cases h4
    exact he
  rw [haff, haff, hmu (X (i+1)), Finset.sum_congr rfl fun j _ => hstep j]
  rw [Finset.sum_add_distrib, Finset.sum_add_distrib, ← Finset.smul_sum, ← Finset.smul_sum, Finset.sum_add_distrib,
    ← mulVec_sum, ← mulVec_sum, ← mulVec_sum, Finset.sum_sub_distrib, hmu (X i), hmu (normals env d n (rs i)), mulVec_smul,
    mulVec_smul, ← smul_sub, mulVec_smul]
  funext a
  simp only [Pi.add_apply, Pi.smul_apply, smul_eq_mul]
  ring

/-- **C95** (first step). If the forward mean starts in `y1`, the forward score is zero there and the first control is the
pull towards the stored mean of the last index of the flow from the target. -/
theorem C95_first (G : GaussModel d ℝ) (k : ℕ) (y1 u : Fin d → ℝ) (hm : G.mt[0]? = some y1)
    (hu : IsGaussControl G k 0 y1 u) :
    ∃ mq Cq, G.mtb[k-1]? = some mq ∧ G.Ctb[k-1]? = some Cq ∧
      u = (Matrix.of G.s * (Matrix.of G.s)ᵀ) *ᵥ (((Matrix.of Cq)ᵀ + (1/1000000 : ℝ) • 1)⁻¹ *ᵥ (mq - y1)) := by
  obtain ⟨mq, Cq, mp, Cp, h1, h2, h3, h4, rfl⟩ := hu
  rw [hm] at h3
  cases h3
  refine ⟨mq, Cq, h1, h2, ?_⟩
  congr 1
  unfold normalScore
  rw [sub_self, mulVec_zero, neg_zero, sub_zero, ← mulVec_neg, neg_sub]

/-- The hypotheses of `C95_simulation` are met, for instance, by three time points with covariances `i I`. -/
example : ∃ G : GaussModel 2 ℝ, Covariances ([0, 1/1000, 2/1000] : List ℝ).length G ∧
    G.Ct[1]? = some (fun a b => if a = b then 1 else 0) := by
  have hp : ∀ C ∈ (List.range 3).map (fun i : ℕ => (fun a b : Fin 2 => if a = b then (i : ℝ) else 0)), ∀ v : Fin 2 → ℝ,
      0 ≤ v ⬝ᵥ (Matrix.of C *ᵥ v) := by
    intro C hC v
    obtain ⟨i, -, rfl⟩ := List.mem_map.1 hC
    have hi : (0 : ℝ) ≤ i := Nat.cast_nonneg i
    simp [dotProduct, mulVec, Fin.sum_univ_two]
    nlinarith [mul_self_nonneg (v 0), mul_self_nonneg (v 1)]
  exact ⟨⟨eye, List.replicate 3 0, _, List.replicate 3 1, _⟩, ⟨by simp, by simp, by simp, by simp, hp, hp⟩, by simp⟩

end DPFC
