import Verif.Lib.PhenotypeModel

/-!
# C89: the gene circuit of the phenotype-differentiation example and its linearisation
-/

namespace DPFC
open Spec
variable {n : ℕ}

/-- **C89** (drift). The drift called by the particle flows with an ensemble is, column by column, the gene circuit, and
the call with a single state is the same function. -/
theorem C89_drift (p : PhenoPars ℝ) : (∀ (x : Mat 2 n ℝ) a j, phenoF p x a j = circuit p (fun b => x b j) a) ∧
    ∀ x, phenoF1 p x = circuit p x :=
  ⟨fun x a j => phenoF_real p x a j, phenoF1_real p⟩

/-- **C89** (bounds). For nonzero thresholds with `p2 = p4` each component of the drift is in `[-x, 2-x]`; hence an Euler
step of length at most 1 from a state in `[0,2]^2` stays in `[0,2]^2`. -/
theorem C89_bounds (p : PhenoPars ℝ) (h1 : p.p1 ≠ 0) (h2 : p.p2 ≠ 0) (h3 : p.p3 ≠ 0) (h4 : p.p4 = p.p2) (x : Fin 2 → ℝ) :
    (∀ a, -x a ≤ phenoF1 p x a ∧ phenoF1 p x a ≤ 2 - x a) ∧
    ∀ h : ℝ, 0 ≤ h → h ≤ 1 → (∀ a, 0 ≤ x a ∧ x a ≤ 2) →
      ∀ a, 0 ≤ x a + h * phenoF1 p x a ∧ x a + h * phenoF1 p x a ≤ 2 := by
  have key : ∀ a, -x a ≤ phenoF1 p x a ∧ phenoF1 p x a ≤ 2 - x a := by
    intro a
    rw [phenoF1_real]
    unfold circuit
    have a1 := hill_unit h1 (x 0)
    have a2 := hill_unit' h2 (x 1)
    have a3 := hill_unit h3 (x 1)
    have a4 := hill_unit' h2 (x 0)
    rw [h4]
    fin_cases a
    · simp only [Fin.zero_eta, Matrix.cons_val_zero]
      constructor <;> linarith [a1.1, a1.2, a2.1, a2.2]
    · simp only [Fin.mk_one, Matrix.cons_val_one, Matrix.cons_val_zero]
      constructor <;> linarith [a3.1, a3.2, a4.1, a4.2]
  refine ⟨key, fun h h0 hle hx a => ?_⟩
  obtain ⟨k1, k2⟩ := key a
  obtain ⟨x1, x2⟩ := hx a
  constructor
  · nlinarith [mul_le_mul_of_nonneg_left k1 h0]
  · nlinarith [mul_le_mul_of_nonneg_left k2 h0]

/-- **C89** (fixed points). With the script's thresholds 0.5 the target `(1, 1)` is a fixed point of the drift exactly;
the source `(1.996, 0.004)` is not, but both components of the drift there are less than `1e-4`. -/
theorem C89_fixed_points (p : PhenoPars ℝ) (hp : p = ⟨1/2, 1/2, 1/2, 1/2⟩) :
    phenoF1 p ![1, 1] = 0 ∧
    ∀ a, phenoF1 p ![1.996, 0.004] a ≠ 0 ∧ |phenoF1 p ![1.996, 0.004] a| < 1/10000 := by
  subst hp
  simp only [phenoF1_real]
  constructor
  · funext a
    fin_cases a <;> norm_num [circuit]
  · intro a
    fin_cases a
    · simp only [circuit, Fin.zero_eta, Matrix.cons_val_zero, Matrix.cons_val_one]
      norm_num [abs_lt]
    · simp only [circuit, Fin.mk_one, Matrix.cons_val_zero, Matrix.cons_val_one]
      norm_num [abs_lt]

/-- **C89** (gradient, diagonal). `gradfs` and `divf` compute `4 x^3 (1 - x^4) / (p^4 + x^4) - 1` for the diagonal
entries, whereas the derivative of the drift is `4 p^4 x^3 / (p^4 + x^4)^2 - 1`; the two are equal only for `x = 0` or
`p^4 + x^4 = 1`. -/
theorem C89_gradient_diagonal (p : PhenoPars ℝ) (h1 : p.p1 ≠ 0) (h3 : p.p3 ≠ 0) (x : Fin 2 → ℝ) :
    (∃ v, HasDerivAt (fun s => circuit p ![s, x 1] 0) v (x 0) ∧
      (phenoJac p x 0 0 = v ↔ x 0 = 0 ∨ p.p1 ^ 4 + x 0 ^ 4 = 1)) ∧
    ∃ v, HasDerivAt (fun s => circuit p ![x 0, s] 1) v (x 1) ∧
      (phenoJac p x 1 1 = v ↔ x 1 = 0 ∨ p.p3 ^ 4 + x 1 ^ 4 = 1) := by
  have key : ∀ q y : ℝ, q ≠ 0 → (phenoDiag q y = 4 * q^4 * y^3 / (q^4 + y^4)^2 - 1 ↔ y = 0 ∨ q^4 + y^4 = 1) := by
    intro q y hq
    have hD := den_pos hq y
    have hD' := hD.ne'
    have e : phenoDiag q y - (4 * q^4 * y^3 / (q^4 + y^4)^2 - 1) = 4 * y^7 * (1 - (q^4 + y^4)) / (q^4 + y^4)^2 := by
      rw [phenoDiag_real]
      field_simp
      ring
    rw [← sub_eq_zero, e, div_eq_zero_iff]
    constructor
    · rintro (h | h)
      · rcases mul_eq_zero.1 h with h | h
        · left
          rcases mul_eq_zero.1 h with h | h
          · norm_num at h
          · exact pow_eq_zero_iff (by norm_num) |>.1 h
        · right; linarith
      · exact absurd h (by positivity)
    · rintro (h | h)
      · left; rw [h]; norm_num
      · left; rw [h]; norm_num
  constructor
  · refine ⟨4 * p.p1^4 * x 0^3 / (p.p1^4 + x 0^4)^2 - 1, ?_, ?_⟩
    · exact circuit_deriv00 p h1 (x 1) (x 0)
    · have : phenoJac p x 0 0 = phenoDiag p.p1 (x 0) := by simp [phenoJac]
      rw [this]; exact key _ _ h1
  · refine ⟨4 * p.p3^4 * x 1^3 / (p.p3^4 + x 1^4)^2 - 1, ?_, ?_⟩
    · exact circuit_deriv11 p h3 (x 0) (x 1)
    · have : phenoJac p x 1 1 = phenoDiag p.p3 (x 1) := by simp [phenoJac]
      rw [this]; exact key _ _ h3

/-- **C89** (gradient, off-diagonal). The off-diagonal entry of the first row is the derivative of the drift; that of
the second row is if and only if `p2^4 = p4^4` (as in the script) or the first coordinate is 0. -/
theorem C89_gradient_off_diagonal (p : PhenoPars ℝ) (h2 : p.p2 ≠ 0) (h4 : p.p4 ≠ 0) (x : Fin 2 → ℝ) :
    HasDerivAt (fun s => circuit p ![x 0, s] 0) (phenoJac p x 0 1) (x 1) ∧
    (HasDerivAt (fun s => circuit p ![s, x 1] 1) (phenoJac p x 1 0) (x 0) ↔ p.p2 ^ 4 = p.p4 ^ 4 ∨ x 0 = 0) := by
  have hA : HasDerivAt (fun s => circuit p ![s, x 1] 1) (-4 * p.p2^4 * x 0^3 / (p.p4^4 + x 0^4)^2) (x 0) := by
    have := ((hasDerivAt_inh h4 p.p2 (x 0)).const_add (x 1 ^ 4 / (p.p3 ^ 4 + x 1 ^ 4))).sub_const (x 1)
    refine this.congr_of_eventuallyEq (.of_forall fun s => ?_)
    simp [circuit]
  constructor
  · have e : phenoJac p x 0 1 = -4 * p.p2^4 * x 1^3 / (p.p2^4 + x 1^4)^2 := by
      rw [← phenoOff_real]; simp [phenoJac]
    rw [e]
    have := ((hasDerivAt_inh h2 p.p2 (x 1)).const_add (x 0 ^ 4 / (p.p1 ^ 4 + x 0 ^ 4))).sub_const (x 0)
    refine this.congr_of_eventuallyEq (.of_forall fun s => ?_)
    simp [circuit]
  · have e : phenoJac p x 1 0 = -4 * p.p4^4 * x 0^3 / (p.p4^4 + x 0^4)^2 := by
      rw [← phenoOff_real]; simp [phenoJac]
    have hD := den_pos h4 (x 0)
    have : HasDerivAt (fun s => circuit p ![s, x 1] 1) (phenoJac p x 1 0) (x 0)
        ↔ phenoJac p x 1 0 = -4 * p.p2^4 * x 0^3 / (p.p4^4 + x 0^4)^2 :=
      ⟨fun h => h.unique hA, fun h => h ▸ hA⟩
    rw [this, e, div_left_inj' (by positivity)]
    constructor
    · intro h
      have : 4 * x 0 ^ 3 * (p.p2^4 - p.p4^4) = 0 := by linarith
      rcases mul_eq_zero.1 this with h | h
      · right
        exact pow_eq_zero_iff (n := 3) (by norm_num) |>.1 (by linarith)
      · left; linarith
    · rintro (h | h)
      · rw [h]
      · rw [h]; ring

/-- **C89** (divergence). `divf` is the sum of the diagonal entries of `gradfs`; its error against the divergence of the
drift is the sum of `4 x^7 (1 - p^4 - x^4) / (p^4 + x^4)^2` over the two genes. -/
theorem C89_divergence (p : PhenoPars ℝ) (h1 : p.p1 ≠ 0) (h3 : p.p3 ≠ 0) (x : Fin 2 → ℝ) :
    phenoDiv p x = phenoJac p x 0 0 + phenoJac p x 1 1 ∧
    ∃ v w, HasDerivAt (fun s => circuit p ![s, x 1] 0) v (x 0) ∧ HasDerivAt (fun s => circuit p ![x 0, s] 1) w (x 1) ∧
      phenoDiv p x = v + w + 4 * x 0 ^ 7 * (1 - p.p1 ^ 4 - x 0 ^ 4) / (p.p1 ^ 4 + x 0 ^ 4) ^ 2
        + 4 * x 1 ^ 7 * (1 - p.p3 ^ 4 - x 1 ^ 4) / (p.p3 ^ 4 + x 1 ^ 4) ^ 2 := by
  have hD := (den_pos h1 (x 0)).ne'
  have hE := (den_pos h3 (x 1)).ne'
  refine ⟨by simp [phenoDiv, phenoJac], _, _, circuit_deriv00 p h1 (x 1) (x 0), circuit_deriv11 p h3 (x 0) (x 1), ?_⟩
  rw [phenoDiv, phenoDiag_real, phenoDiag_real]
  field_simp
  ring

/-- C89_divergence: the script's thresholds. -/
example : ((⟨1/2, 1/2, 1/2, 1/2⟩ : PhenoPars ℝ)).p1 ≠ 0 ∧ ((⟨1/2, 1/2, 1/2, 1/2⟩ : PhenoPars ℝ)).p3 ≠ 0 := by
  norm_num

/-- **C89** (at the target). With the script's thresholds, at the target `(1, 1)`: `gradfs` returns `-1` on the diagonal
and `divf` returns `-2`, whereas the derivative is `-225/289` and the divergence `-450/289`. -/
theorem C89_at_target (p : PhenoPars ℝ) (hp : p = ⟨1/2, 1/2, 1/2, 1/2⟩) :
    phenoJac p ![1, 1] 0 0 = -1 ∧ phenoJac p ![1, 1] 1 1 = -1 ∧ phenoDiv p ![1, 1] = -2 ∧
    HasDerivAt (fun s => circuit p ![s, 1] 0) (-225/289) 1 ∧ HasDerivAt (fun s => circuit p ![1, s] 1) (-225/289) 1 := by
  subst hp
  refine ⟨?_, ?_, ?_, ?_, ?_⟩
  · simp only [phenoJac, phenoDiag_real, if_true, Matrix.cons_val_zero]; norm_num
  · simp only [phenoJac, phenoDiag_real, if_neg (show ¬ (1 : Fin 2) = 0 by decide), Matrix.cons_val_one,
      Matrix.cons_val_zero]; norm_num
  · simp only [phenoDiv, phenoDiag_real, Matrix.cons_val_zero, Matrix.cons_val_one]; norm_num
  · have := circuit_deriv00 ⟨1/2, 1/2, 1/2, 1/2⟩ (by norm_num) 1 1
    norm_num at this ⊢
    exact this
  · have := circuit_deriv11 ⟨1/2, 1/2, 1/2, 1/2⟩ (by norm_num) 1 1
    norm_num at this ⊢
    exact this

/-- **C89** (linearised mean). The mean of the linearised dynamics: `n` states, the first is `y2` and each next one is an
Euler step of `f(y2) + A (m - y2)` with the matrix `A` of `gradfs(y2)`; if `y2` is a fixed point, all of them are `y2`. -/
theorem C89_mean (p : PhenoPars ℝ) (y2 : Fin 2 → ℝ) (n : ℕ) :
    (phenoMeans p y2 n).length = n ∧ (∀ m, (phenoMeans p y2 n)[0]? = some m → m = y2) ∧
    (∀ i m m', (phenoMeans p y2 n)[i]? = some m → (phenoMeans p y2 n)[i+1]? = some m' →
      m' = fun a => m a + 1/1000 * (circuit p y2 a + ∑ b, phenoJac p y2 a b * (m b - y2 b))) ∧
    (circuit p y2 = 0 → ∀ m ∈ phenoMeans p y2 n, m = y2) := by
  have hL : ∀ x, phenoLin p y2 x = fun a => circuit p y2 a + ∑ b, phenoJac p y2 a b * (x b - y2 b) := by
    intro x
    funext a
    unfold phenoLin
    rw [phenoF1_real]
    simp only [mv, real_sum, mul_sub, Finset.sum_sub_distrib]
    ring
  have hget : ∀ i m, (phenoMeans p y2 n)[i]? = some m → m = linMean p y2 i := by
    intro i m h
    rw [phenoMeans_eq, List.getElem?_map] at h
    obtain ⟨j, hj, rfl⟩ := Option.map_eq_some_iff.1 h
    obtain ⟨h1, rfl⟩ := List.getElem?_eq_some_iff.1 hj
    rw [List.getElem_range]
  refine ⟨by simp [phenoMeans_eq], fun m h => hget 0 m h, ?_, ?_⟩
  · intro i m m' h h'
    rw [hget _ _ h', hget _ _ h]
    funext a
    rw [linMean, hL, real_lit_milli]
    ring
  · intro h0 m hm
    obtain ⟨i, hi⟩ := List.getElem?_of_mem hm
    rw [hget i m hi]
    clear hi
    induction i with
    | zero => rfl
    | succ i ih =>
      funext a
      rw [linMean, ih, hL, h0]
      simp

/-- **C89** (linearised covariance). The right-hand side passed to the ODE solver is `A C + C A^T + I` with `A` from
`gradfs(y2)`: noise strength 1 whatever the noise strength of the run; it maps symmetric matrices to symmetric ones. -/
theorem C89_covariance (p : PhenoPars ℝ) (y2 : Fin 2 → ℝ) (C : Mat 2 2 ℝ) :
    Matrix.of (phenoLinVar p y2 C) = Matrix.of (phenoJac p y2) * Matrix.of C
      + Matrix.of C * (Matrix.of (phenoJac p y2)).transpose + 1 ∧
    ((∀ a b, C a b = C b a) → ∀ a b, phenoLinVar p y2 C a b = phenoLinVar p y2 C b a) := by
  have h : Matrix.of (phenoLinVar p y2 C) = Matrix.of (phenoJac p y2) * Matrix.of C
      + Matrix.of C * (Matrix.of (phenoJac p y2)).transpose + 1 := by
    ext a b
    simp only [phenoLinVar, mm, real_sum, tr, eye, real_lit_one, real_lit_zero, one_mul, Matrix.of_apply,
      Matrix.add_apply, Matrix.mul_apply, Matrix.transpose_apply, Matrix.one_apply]
  refine ⟨h, fun hC a b => ?_⟩
  have hS : (Matrix.of C).transpose = Matrix.of C := by ext a b; exact hC b a
  have : (Matrix.of (phenoLinVar p y2 C)).transpose = Matrix.of (phenoLinVar p y2 C) := by
    rw [h]
    simp only [Matrix.transpose_add, Matrix.transpose_mul, Matrix.transpose_transpose, hS, Matrix.transpose_one]
    rw [add_comm (Matrix.of C * _)]
  exact congrFun (congrFun this b) a

/-! ### Examples -/

/-- The script's thresholds meet the hypotheses; the diagonal entry is right at `x = 0` and wrong at the target. -/
example : phenoJac (⟨1/2, 1/2, 1/2, 1/2⟩ : PhenoPars ℝ) ![0, 1] 0 0 = -1 ∧
    ¬ (∃ v, HasDerivAt (fun s => circuit ⟨1/2, 1/2, 1/2, 1/2⟩ ![s, 1] 0) v 1 ∧
      phenoJac (⟨1/2, 1/2, 1/2, 1/2⟩ : PhenoPars ℝ) ![1, 1] 0 0 = v) := by
  refine ⟨by simp [phenoJac, phenoDiag_real], ?_⟩
  rintro ⟨v, hv, he⟩
  obtain ⟨h1, _, _, h2, _⟩ := C89_at_target _ rfl
  have := hv.unique h2
  rw [← he, h1] at this
  norm_num at this

/-- All six means of the script are the target. -/
example : ∀ m ∈ phenoMeans (⟨1/2, 1/2, 1/2, 1/2⟩ : PhenoPars ℝ) ![1, 1] 6, m = ![1, 1] :=
  (C89_mean _ _ 6).2.2.2 (by rw [← phenoF1_real]; exact (C89_fixed_points _ rfl).1)

end DPFC
