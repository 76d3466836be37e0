import Verif.Lib.Consistency
import Verif.Props.Score
import Verif.Props.Estimators
import Mathlib.Probability.Distributions.Gaussian.Real
import Mathlib.Probability.Independence.InfinitePi
import Mathlib.MeasureTheory.Integral.Pi

/-!
# C85: the score estimate for many samples
-/

namespace DPFC
open Spec MeasureTheory ProbabilityTheory Filter Topology

variable {d M : ℕ}

/-- **C85** (consistency). Let the samples be pairwise independent with a common law that charges every open set, and keep
the inducing points (distinct), lengthscales (non-zero) and `C` fixed. There are functions of the form
`sum_i c_i k(x, z_i)`, one per coordinate, namely the unique minimisers of the score-matching objective
`E[s^2 + 2 ds/dx_j]` of the *law* of the samples, such that almost surely the estimates with `n` samples converge to them,
uniformly in the evaluation point, both as values at the samples and as returned function. The constant `C` does not
matter in the limit. -/
theorem C85_consistency {Ω : Type} [MeasurableSpace Ω] (P : Measure Ω) [IsProbabilityMeasure P] (X : ℕ → Ω → Fin d → ℝ)
    (hX : ∀ i, Measurable (X i)) (hind : Pairwise fun i i' => IndepFun (X i) (X i') P)
    (hid : ∀ i, P.map (X i) = P.map (X 0)) (hopen : ∀ U, IsOpen U → U.Nonempty → P (X 0 ⁻¹' U) ≠ 0)
    (Z : Fin M → Fin d → ℝ) (hZ : Function.Injective Z) (l : LS d ℝ) (hl : ∀ k, l.at k ≠ 0) :
    ∃ c : Fin d → Fin M → ℝ, (∀ j, BestMatch (P.map (X 0)) l.at Z j (c j)) ∧
      ∀ C : ℝ, -1/1000 < C → ∀ᵐ ω ∂P, ∀ ε > 0, ∀ᶠ n in atTop, ∀ j : Fin d,
        (∃ r, scoreSep (fun (i : Fin n) => X i ω) Z C "RBF" l (j.val + 1) = .ok r ∧
          ∀ i, |r i - comb l.at Z (c j) (X i ω)| < ε) ∧
        ∀ (q : ℕ) (x : Mat q d ℝ), ∃ r, scoreSepFn (fun (i : Fin n) => X i ω) Z C "RBF" l (j.val + 1) x = .ok r ∧
          ∀ i, |r i - comb l.at Z (c j) (x i)| < ε := by
  have : IsProbabilityMeasure (P.map (X 0)) := Measure.isProbabilityMeasure_map (hX 0).aemeasurable
  have : (P.map (X 0)).IsOpenPosMeasure := ⟨fun U hU hne => by
    rw [Measure.map_apply (hX 0) hU.measurableSet]
    exact hopen U hU hne⟩
  refine ⟨fun j => -((Cons.G (P.map (X 0)) l.at Z)⁻¹.mulVec (Cons.gv (P.map (X 0)) l.at Z j)),
    fun j => Cons.best l.at hl Z hZ j, fun C hC => ?_⟩
  have a1 : ∀ᵐ ω ∂P, ∀ a a', Tendsto (fun n : ℕ => (∑ s : Fin n, gauss l.at (X s ω) (Z a) * gauss l.at (X s ω) (Z a')) / n)
      atTop (𝓝 (Cons.G (P.map (X 0)) l.at Z a a')) :=
    ae_all_iff.2 fun a => ae_all_iff.2 fun a' =>
      Cons.averages (φ := fun x => gauss l.at x (Z a) * gauss l.at x (Z a')) hX hind hid
        ((Cons.gauss_cont _ _).mul (Cons.gauss_cont _ _)) 1
        fun x => by
          rw [abs_mul]
          exact mul_le_one₀ (Cons.gauss_le _ _ _) (abs_nonneg _) (Cons.gauss_le _ _ _)
  have a2 : ∀ᵐ ω ∂P, ∀ j a, Tendsto (fun n : ℕ => gradSum l.at (fun (i : Fin n) => X i ω) Z j a / n) atTop
      (𝓝 (Cons.gv (P.map (X 0)) l.at Z j a)) :=
    ae_all_iff.2 fun j => ae_all_iff.2 fun a =>
      Cons.averages hX hind hid (Cons.pgauss_cont l.at (Z a) j) _ (Cons.pgauss_le l.at hl (Z a) j)
  filter_upwards [a1, a2] with ω h1 h2 ε hε
  refine eventually_all.2 fun j => ?_
  have t := Cons.coef_tendsto hC l.at Z j (fun n i => X i ω) _ _ (Cons.G_det (μ := P.map (X 0)) l.at hl Z hZ) h1 (h2 j)
  filter_upwards [Cons.comb_uniform l.at Z t hε] with n hn
  refine ⟨⟨_, scoreSep_real hC _ Z l _ j (which_dim_ok j), fun i => hn _⟩,
    fun q x => ⟨_, scoreSepFn_real hC _ Z l _ j (which_dim_ok j) x, fun i => hn _⟩⟩

/-- **C85** (all dimensions, torch). The same for the numpy estimator for all dimensions at once and for the torch estimator
(whatever its argument `C`), with the same limit. -/
theorem C85_consistency_all {Ω : Type} [MeasurableSpace Ω] (P : Measure Ω) [IsProbabilityMeasure P]
    (X : ℕ → Ω → Fin d → ℝ)
    (hX : ∀ i, Measurable (X i)) (hind : Pairwise fun i i' => IndepFun (X i) (X i') P)
    (hid : ∀ i, P.map (X i) = P.map (X 0)) (hopen : ∀ U, IsOpen U → U.Nonempty → P (X 0 ⁻¹' U) ≠ 0)
    (Z : Fin M → Fin d → ℝ) (hZ : Function.Injective Z) (l : Fin d → ℝ) (hl : ∀ k, l k ≠ 0) :
    ∃ c : Fin d → Fin M → ℝ, (∀ j, BestMatch (P.map (X 0)) l Z j (c j)) ∧
      ∀ C : ℝ, -1/1000 < C → ∀ kern, ∀ᵐ ω ∂P, ∀ ε > 0, ∀ᶠ n in atTop,
        (∃ r, scoreAll (fun (i : Fin n) => X i ω) Z C "RBF" (.vec l) = .ok r ∧
          ∀ i j, |r i j - comb l Z (c j) (X i ω)| < ε) ∧
        (∃ r, torchScore (fun (i : Fin n) => X i ω) Z (.ndarray l) C kern = .ok r ∧
          ∀ i j, |r i j - comb l Z (c j) (X i ω)| < ε) := by
  obtain ⟨c, hb, h⟩ := C85_consistency P X hX hind hid hopen Z hZ (.vec l) hl
  refine ⟨c, hb, fun C hC kern => ?_⟩
  filter_upwards [h C hC, h (1/1000) (by norm_num)] with ω h1 h2 ε hε
  filter_upwards [h1 ε hε, h2 ε hε] with n k1 k2
  refine ⟨⟨_, scoreAll_real hC _ Z (.vec l), fun i j => ?_⟩, ⟨_, torchScore_real _ Z (.ndarray l) (.vec l) rfl C kern, fun i j => ?_⟩⟩
  · obtain ⟨r, hr, hlt⟩ := (k1 j).1
    rw [scoreSep_real hC _ Z (.vec l) _ j (which_dim_ok j)] at hr
    cases hr
    exact hlt i
  · obtain ⟨r, hr, hlt⟩ := (k2 j).1
    rw [scoreSep_real (by norm_num) _ Z (.vec l) _ j (which_dim_ok j)] at hr
    cases hr
    exact hlt i

/-- **C85** (what the limit is). If the law of the samples has a positive density `p` with integrable partial derivative and
square-integrable score, then the minimiser of the score-matching objective is the best mean-square approximation, among
the combinations of the kernels of the inducing points, of the true score `d log p / dx_j`. In particular, if the score is
such a combination, it is the limit. -/
theorem C85_best_approximation (μ : Measure (Fin d → ℝ)) (p : (Fin d → ℝ) → ℝ) (j : Fin d) (hp : HasDensity μ p j)
    (hsq : Integrable (fun x => (pderiv (fun y => Real.log (p y)) j x) ^ 2) μ)
    (Z : Fin M → Fin d → ℝ) (l : Fin d → ℝ) (hl : ∀ k, l k ≠ 0) (c : Fin M → ℝ) (hc : BestMatch μ l Z j c) :
    (∀ c', c' ≠ c → ∫ x, (comb l Z c x - pderiv (fun y => Real.log (p y)) j x) ^ 2 ∂μ
      < ∫ x, (comb l Z c' x - pderiv (fun y => Real.log (p y)) j x) ^ 2 ∂μ) ∧
    ∀ c', (∀ x, pderiv (fun y => Real.log (p y)) j x = comb l Z c' x) → c = c' := by
  have key := Cons.dist_eq μ p j hp hsq Z l hl
  have first : ∀ c', c' ≠ c → ∫ x, (comb l Z c x - pderiv (fun y => Real.log (p y)) j x) ^ 2 ∂μ
      < ∫ x, (comb l Z c' x - pderiv (fun y => Real.log (p y)) j x) ^ 2 ∂μ := by
    intro c' hne
    rw [key c, key c']
    linarith [hc c' hne]
  refine ⟨first, fun c' h => ?_⟩
  by_contra hne
  have := first c' (Ne.symm hne)
  simp only [h, sub_self] at this
  have h0 : 0 ≤ ∫ x, (comb l Z c x - comb l Z c' x) ^ 2 ∂μ := integral_nonneg fun x => sq_nonneg _
  simp at this
  linarith

/-! ### Examples -/

/-- Moments of a Gaussian density are integrable. -/
theorem gauss_moment_integrable (l : Fin d → ℝ) (hl : ∀ k, l k ≠ 0) (j : Fin d) (n : ℕ) :
    Integrable fun x : Fin d → ℝ => x j ^ n * gauss l x 0 := by
  have h1 : ∀ k : Fin d, Integrable (fun t : ℝ => (if k = j then t ^ n else 1) * Real.exp (-(1 / (2 * l k ^ 2)) * t ^ 2)) := by
    intro k
    have hb : 0 < 1 / (2 * l k ^ 2) := by have := hl k; positivity
    split
    · have := integrable_rpow_mul_exp_neg_mul_sq hb (s := n) (by have : (0:ℝ) ≤ n := Nat.cast_nonneg n; linarith)
      simpa using this
    · simpa using integrable_exp_neg_mul_sq hb
  have h2 := Integrable.fintype_prod (f := fun k (t : ℝ) => (if k = j then t ^ n else 1) *
    Real.exp (-(1 / (2 * l k ^ 2)) * t ^ 2)) h1
  refine h2.congr (Eventually.of_forall fun x => ?_)
  simp only [Finset.prod_mul_distrib]
  congr 1
  · simp
  · rw [← Real.exp_sum, gauss, ← Finset.sum_neg_distrib]
    congr 1
    refine Finset.sum_congr rfl fun k _ => ?_
    simp only [Pi.zero_apply, sub_zero]
    ring

/-- C85: an (unnormalised) Gaussian law satisfies the hypotheses of `C85_best_approximation`. -/
example (l : Fin d → ℝ) (hl : ∀ k, l k ≠ 0) (j : Fin d) :
    HasDensity (volume.withDensity fun x => ENNReal.ofReal (gauss l x 0)) (fun x => gauss l x 0) j ∧
    Integrable (fun x => (pderiv (fun y => Real.log (gauss l y 0)) j x) ^ 2)
      (volume.withDensity fun x => ENNReal.ofReal (gauss l x 0)) := by
  have hd : ∀ x : Fin d → ℝ, DifferentiableAt ℝ (fun s => gauss l (Function.update x j s) 0) (x j) :=
    fun x => (hasDerivAt_gauss l x 0 j (x j)).differentiableAt
  have hpos : ∀ x : Fin d → ℝ, 0 < gauss l x 0 := fun x => Real.exp_pos _
  have e : ∀ x, pderiv (fun y => gauss l y 0) j x = -(1 / l j ^ 2) * (x j ^ 1 * gauss l x 0) := fun x => by
    rw [pderiv_gauss]
    simp only [Pi.zero_apply]
    ring
  refine ⟨⟨hpos, by simpa using gauss_moment_integrable l hl j 0, hd, ?_, rfl⟩, ?_⟩
  · simp only [e]
    exact (gauss_moment_integrable l hl j 1).const_mul _
  · rw [integrable_withDensity_iff_integrable_smul₀' ((Cons.gauss_cont l 0).measurable.ennreal_ofReal.aemeasurable)
      (Eventually.of_forall fun x => ENNReal.ofReal_lt_top)]
    refine ((gauss_moment_integrable l hl j 2).const_mul ((1 / l j ^ 2) ^ 2)).congr (Eventually.of_forall fun x => ?_)
    have hx := (hpos x).ne'
    simp only [Cons.pderiv_log hpos hd, e, ENNReal.toReal_ofReal (hpos x).le, smul_eq_mul]
    field_simp

/-- C85: samples read off an infinite product of standard normals satisfy the hypotheses of `C85_consistency`. -/
example : ∃ (P : Measure (ℕ → Fin d → ℝ)) (_ : IsProbabilityMeasure P) (X : ℕ → (ℕ → Fin d → ℝ) → Fin d → ℝ),
    (∀ i, Measurable (X i)) ∧ (Pairwise fun i i' => IndepFun (X i) (X i') P) ∧ (∀ i, P.map (X i) = P.map (X 0)) ∧
    ∀ U, IsOpen U → U.Nonempty → P (X 0 ⁻¹' U) ≠ 0 := by
  have : (gaussianReal 0 1).IsOpenPosMeasure :=
    (gaussianReal_absolutelyContinuous' 0 one_ne_zero).isOpenPosMeasure
  refine ⟨Measure.infinitePi fun _ => Measure.pi fun _ => gaussianReal 0 1, inferInstance, fun i ω => ω i,
    fun i => measurable_pi_apply i, fun i i' h => ?_, fun i => ?_, fun U hU hne => ?_⟩
  · exact (iIndepFun_infinitePi (X := fun _ x => x) fun _ => measurable_id).indepFun h
  · rw [Measure.infinitePi_map_eval, Measure.infinitePi_map_eval]
  · rw [← Measure.map_apply (measurable_pi_apply 0) hU.measurableSet, Measure.infinitePi_map_eval]
    exact hU.measure_ne_zero _ hne

end DPFC
