import Verif.Spec.Consistency
import Verif.Lib.ScoreReal
import Verif.Lib.ScoreLaws
import Mathlib.Probability.StrongLaw
import Mathlib.Analysis.Calculus.LineDeriv.IntegrationByParts
import Mathlib.Topology.Instances.Matrix
import Mathlib.MeasureTheory.Measure.OpenPos

/-! # Convergence of the score estimate for many samples: lemmas -/

namespace DPFC.Cons
open Spec MeasureTheory ProbabilityTheory Filter Topology

variable {d m : ℕ}

theorem gauss_cont (l z : Fin d → ℝ) : Continuous fun x => gauss l x z := by
  unfold gauss
  fun_prop

theorem gauss_le (l x z : Fin d → ℝ) : |gauss l x z| ≤ 1 := by
  unfold gauss
  rw [abs_of_pos (Real.exp_pos _), Real.exp_le_one_iff, neg_nonpos]
  exact Finset.sum_nonneg fun k _ => by positivity

theorem pgauss_cont (l z : Fin d → ℝ) (j : Fin d) : Continuous fun x => pderiv (fun y => gauss l y z) j x := by
  have : (fun x => pderiv (fun y => gauss l y z) j x) = fun x => -(x j - z j) / l j ^ 2 * gauss l x z := by
    funext x
    rw [pderiv_gauss]
  rw [this]
  have := gauss_cont l z
  fun_prop

theorem pgauss_le (l : Fin d → ℝ) (hl : ∀ k, l k ≠ 0) (z : Fin d → ℝ) (j : Fin d) (x : Fin d → ℝ) :
    |pderiv (fun y => gauss l y z) j x| ≤ 1 / |l j| := by
  have := gradSum_bound l hl (fun _ : Fin 1 => x) (fun _ : Fin 1 => z) j 0
  simpa [gradSum] using this

theorem int_bdd {μ : Measure (Fin d → ℝ)} [IsFiniteMeasure μ] {f : (Fin d → ℝ) → ℝ} (hf : Continuous f) (B : ℝ)
    (hB : ∀ x, |f x| ≤ B) : Integrable f μ :=
  Integrable.of_bound hf.aestronglyMeasurable B (Eventually.of_forall hB)

theorem comb_cont (l : Fin d → ℝ) (Z : Fin m → Fin d → ℝ) (c : Fin m → ℝ) : Continuous (comb l Z c) := by
  unfold comb
  exact continuous_finsetSum _ fun i _ => continuous_const.mul (gauss_cont l (Z i))

theorem pcomb (l : Fin d → ℝ) (Z : Fin m → Fin d → ℝ) (c : Fin m → ℝ) (j : Fin d) (x : Fin d → ℝ) :
    pderiv (comb l Z c) j x = ∑ i, c i * pderiv (fun y => gauss l y (Z i)) j x := by
  simp only [pderiv, comb]
  rw [deriv_fun_sum]
  · refine Finset.sum_congr rfl fun i _ => ?_
    rw [deriv_const_mul]
    exact (hasDerivAt_gauss l x (Z i) j (x j)).differentiableAt
  · intro i _
    exact ((hasDerivAt_gauss l x (Z i) j (x j)).differentiableAt).const_mul _

/-- `E[k(X, z_a) k(X, z_b)]`. -/
noncomputable def G (μ : Measure (Fin d → ℝ)) (l : Fin d → ℝ) (Z : Fin m → Fin d → ℝ) : Matrix (Fin m) (Fin m) ℝ :=
  Matrix.of fun a b => ∫ x, gauss l x (Z a) * gauss l x (Z b) ∂μ

/-- `E[dk(X, z_a)/dx_j]`. -/
noncomputable def gv (μ : Measure (Fin d → ℝ)) (l : Fin d → ℝ) (Z : Fin m → Fin d → ℝ) (j : Fin d) : Fin m → ℝ :=
  fun a => ∫ x, pderiv (fun y => gauss l y (Z a)) j x ∂μ

section
variable {μ : Measure (Fin d → ℝ)} [IsFiniteMeasure μ] (l : Fin d → ℝ) (Z : Fin m → Fin d → ℝ)

theorem int_gg (a b : Fin m) : Integrable (fun x => gauss l x (Z a) * gauss l x (Z b)) μ :=
  int_bdd ((gauss_cont l (Z a)).mul (gauss_cont l (Z b))) 1 fun x => by
    rw [abs_mul]
    exact mul_le_one₀ (gauss_le _ _ _) (abs_nonneg _) (gauss_le _ _ _)

theorem int_pg (hl : ∀ k, l k ≠ 0) (j : Fin d) (a : Fin m) :
    Integrable (fun x => pderiv (fun y => gauss l y (Z a)) j x) μ :=
  int_bdd (pgauss_cont l (Z a) j) _ fun x => pgauss_le l hl (Z a) j x

theorem comb_sq (c : Fin m → ℝ) (x : Fin d → ℝ) :
    comb l Z c x ^ 2 = ∑ a, ∑ b, c a * c b * (gauss l x (Z a) * gauss l x (Z b)) := by
  rw [comb, pow_two, Finset.sum_mul_sum]
  exact Finset.sum_congr rfl fun a _ => Finset.sum_congr rfl fun b _ => by ring

theorem int_sq (c : Fin m → ℝ) : Integrable (fun x => comb l Z c x ^ 2) μ := by
  simp only [comb_sq]
  exact integrable_finsetSum _ fun a _ => integrable_finsetSum _ fun b _ => (int_gg l Z a b).const_mul _

theorem integral_sq (c : Fin m → ℝ) : ∫ x, comb l Z c x ^ 2 ∂μ = dotProduct c ((G μ l Z).mulVec c) := by
  simp only [comb_sq]
  rw [integral_finsetSum _ fun a _ => integrable_finsetSum _ fun b _ => (int_gg l Z a b).const_mul _]
  simp only [dotProduct, Matrix.mulVec, G, Matrix.of_apply, Finset.mul_sum]
  refine Finset.sum_congr rfl fun a _ => ?_
  rw [integral_finsetSum _ fun b _ => (int_gg l Z a b).const_mul _]
  refine Finset.sum_congr rfl fun b _ => ?_
  rw [integral_const_mul]
  ring

theorem int_pcomb (hl : ∀ k, l k ≠ 0) (j : Fin d) (c : Fin m → ℝ) : Integrable (fun x => pderiv (comb l Z c) j x) μ := by
  simp only [pcomb]
  exact integrable_finsetSum _ fun a _ => (int_pg l Z hl j a).const_mul _

theorem integral_pcomb (hl : ∀ k, l k ≠ 0) (j : Fin d) (c : Fin m → ℝ) :
    ∫ x, pderiv (comb l Z c) j x ∂μ = dotProduct c (gv μ l Z j) := by
  simp only [pcomb]
  rw [integral_finsetSum _ fun a _ => (int_pg l Z hl j a).const_mul _]
  simp only [dotProduct, gv]
  exact Finset.sum_congr rfl fun a _ => integral_const_mul _ _

theorem matching_eq (hl : ∀ k, l k ≠ 0) (j : Fin d) (c : Fin m → ℝ) :
    matching μ j (comb l Z c) = dotProduct c ((G μ l Z).mulVec c) + 2 * dotProduct c (gv μ l Z j) := by
  rw [matching, integral_add (int_sq l Z c) ((int_pcomb l Z hl j c).const_mul 2), integral_sq, integral_const_mul,
    integral_pcomb l Z hl]

theorem G_symm (a b : Fin m) : G μ l Z a b = G μ l Z b a := by
  simp only [G, Matrix.of_apply]
  congr 1
  funext x
  ring

end

/-- The Gaussians around distinct points are linearly independent. -/
theorem gauss_indep (l : Fin d → ℝ) (hl : ∀ k, l k ≠ 0) (Z : Fin m → Fin d → ℝ) (hZ : Function.Injective Z)
    (c : Fin m → ℝ) (h : ∀ x, comb l Z c x = 0) : c = 0 := by
  -- characters `x ↦ exp (sum x_k z_k / l_k^2)`
  let χ : Fin m → (Multiplicative (Fin d → ℝ) →* ℝ) := fun i =>
    { toFun := fun x => Real.exp (∑ k, x.toAdd k * Z i k / l k ^ 2)
      map_one' := by simp
      map_mul' := fun x y => by
        rw [← Real.exp_add, ← Finset.sum_add_distrib]
        congr 1
        refine Finset.sum_congr rfl fun k _ => ?_
        simp only [toAdd_mul, Pi.add_apply]
        ring }
  have hχ : Function.Injective χ := by
    intro i i' e
    apply hZ
    funext k
    have := DFunLike.congr_fun e (Multiplicative.ofAdd (Pi.single k 1))
    simp only [χ, MonoidHom.coe_mk, OneHom.coe_mk, toAdd_ofAdd, Real.exp_eq_exp] at this
    rw [Finset.sum_eq_single k (fun b _ hb => by simp [Pi.single_eq_of_ne hb]) (by simp),
      Finset.sum_eq_single k (fun b _ hb => by simp [Pi.single_eq_of_ne hb]) (by simp)] at this
    simp only [Pi.single_eq_same, one_mul] at this
    have hk := hl k
    field_simp at this
    exact this
  have li := (linearIndependent_monoidHom (Multiplicative (Fin d → ℝ)) ℝ).comp χ hχ
  have e : ∀ x z : Fin d → ℝ, gauss l x z = Real.exp (-∑ k, x k ^ 2 / (2 * l k ^ 2)) *
      (Real.exp (-∑ k, z k ^ 2 / (2 * l k ^ 2)) * Real.exp (∑ k, x k * z k / l k ^ 2)) := by
    intro x z
    rw [gauss, ← Real.exp_add, ← Real.exp_add]
    congr 1
    rw [← Finset.sum_neg_distrib, ← Finset.sum_neg_distrib, ← Finset.sum_neg_distrib, ← Finset.sum_add_distrib,
      ← Finset.sum_add_distrib]
    refine Finset.sum_congr rfl fun k _ => ?_
    have hk := hl k
    field_simp
    ring
  have key : ∑ i, (c i * Real.exp (-∑ k, Z i k ^ 2 / (2 * l k ^ 2))) • (⇑(χ i) : Multiplicative (Fin d → ℝ) → ℝ) = 0 := by
    funext x
    have hx := h x.toAdd
    rw [comb] at hx
    simp only [e] at hx
    have : Real.exp (-∑ k, x.toAdd k ^ 2 / (2 * l k ^ 2)) * ∑ i, c i *
        (Real.exp (-∑ k, Z i k ^ 2 / (2 * l k ^ 2)) * Real.exp (∑ k, x.toAdd k * Z i k / l k ^ 2)) = 0 := by
      rw [← hx, Finset.mul_sum]
      exact Finset.sum_congr rfl fun i _ => by ring
    rcases mul_eq_zero.1 this with h0 | h0
    · exact absurd h0 (Real.exp_pos _).ne'
    · rw [Finset.sum_apply, Pi.zero_apply, ← h0]
      refine Finset.sum_congr rfl fun i _ => ?_
      simp only [Pi.smul_apply, smul_eq_mul, χ, MonoidHom.coe_mk, OneHom.coe_mk]
      ring
  funext i
  have := (Fintype.linearIndependent_iff.1 li) _ key i
  exact (mul_eq_zero.1 this).resolve_right (Real.exp_pos _).ne'

section
variable {μ : Measure (Fin d → ℝ)} [IsFiniteMeasure μ] [μ.IsOpenPosMeasure]

theorem G_pos (l : Fin d → ℝ) (hl : ∀ k, l k ≠ 0) (Z : Fin m → Fin d → ℝ) (hZ : Function.Injective Z) (c : Fin m → ℝ)
    (hc : c ≠ 0) : 0 < dotProduct c ((G μ l Z).mulVec c) := by
  rw [← integral_sq]
  refine lt_of_le_of_ne (integral_nonneg fun x => sq_nonneg _) fun h => hc ?_
  have h0 := (integral_eq_zero_iff_of_nonneg (fun x => sq_nonneg _) (int_sq l Z c)).1 h.symm
  have h1 : (fun x => comb l Z c x ^ 2) = fun _ => 0 :=
    Continuous.ae_eq_iff_eq μ ((comb_cont l Z c).pow 2) continuous_const |>.1 h0
  exact gauss_indep l hl Z hZ c fun x => by simpa using congrFun h1 x

theorem G_det (l : Fin d → ℝ) (hl : ∀ k, l k ≠ 0) (Z : Fin m → Fin d → ℝ) (hZ : Function.Injective Z) :
    (G μ l Z).det ≠ 0 := by
  intro h
  obtain ⟨v, hv, e⟩ := Matrix.exists_mulVec_eq_zero_iff.2 h
  have := G_pos (μ := μ) l hl Z hZ v hv
  rw [e] at this
  simp at this

theorem best (l : Fin d → ℝ) (hl : ∀ k, l k ≠ 0) (Z : Fin m → Fin d → ℝ) (hZ : Function.Injective Z) (j : Fin d) :
    BestMatch μ l Z j (-((G μ l Z)⁻¹.mulVec (gv μ l Z j))) := by
  set A := G μ l Z with hA
  set b := gv μ l Z j
  set c := -(A⁻¹.mulVec b) with hc
  have hdet : IsUnit A.det := (G_det l hl Z hZ).isUnit
  have hAc : A.mulVec c = -b := by
    rw [hc, Matrix.mulVec_neg, Matrix.mulVec_mulVec, Matrix.mul_nonsing_inv _ hdet, Matrix.one_mulVec]
  intro c' hne
  rw [matching_eq l Z hl, matching_eq l Z hl]
  have hp := G_pos (μ := μ) l hl Z hZ (c' - c) (sub_ne_zero.2 hne)
  rw [← hA] at hp ⊢
  have hsym : ∀ u v : Fin m → ℝ, dotProduct u (A.mulVec v) = dotProduct v (A.mulVec u) := by
    intro u v
    simp only [dotProduct, Matrix.mulVec, Finset.mul_sum]
    rw [Finset.sum_comm]
    refine Finset.sum_congr rfl fun i _ => Finset.sum_congr rfl fun i' _ => ?_
    rw [hA, G_symm l Z i' i]
    ring
  have e1 : dotProduct (c' - c) (A.mulVec (c' - c))
      = dotProduct c' (A.mulVec c') - 2 * dotProduct c' (A.mulVec c) + dotProduct c (A.mulVec c) := by
    rw [Matrix.mulVec_sub, sub_dotProduct, dotProduct_sub, dotProduct_sub, hsym c c']
    ring
  rw [e1] at hp
  rw [hAc] at hp ⊢
  simp only [dotProduct_neg] at hp ⊢
  linarith

end

/-! ### Convergence -/

theorem coef_tendsto {C : ℝ} (hC : -1/1000 < C) (l : Fin d → ℝ) (Z : Fin m → Fin d → ℝ) (j : Fin d)
    (X : (n : ℕ) → Fin n → Fin d → ℝ) (A : Matrix (Fin m) (Fin m) ℝ) (b : Fin m → ℝ) (hA : A.det ≠ 0)
    (h1 : ∀ a a', Tendsto (fun n => (∑ s, gauss l (X n s) (Z a) * gauss l (X n s) (Z a')) / n) atTop (𝓝 (A a a')))
    (h2 : ∀ a, Tendsto (fun n => gradSum l (X n) Z j a / n) atTop (𝓝 (b a))) :
    Tendsto (fun n => coef C l (X n) Z j) atTop (𝓝 (-(A⁻¹.mulVec b))) := by
  have e : ∀ᶠ n : ℕ in atTop, coef C l (X n) Z j
      = -(((n:ℝ)⁻¹ • sysMat C l (X n) Z)⁻¹.mulVec ((n:ℝ)⁻¹ • gradSum l (X n) Z j)) := by
    filter_upwards [eventually_gt_atTop 0] with n hn
    have hn0 : ((n:ℝ)⁻¹) ≠ 0 := inv_ne_zero (Nat.cast_ne_zero.2 hn.ne')
    have : Invertible ((n:ℝ)⁻¹) := invertibleOfNonzero hn0
    rw [coef, Matrix.inv_smul _ _ (posDef_isUnit_det (sysMat_posDef hC l (X n) Z)), Matrix.smul_mulVec,
      Matrix.mulVec_smul, smul_smul, invOf_mul_self, one_smul]
  refine Tendsto.congr' (e.mono fun n h => h.symm) ?_
  have t1 : Tendsto (fun n : ℕ => (n:ℝ)⁻¹ • sysMat C l (X n) Z) atTop (𝓝 A) := by
    refine tendsto_pi_nhds.2 fun a => tendsto_pi_nhds.2 fun a' => ?_
    have hinv : Tendsto (fun n : ℕ => ((n:ℝ))⁻¹) atTop (𝓝 0) := tendsto_inv_atTop_nhds_zero_nat
    have := (h1 a a').add (hinv.mul_const (((C + 1/1000) • gramReg l Z) a a'))
    rw [zero_mul, add_zero] at this
    refine this.congr fun n => ?_
    simp only [sysMat, Matrix.smul_apply, Matrix.add_apply, Matrix.mul_apply, Matrix.transpose_apply, kmat,
      Matrix.of_apply, smul_eq_mul]
    ring
  have t2 : Tendsto (fun n : ℕ => (n:ℝ)⁻¹ • gradSum l (X n) Z j) atTop (𝓝 b) := by
    refine tendsto_pi_nhds.2 fun a => (h2 a).congr fun n => ?_
    simp only [Pi.smul_apply, smul_eq_mul]
    ring
  have hc : ContinuousAt Inv.inv A := continuousAt_matrix_inv A (by
    rw [Ring.inverse_eq_inv']
    exact continuousAt_inv₀ hA)
  have t3 := (hc.tendsto.comp t1)
  refine Tendsto.neg ?_
  refine tendsto_pi_nhds.2 fun a => ?_
  simp only [Matrix.mulVec, dotProduct]
  refine tendsto_finsetSum _ fun i _ => ?_
  exact ((tendsto_pi_nhds.1 (tendsto_pi_nhds.1 t3 a) i)).mul (tendsto_pi_nhds.1 t2 i)

/-- Convergence of the coefficients makes the combinations converge uniformly. -/
theorem comb_uniform (l : Fin d → ℝ) (Z : Fin m → Fin d → ℝ) {cn : ℕ → Fin m → ℝ} {c : Fin m → ℝ}
    (h : Tendsto cn atTop (𝓝 c)) {ε : ℝ} (hε : 0 < ε) :
    ∀ᶠ n in atTop, ∀ x, |comb l Z (cn n) x - comb l Z c x| < ε := by
  have h2 : Tendsto (fun n => ∑ i, |cn n i - c i|) atTop (𝓝 0) := by
    rw [show (0:ℝ) = ∑ i, |c i - c i| by simp]
    exact tendsto_finsetSum _ fun i _ => ((tendsto_pi_nhds.1 h i).sub_const _).abs
  filter_upwards [h2.eventually (gt_mem_nhds hε)] with n hn x
  refine lt_of_le_of_lt ?_ hn
  rw [comb, comb, ← Finset.sum_sub_distrib]
  refine (Finset.abs_sum_le_sum_abs _ _).trans (Finset.sum_le_sum fun i _ => ?_)
  rw [← sub_mul, abs_mul]
  exact mul_le_of_le_one_right (abs_nonneg _) (gauss_le _ _ _)

/-- The averages over the samples converge. -/
theorem averages {Ω : Type} [MeasurableSpace Ω] {P : Measure Ω} [IsProbabilityMeasure P] {X : ℕ → Ω → Fin d → ℝ}
    (hX : ∀ i, Measurable (X i)) (hind : Pairwise fun i i' => IndepFun (X i) (X i') P)
    (hid : ∀ i, P.map (X i) = P.map (X 0)) {φ : (Fin d → ℝ) → ℝ} (hφ : Continuous φ) (B : ℝ) (hB : ∀ x, |φ x| ≤ B) :
    ∀ᵐ ω ∂P, Tendsto (fun n : ℕ => (∑ s : Fin n, φ (X s ω)) / n) atTop (𝓝 (∫ x, φ x ∂(P.map (X 0)))) := by
  have hm : Measurable φ := hφ.measurable
  have h := strong_law_ae_real (μ := P) (fun i ω => φ (X i ω))
    (Integrable.of_bound (hm.comp (hX 0)).aestronglyMeasurable B (Eventually.of_forall fun ω => hB _))
    (fun i i' hne => (hind hne).comp hm hm)
    (fun i => ⟨(hm.comp (hX i)).aemeasurable, (hm.comp (hX 0)).aemeasurable, by
      rw [show (fun ω => φ (X i ω)) = φ ∘ X i from rfl, show (fun ω => φ (X 0 ω)) = φ ∘ X 0 from rfl,
        ← Measure.map_map hm (hX i), ← Measure.map_map hm (hX 0), hid i]⟩)
  filter_upwards [h] with ω hω
  rw [integral_map (hX 0).aemeasurable hφ.aestronglyMeasurable]
  refine hω.congr fun n => ?_
  rw [Finset.sum_range]

end DPFC.Cons

namespace DPFC.Cons
open Spec MeasureTheory ProbabilityTheory Filter Topology

variable {d m : ℕ}

theorem pderiv_log {p : (Fin d → ℝ) → ℝ} {j : Fin d} (hpos : ∀ x, 0 < p x)
    (hd : ∀ x, DifferentiableAt ℝ (fun s => p (Function.update x j s)) (x j)) (x : Fin d → ℝ) :
    pderiv (fun y => Real.log (p y)) j x = pderiv p j x / p x := by
  simp only [pderiv]
  rw [deriv.log (hd x) (hpos _).ne', Function.update_eq_self]

theorem update_line (x : Fin d → ℝ) (j : Fin d) (t : ℝ) : x + t • (Pi.single j (1:ℝ) : Fin d → ℝ) = Function.update x j (x j + t) := by
  funext k
  by_cases h : k = j
  · subst h; simp
  · simp [h]

theorem hasLineDeriv {f : (Fin d → ℝ) → ℝ} {x : Fin d → ℝ} {j : Fin d}
    (h : DifferentiableAt ℝ (fun s => f (Function.update x j s)) (x j)) :
    HasLineDerivAt ℝ f (pderiv f j x) x (Pi.single j 1) := by
  unfold HasLineDerivAt
  simp only [update_line]
  have h' : HasDerivAt (fun s => f (Function.update x j s)) (pderiv f j x) (x j + 0) := by
    rw [add_zero]
    exact h.hasDerivAt
  exact (h'.comp_const_add (x j) 0)

/-- Integration by parts against a density. -/
theorem by_parts {p : (Fin d → ℝ) → ℝ} {j : Fin d} (hi : Integrable p)
    (hd : ∀ x, DifferentiableAt ℝ (fun s => p (Function.update x j s)) (x j)) (hi' : Integrable fun x => pderiv p j x)
    (l : Fin d → ℝ) (hl : ∀ k, l k ≠ 0) (z : Fin d → ℝ) :
    ∫ x, p x * pderiv (fun y => gauss l y z) j x = -∫ x, pderiv p j x * gauss l x z := by
  have h := integral_bilinear_hasLineDerivAt_right_eq_neg_left_of_integrable (μ := (volume : Measure (Fin d → ℝ)))
    (f := p) (f' := fun x => pderiv p j x) (g := fun x => gauss l x z) (g' := fun x => pderiv (fun y => gauss l y z) j x)
    (v := Pi.single j 1) (B := ContinuousLinearMap.mul ℝ ℝ) ?_ ?_ ?_ (fun x _ => hasLineDeriv (hd x))
    (fun x _ => hasLineDeriv ((hasDerivAt_gauss l x z j (x j)).differentiableAt))
  · simpa using h
  · simp only [ContinuousLinearMap.mul_apply']
    exact hi'.mul_bdd (gauss_cont l z).aestronglyMeasurable (Eventually.of_forall fun x => gauss_le l x z)
  · simp only [ContinuousLinearMap.mul_apply']
    exact hi.mul_bdd (pgauss_cont l z j).aestronglyMeasurable (Eventually.of_forall fun x => pgauss_le l hl z j x)
  · simp only [ContinuousLinearMap.mul_apply']
    exact hi.mul_bdd (gauss_cont l z).aestronglyMeasurable (Eventually.of_forall fun x => gauss_le l x z)

theorem integral_density {μ : Measure (Fin d → ℝ)} {p : (Fin d → ℝ) → ℝ} {j : Fin d} (hp : HasDensity μ p j)
    (f : (Fin d → ℝ) → ℝ) : ∫ x, f x ∂μ = ∫ x, p x * f x := by
  rw [hp.law]
  rw [integral_withDensity_eq_integral_toReal_smul₀ hp.int.aemeasurable.ennreal_ofReal
    (Eventually.of_forall fun x => ENNReal.ofReal_lt_top)]
  congr 1
  funext x
  rw [ENNReal.toReal_ofReal (hp.pos x).le, smul_eq_mul]

theorem density_finite {μ : Measure (Fin d → ℝ)} {p : (Fin d → ℝ) → ℝ} {j : Fin d} (hp : HasDensity μ p j) :
    IsFiniteMeasure μ := by
  rw [hp.law]
  exact isFiniteMeasure_withDensity_ofReal hp.int.2

theorem dist_eq (μ : Measure (Fin d → ℝ)) (p : (Fin d → ℝ) → ℝ) (j : Fin d) (hp : HasDensity μ p j)
    (hsq : Integrable (fun x => (pderiv (fun y => Real.log (p y)) j x) ^ 2) μ)
    (Z : Fin m → Fin d → ℝ) (l : Fin d → ℝ) (hl : ∀ k, l k ≠ 0) (c : Fin m → ℝ) :
    ∫ x, (comb l Z c x - pderiv (fun y => Real.log (p y)) j x) ^ 2 ∂μ
      = matching μ j (comb l Z c) + ∫ x, (pderiv (fun y => Real.log (p y)) j x) ^ 2 ∂μ := by
  have := density_finite hp
  set ψ : (Fin d → ℝ) → ℝ := fun x => pderiv (fun y => Real.log (p y)) j x with hψ
  have eψ : ∀ x, ψ x = pderiv p j x / p x := pderiv_log hp.pos hp.diff
  have ci := int_sq (μ := μ) l Z c
  have mψ : AEStronglyMeasurable ψ μ := by
    have h1 : AEStronglyMeasurable ψ volume := by
      have : ψ = fun x => pderiv p j x / p x := funext eψ
      rw [this]
      exact (hp.int'.aestronglyMeasurable.aemeasurable.div hp.int.aestronglyMeasurable.aemeasurable).aestronglyMeasurable
    rw [hp.law]
    exact h1.mono_ac (withDensity_absolutelyContinuous _ _)
  have hcψ : Integrable (fun x => comb l Z c x * ψ x) μ := by
    have m1 : MemLp (comb l Z c) 2 μ := (memLp_two_iff_integrable_sq (comb_cont l Z c).aestronglyMeasurable).2 ci
    have m2 : MemLp ψ 2 μ := (memLp_two_iff_integrable_sq mψ).2 hsq
    exact m1.integrable_mul m2
  have ip : ∫ x, comb l Z c x * ψ x ∂μ = -∫ x, pderiv (comb l Z c) j x ∂μ := by
    rw [integral_density hp, integral_pcomb l Z hl]
    have : (fun x => p x * (comb l Z c x * ψ x)) = fun x => ∑ i, c i * (pderiv p j x * gauss l x (Z i)) := by
      funext x
      rw [eψ, comb, Finset.sum_mul, Finset.mul_sum]
      refine Finset.sum_congr rfl fun i _ => ?_
      have := (hp.pos x).ne'
      field_simp
    rw [this, integral_finsetSum]
    · simp only [integral_const_mul, dotProduct, gv]
      rw [← Finset.sum_neg_distrib]
      refine Finset.sum_congr rfl fun i _ => ?_
      rw [integral_density hp, by_parts hp.int hp.diff hp.int' l hl]
      ring
    · intro i _
      exact (hp.int'.mul_bdd (gauss_cont l (Z i)).aestronglyMeasurable
        (Eventually.of_forall fun x => gauss_le l x (Z i))).const_mul _
  have e : (fun x => (comb l Z c x - ψ x) ^ 2) = fun x => (comb l Z c x ^ 2 + (-2) * (comb l Z c x * ψ x)) + ψ x ^ 2 := by
    funext x; ring
  have hA : Integrable (fun x => comb l Z c x ^ 2 + (-2) * (comb l Z c x * ψ x)) μ := ci.add (hcψ.const_mul _)
  have hs : Integrable (fun x => ψ x ^ 2) μ := hsq
  rw [e, integral_add hA hs, integral_add ci (hcψ.const_mul _), integral_const_mul, ip, matching,
    integral_add ci ((int_pcomb l Z hl j c).const_mul 2), integral_const_mul]
  ring

end DPFC.Cons
