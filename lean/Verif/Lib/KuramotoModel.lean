import Verif.Lib.KuramotoReal
import Mathlib.Analysis.SpecialFunctions.Trigonometric.Deriv

/-! Trigonometric lemmas about the order parameter and the Kuramoto vector field. -/

namespace DPFC
open Spec

variable {N M d : ℕ}

theorem expSum (x : Fin d → ℝ) : (∑ j, Complex.exp (x j * Complex.I))
    = ((∑ j, Real.cos (x j) : ℝ) : ℂ) + ((∑ j, Real.sin (x j) : ℝ) : ℂ) * Complex.I := by
  simp only [Complex.exp_mul_I, Finset.sum_add_distrib, ← Finset.sum_mul]
  push_cast
  rfl

theorem orderR_eq (x : Fin d → ℝ) :
    orderR x = Real.sqrt ((∑ j, Real.cos (x j))^2 + (∑ j, Real.sin (x j))^2) / d := by
  unfold orderR
  rw [expSum, norm_div, Complex.norm_add_mul_I, Complex.norm_natCast]

theorem orderParam_real (x : Fin d → ℝ) : orderParam x = orderR x := by
  rw [orderR_eq]
  unfold orderParam
  simp only [real_sqrt, real_sq, real_sum]
  simp
  ring_nf

theorem orderR_nonneg (x : Fin d → ℝ) : 0 ≤ orderR x := norm_nonneg _

/-- `d^2 R^2` is the sum of the cosines of all phase differences. -/
theorem orderR_sq (hd : 0 < d) (x : Fin d → ℝ) : (d * orderR x)^2 = ∑ i, ∑ j, Real.cos (x i - x j) := by
  have hd' : (d : ℝ) ≠ 0 := by positivity
  rw [orderR_eq, mul_div_cancel₀ _ hd', Real.sq_sqrt (by positivity)]
  rw [pow_two, pow_two, Finset.sum_mul_sum, Finset.sum_mul_sum, ← Finset.sum_add_distrib]
  refine Finset.sum_congr rfl fun i _ => ?_
  rw [← Finset.sum_add_distrib]
  refine Finset.sum_congr rfl fun j _ => ?_
  rw [Real.cos_sub]

theorem orderR_le_one (x : Fin d → ℝ) : orderR x ≤ 1 := by
  unfold orderR
  rw [norm_div, Complex.norm_natCast]
  refine div_le_one_of_le₀ ?_ (Nat.cast_nonneg _)
  calc _ ≤ ∑ j, ‖Complex.exp (x j * Complex.I)‖ := norm_sum_le _ _
    _ = d := by simp [Complex.norm_exp_ofReal_mul_I]

theorem sameAngle_iff_cos (x y : ℝ) : SameAngle x y ↔ Real.cos (y - x) = 1 := by
  rw [Real.cos_eq_one_iff]
  constructor
  · rintro ⟨m, rfl⟩; exact ⟨m, by ring⟩
  · rintro ⟨m, h⟩; exact ⟨m, by linarith⟩

theorem orderR_eq_one_iff (hd : 0 < d) (x : Fin d → ℝ) : orderR x = 1 ↔ ∀ i j, SameAngle (x i) (x j) := by
  have hs := orderR_sq hd x
  have hc : ∑ i : Fin d, ∑ j : Fin d, (1 - Real.cos (x i - x j)) = (d:ℝ)^2 - (d * orderR x)^2 := by
    rw [hs]
    simp only [Finset.sum_sub_distrib]
    simp
    ring
  constructor
  · intro h i j
    rw [h, mul_one, sub_self, Finset.sum_eq_zero_iff_of_nonneg
      (fun i _ => Finset.sum_nonneg fun j _ => sub_nonneg.2 (Real.cos_le_one _))] at hc
    have := (Finset.sum_eq_zero_iff_of_nonneg (fun j _ => sub_nonneg.2 (Real.cos_le_one _))).1
      (hc j (Finset.mem_univ _)) i (Finset.mem_univ _)
    rw [sameAngle_iff_cos]
    linarith
  · intro h
    have h0 : ∑ i : Fin d, ∑ j : Fin d, (1 - Real.cos (x i - x j)) = 0 :=
      Finset.sum_eq_zero fun i _ => Finset.sum_eq_zero fun j _ => by
        rw [(sameAngle_iff_cos _ _).1 (h j i), sub_self]
    rw [h0] at hc
    have hd' : (0:ℝ) < d := by positivity
    have : (d:ℝ)^2 * (1 - orderR x) * (1 + orderR x) = 0 := by linarith [hc]
    have h1 : 0 < 1 + orderR x := by linarith [orderR_nonneg x]
    have h2 : (d:ℝ)^2 * (1 - orderR x) = 0 := (mul_eq_zero.1 this).resolve_right h1.ne'
    have h3 : 1 - orderR x = 0 := (mul_eq_zero.1 h2).resolve_left (by positivity)
    linarith

theorem exp_sameAngle {x y : ℝ} (h : SameAngle x y) :
    Complex.exp (y * Complex.I) = Complex.exp (x * Complex.I) := by
  obtain ⟨m, rfl⟩ := h
  rw [Complex.exp_eq_exp_iff_exists_int]
  exact ⟨m, by push_cast; ring⟩

theorem orderR_congr {x y : Fin d → ℝ} (h : ∀ j, SameAngle (x j) (y j)) : orderR y = orderR x := by
  unfold orderR
  congr 2
  exact Finset.sum_congr rfl fun j _ => exp_sameAngle (h j)

theorem orderR_rotate (x : Fin d → ℝ) (θ : ℝ) : orderR (fun j => x j + θ) = orderR x := by
  unfold orderR
  have : ∀ j, Complex.exp (((x j + θ : ℝ) : ℂ) * Complex.I)
      = Complex.exp (x j * Complex.I) * Complex.exp (θ * Complex.I) := by
    intro j
    rw [← Complex.exp_add]; push_cast; congr 1; ring
  simp only [this, ← Finset.sum_mul]
  rw [mul_div_right_comm, norm_mul, Complex.norm_exp_ofReal_mul_I, mul_one]

theorem orderR_perm (x : Fin d → ℝ) (σ : Equiv.Perm (Fin d)) : orderR (fun j => x (σ j)) = orderR x := by
  unfold orderR
  congr 2
  exact Equiv.sum_comp σ fun j => Complex.exp (x j * Complex.I)

theorem kuraDrift_real (w : Fin d → ℝ) (κ : ℝ) (x : Fin d → ℝ) : kuraDrift w κ x = kuramoto w κ x := by
  funext j
  unfold kuraDrift kuramoto
  simp only [real_sum, real_sin, ← Real.sin_neg, neg_sub]
  simp

theorem sin_sameAngle {x y : ℝ} (h : SameAngle x y) : Real.sin y = Real.sin x := by
  obtain ⟨m, rfl⟩ := h
  rw [mul_comm]; exact Real.sin_add_int_mul_two_pi x m

theorem kuramoto_congr (w : Fin d → ℝ) (κ : ℝ) {x y : Fin d → ℝ} (h : ∀ j, SameAngle (x j) (y j)) :
    kuramoto w κ y = kuramoto w κ x := by
  funext j
  unfold kuramoto
  congr 2
  refine Finset.sum_congr rfl fun i _ => sin_sameAngle ?_
  obtain ⟨m, hm⟩ := h i
  obtain ⟨l, hl⟩ := h j
  exact ⟨m - l, by rw [hm, hl]; push_cast; ring⟩

/-- The coupling of an oscillator is the sine of its distance to the mean phase, times the order parameter. -/
theorem kuramoto_meanfield (hd : 0 < d) (x : Fin d → ℝ) : ∃ ψ : ℝ, ∀ j, (∑ i, Real.sin (x i - x j))
    = d * orderR x * Real.sin (ψ - x j) := by
  have hd' : (d : ℝ) ≠ 0 := by positivity
  refine ⟨Complex.arg (∑ i, Complex.exp (x i * Complex.I)), fun j => ?_⟩
  have e : ‖∑ i, Complex.exp (x i * Complex.I)‖ = d * orderR x := by
    unfold orderR
    rw [norm_div, Complex.norm_natCast, mul_div_cancel₀ _ hd']
  set S := ∑ i, Complex.exp (x i * Complex.I) with hS
  have hre : S.re = ∑ i, Real.cos (x i) := by
    rw [hS, expSum]; simp only [Complex.add_re, Complex.ofReal_re, Complex.re_ofReal_mul, Complex.I_re, mul_zero, add_zero]
  have him : S.im = ∑ i, Real.sin (x i) := by
    rw [hS, expSum]; simp only [Complex.add_im, Complex.ofReal_im, Complex.im_ofReal_mul, Complex.I_im, mul_one, zero_add]
  have h1 : ‖S‖ * Real.cos (Complex.arg S) = S.re := Complex.norm_mul_cos_arg S
  have h2 : ‖S‖ * Real.sin (Complex.arg S) = S.im := Complex.norm_mul_sin_arg S
  rw [← e, Real.sin_sub, mul_sub, ← mul_assoc, ← mul_assoc, h1, h2, hre, him, Finset.sum_mul, Finset.sum_mul,
    ← Finset.sum_sub_distrib]
  exact Finset.sum_congr rfl fun i _ => Real.sin_sub _ _

theorem kuramoto_sum (w : Fin d → ℝ) (κ : ℝ) (x : Fin d → ℝ) : ∑ j, kuramoto w κ x j = ∑ j, w j := by
  unfold kuramoto
  rw [Finset.sum_add_distrib, ← Finset.mul_sum]
  have : ∑ j : Fin d, ∑ i : Fin d, Real.sin (x i - x j) = 0 := by
    have h : ∑ j : Fin d, ∑ i : Fin d, Real.sin (x i - x j) = -∑ j : Fin d, ∑ i : Fin d, Real.sin (x i - x j) := by
      conv_lhs => rw [Finset.sum_comm]
      rw [← Finset.sum_neg_distrib]
      refine Finset.sum_congr rfl fun j _ => ?_
      rw [← Finset.sum_neg_distrib]
      refine Finset.sum_congr rfl fun i _ => ?_
      rw [← Real.sin_neg, neg_sub]
    linarith
  rw [this, mul_zero, add_zero]

theorem kuramoto_deriv (hd : 0 < d) (κ : ℝ) (x : Fin d → ℝ) (j : Fin d) :
    HasDerivAt (fun s => κ * d / 2 * orderR (Function.update x j s)^2) (κ / d * ∑ i, Real.sin (x i - x j)) (x j) := by
  have hd' : (d : ℝ) ≠ 0 := by positivity
  have e : (fun s => κ * d / 2 * orderR (Function.update x j s)^2)
      = fun s => κ / (2 * d) * ∑ i, ∑ l, Real.cos (Function.update x j s i - Function.update x j s l) := by
    funext s
    rw [← orderR_sq hd]
    field_simp
  rw [e]
  have hu : ∀ i, HasDerivAt (fun s => Function.update x j s i) (if i = j then 1 else 0) (x j) := by
    intro i
    by_cases h : i = j
    · subst h
      simpa using hasDerivAt_id' (x i)
    · simp only [Function.update_of_ne h, if_neg h]
      exact hasDerivAt_const _ _
  have h1 : HasDerivAt (fun s => κ / (2 * d) * ∑ i, ∑ l, Real.cos (Function.update x j s i - Function.update x j s l))
      (κ / (2 * d) * ∑ i, ∑ l, -Real.sin (Function.update x j (x j) i - Function.update x j (x j) l)
        * ((if i = j then 1 else 0) - (if l = j then 1 else 0))) (x j) := by
    refine HasDerivAt.const_mul _ (HasDerivAt.fun_sum fun i _ => HasDerivAt.fun_sum fun l _ => ?_)
    exact HasDerivAt.cos (HasDerivAt.fun_sub (hu i) (hu l))
  convert h1 using 1
  simp only [Function.update_eq_self]
  have h2 : ∑ i, ∑ l, -Real.sin (x i - x l) * ((if i = j then (1:ℝ) else 0) - (if l = j then 1 else 0))
      = 2 * ∑ i, Real.sin (x i - x j) := by
    simp only [mul_sub, Finset.sum_sub_distrib, mul_ite, mul_one, mul_zero, Finset.sum_ite_eq', Finset.mem_univ, if_true]
    rw [Finset.sum_comm]
    simp only [Finset.sum_ite_eq', Finset.mem_univ, if_true, ← Real.sin_neg, neg_sub]
    have : ∑ l, Real.sin (x j - x l) = -∑ l, Real.sin (x l - x j) := by
      rw [← Finset.sum_neg_distrib]
      exact Finset.sum_congr rfl fun l _ => by rw [← Real.sin_neg, neg_sub]
    rw [this]
    ring
  rw [h2]
  field_simp

end DPFC
