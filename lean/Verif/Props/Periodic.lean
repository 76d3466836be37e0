import Verif.Lib.Periodic
import Verif.Props.Score

/-!
# The periodic kernel (C58, C59)

`scoreSep X Z C "periodic" l which_dim` is the array output of the estimator with `kern='periodic'`,
`scoreSepFn ... x` its function output. `Spec.periodic`, `Spec.kernScore` and `Spec.wind` are in
`Verif.Spec.Periodic`. `Apart` excludes the case that a sample shares the selected coordinate with an
inducing point, where the program divides zero by zero (C60).
-/

set_option linter.unusedVariables false

namespace DPFC
open Matrix Spec

variable {N M d n : Nat}

theorem sepCommon_periodic (X : Mat N d ℝ) (Z : Mat M d ℝ) (l : LS d ℝ) (j : Fin d) :
    sepCommon X Z "periodic" l (j.val + 1)
      = (do let p ← scorePre (perK X Z l) (perK Z Z l); .ok (p, sumGrad (perGrad X Z j l))) := by
  simp only [sepCommon, String.reduceEq, if_false, if_true, which_dim_ok, Except.ok_bind',
    dif_pos j.2]

/-! ## C58 -/

private theorem perK_vec_wind (l : Fin d → ℝ) (p : Fin N → Fin d → ℤ) (q : Fin M → Fin d → ℤ)
    (X : Mat N d ℝ) (Z : Mat M d ℝ) : perK (wind p X) (wind q Z) (.vec l) = perK X Z (.vec l) := by
  funext i m; rw [perK_vec_real, perK_vec_real, periodic_wind]

private theorem perK_scalar_wind (l : ℝ) (p : Fin N → Fin 1 → ℤ) (q : Fin M → Fin 1 → ℤ)
    (X : Mat N 1 ℝ) (Z : Mat M 1 ℝ) : perK (wind p X) (wind q Z) (.scalar l) = perK X Z (.scalar l) := by
  funext i m; rw [perK_scalar_real, perK_scalar_real, periodic_wind]

private theorem perKsz_scalar (Z : Mat M d ℝ) (l : ℝ) (x : Mat n d ℝ) :
    perKsz Z (.scalar l) x = .ok (perK x Z (.scalar l)) := by
  simp only [perKsz, dif_pos]; rfl

/-- **C58.** With a vector lengthscale, moving every coordinate of every sample and of every inducing point
by its own integer multiple of `2π` does not change the array output (nor whether the call raises). -/
theorem C58_winding_vector (X : Mat N d ℝ) (Z : Mat M d ℝ) (C : ℝ) (l : Fin d → ℝ) (hl : ∀ k, l k ≠ 0)
    (j : Fin d) (p : Fin N → Fin d → ℤ) (q : Fin M → Fin d → ℤ) (h1 : Apart X Z j)
    (h2 : Apart (wind p X) (wind q Z) j) :
    scoreSep (wind p X) (wind q Z) C "periodic" (.vec l) (j.val + 1)
      = scoreSep X Z C "periodic" (.vec l) (j.val + 1) := by
  simp only [scoreSep, sepCommon_periodic, perK_vec_wind, perGrad_vec_wind l p q X Z j h1 h2]

/-- **C58.** In one dimension with a scalar lengthscale the same holds for the array output and for the
function output, whose query points may be moved as well. -/
theorem C58_winding_scalar_1d (X : Mat N 1 ℝ) (Z : Mat M 1 ℝ) (C l : ℝ) (hl : l ≠ 0)
    (p : Fin N → Fin 1 → ℤ) (q : Fin M → Fin 1 → ℤ) (h1 : Apart X Z 0)
    (h2 : Apart (wind p X) (wind q Z) 0) (x : Mat n 1 ℝ) (r : Fin n → Fin 1 → ℤ) :
    scoreSep (wind p X) (wind q Z) C "periodic" (.scalar l) 1
      = scoreSep X Z C "periodic" (.scalar l) 1 ∧
    scoreSepFn (wind p X) (wind q Z) C "periodic" (.scalar l) 1 (wind r x)
      = scoreSepFn X Z C "periodic" (.scalar l) 1 x := by
  have e : ((1 : Int)) = ((0 : Fin 1).val : Int) + 1 := rfl
  rw [e]
  constructor
  · simp only [scoreSep, sepCommon_periodic, perK_scalar_wind, perGrad_scalar_wind l p q X Z 0 h1 h2]
  · simp only [scoreSepFn, sepCommon_periodic, perK_scalar_wind, perGrad_scalar_wind l p q X Z 0 h1 h2,
      String.reduceEq, if_false, perKsz_scalar]

/-- With a scalar lengthscale (any dimension) the function output at the samples is the array output. -/
theorem C58_scalar_function_at_samples (X : Mat N d ℝ) (Z : Mat M d ℝ) (C l : ℝ) (j : Fin d) :
    scoreSepFn X Z C "periodic" (.scalar l) (j.val + 1) X
      = scoreSep X Z C "periodic" (.scalar l) (j.val + 1) := by
  simp only [scoreSepFn, scoreSep, sepCommon_periodic, String.reduceEq, if_false, perKsz_scalar,
    Except.ok_bind']
  cases hp : scorePre (perK X Z (.scalar l)) (perK Z Z (.scalar l)) with
  | error e => rfl
  | ok p =>
    simp only [Except.ok_bind', fnOut, directOut]
    have hk : p.Kxz = perK X Z (.scalar l) := by
      unfold scorePre at hp
      obtain ⟨s, _, h⟩ := Except.bind_ok.1 hp
      cases h; rfl
    rw [← hk]
    cases NumOps.inv (innerMat C p.Ksinv p.A) with
    | error e => rfl
    | ok I =>
      simp only [Except.ok_bind']
      congr 1
      funext i
      rw [real_mv, real_mv, of_out1, of_out2]

/-! ### One sample, one inducing point -/

theorem inv_one {A : Mat 1 1 ℝ} (h : A 0 0 ≠ 0) : NumOps.inv A = .ok fun _ _ => (A 0 0)⁻¹ := by
  have hd : (Matrix.of A).det = A 0 0 := Matrix.det_fin_one _
  rw [real_inv_ok (by rw [hd]; exact h.isUnit)]
  congr 1
  refine mat_ext ?_
  rw [of_matInv]
  refine Matrix.inv_eq_left_inv ?_
  ext i k
  rw [Subsingleton.elim i 0, Subsingleton.elim k 0]
  simp [Matrix.mul_apply, h]

/-- `directOut` and `fnOut` for a single inducing point. -/
theorem out_one {N n : ℕ} (C : ℝ) (kxz : Mat N 1 ℝ) (S A : Mat 1 1 ℝ) (g : Fin 1 → ℝ) (ksz : Mat n 1 ℝ)
    (h : C + S 0 0 * A 0 0 + 1/1000 ≠ 0) :
    directOut C ⟨kxz, S, A⟩ g
      = .ok (fun i => -kxz i 0 * ((C + S 0 0 * A 0 0 + 1/1000)⁻¹ * S 0 0 * g 0)) ∧
    fnOut C ⟨kxz, S, A⟩ g ksz
      = .ok (fun i => -ksz i 0 * ((C + S 0 0 * A 0 0 + 1/1000)⁻¹ * S 0 0 * g 0)) := by
  have hi : innerMat C S A 0 0 = C + S 0 0 * A 0 0 + 1/1000 := by
    simp [innerMat, mm, eye]
  have := inv_one (A := innerMat C S A) (by rw [hi]; exact h)
  simp only [directOut, fnOut, this, Except.ok_bind', hi]
  constructor
  · congr 1; funext i; simp [mv, mm, negM]; ring
  · congr 1; funext i; simp [mv, mm, negM]; ring

theorem periodic_self (l x : Fin d → ℝ) : periodic l x x = 1 := by simp [periodic]

theorem periodic_pos (l x y : Fin d → ℝ) : 0 < periodic l x y := Real.exp_pos _

/-- Scalar lengthscale, one sample, one inducing point, `C = 0.001`. -/
theorem scalar_one (X Z : Mat 1 d ℝ) (l : ℝ) (j : Fin d) :
    scoreSep X Z (1/1000) "periodic" (.scalar l) (j.val + 1)
      = .ok fun _ => perK X Z (.scalar l) 0 0 * perGrad X Z j (.scalar l) 0 0
          / (1001/1000 * (2/1000) + perK X Z (.scalar l) 0 0 ^ 2) := by
  have hzz : ridge (perK Z Z (.scalar l)) 0 0 = 1001/1000 := by
    simp [ridge, perK, eye]; norm_num
  have hp : scorePre (perK X Z (.scalar l)) (perK Z Z (.scalar l))
      = .ok ⟨perK X Z (.scalar l), fun _ _ => (1001/1000)⁻¹,
          mm (tr (perK X Z (.scalar l))) (perK X Z (.scalar l))⟩ := by
    simp only [scorePre, inv_one (A := ridge (perK Z Z (.scalar l))) (by rw [hzz]; norm_num), hzz,
      Except.ok_bind']
  simp only [scoreSep, sepCommon_periodic, hp, Except.ok_bind']
  have hA : mm (tr (perK X Z (.scalar l))) (perK X Z (.scalar l)) 0 0 = perK X Z (.scalar l) 0 0 ^ 2 := by
    simp [mm, tr, pow_two]
  have hne : (1/1000 : ℝ) + (1001/1000)⁻¹ * perK X Z (.scalar l) 0 0 ^ 2 + 1/1000 ≠ 0 := by positivity
  rw [(out_one (n := 1) (1/1000) _ _ _ _ (perK X Z (.scalar l)) (by rw [hA]; exact hne)).1, hA]
  congr 1
  funext i
  rw [Subsingleton.elim i 0]
  have hg : sumGrad (perGrad X Z j (.scalar l)) 0 = -perGrad X Z j (.scalar l) 0 0 := by
    simp [sumGrad, negM]
  rw [hg]
  have h3 : (1001/1000 * (2/1000) + perK X Z (.scalar l) 0 0 ^ 2 : ℝ) ≠ 0 := by positivity
  field_simp
  ring

/-- **C58** (limits). With a scalar lengthscale in two dimensions the estimate is not periodic: the kernel
folds the sum of the coordinate distances. Both calls return values, and these differ. -/
theorem C58_scalar_2d_not_periodic :
    ∃ (X Z : Mat 1 2 ℝ) (p : Fin 1 → Fin 2 → ℤ) (u v : Fin 1 → ℝ), Apart X Z 0 ∧ Apart (wind p X) Z 0 ∧
      scoreSep X Z (1/1000) "periodic" (.scalar 1) 1 = .ok u ∧
      scoreSep (wind p X) Z (1/1000) "periodic" (.scalar 1) 1 = .ok v ∧ u ≠ v := by
  let X : Mat 1 2 ℝ := fun _ _ => Real.pi / 2
  let Z : Mat 1 2 ℝ := fun _ _ => 0
  let p : Fin 1 → Fin 2 → ℤ := fun _ k => if k = 0 then -1 else 0
  have hpi := Real.pi_pos
  have hw0 : wind p X 0 0 = -(3 * Real.pi / 2) := by simp [wind, p, X]; ring
  have hw1 : wind p X 0 1 = Real.pi / 2 := by simp [wind, p, X]
  have k1 : perK X Z (.scalar 1) 0 0 = Real.exp (-2) := by
    have : (|Real.pi / 2| + |Real.pi / 2|) / 2 = Real.pi / 2 := by
      rw [abs_of_pos (by positivity)]; ring
    simp only [perK, X, Z, Fin.sum_univ_two, real_sum, real_abs, real_exp, real_sq, real_sin,
      real_lit_int, sub_zero]
    push_cast
    rw [this, Real.sin_pi_div_two]
    norm_num
  have k2 : perK (wind p X) Z (.scalar 1) 0 0 = 1 := by
    have : (|-(3 * Real.pi / 2)| + |Real.pi / 2|) / 2 = Real.pi := by
      rw [abs_neg, abs_of_pos (by positivity), abs_of_pos (by positivity)]; ring
    simp only [perK, Z, Fin.sum_univ_two, real_sum, real_abs, real_exp, real_sq, real_sin,
      real_lit_int, sub_zero, hw0, hw1]
    push_cast
    rw [this, Real.sin_pi]
    norm_num
  have g1 : perGrad X Z 0 (.scalar 1) 0 0 = Real.exp (-2) := by
    have h := quot_sin (Real.pi / 2) 1 (by positivity)
    simp only [perGrad, k1, real_lit_int, real_sin, real_cos, real_abs]
    rw [show X 0 0 - Z 0 0 = Real.pi / 2 by simp [X, Z]]
    push_cast
    rw [show -2 * (Real.pi / 2) * Real.sin (|Real.pi / 2| / 2) * Real.exp (-2)
        * Real.cos (|Real.pi / 2| / 2) / (1 * 1 * |Real.pi / 2|)
      = -2 * Real.exp (-2) * (Real.pi / 2 * Real.sin (|Real.pi / 2| / 2)
        * Real.cos (|Real.pi / 2| / 2) / (1 * 1 * |Real.pi / 2|)) by ring, h, Real.sin_pi_div_two]
    ring
  have g2 : perGrad (wind p X) Z 0 (.scalar 1) 0 0 = 1 := by
    have h := quot_sin (-(3 * Real.pi / 2)) 1 (by
      have : 0 < 3 * Real.pi / 2 := by positivity
      linarith)
    have hs : Real.sin (-(3 * Real.pi / 2)) = 1 := by
      rw [show -(3 * Real.pi / 2) = Real.pi / 2 - 2 * Real.pi by ring, Real.sin_sub_two_pi,
        Real.sin_pi_div_two]
    simp only [perGrad, k2, real_lit_int, real_sin, real_cos, real_abs]
    rw [show wind p X 0 0 - Z 0 0 = -(3 * Real.pi / 2) by simp [hw0, Z]]
    push_cast
    rw [show -2 * -(3 * Real.pi / 2) * Real.sin (|-(3 * Real.pi / 2)| / 2) * 1
        * Real.cos (|-(3 * Real.pi / 2)| / 2) / (1 * 1 * |-(3 * Real.pi / 2)|)
      = -2 * (-(3 * Real.pi / 2) * Real.sin (|-(3 * Real.pi / 2)| / 2)
        * Real.cos (|-(3 * Real.pi / 2)| / 2) / (1 * 1 * |-(3 * Real.pi / 2)|)) by ring, h, hs]
    norm_num
  refine ⟨X, Z, p, _, _, ?_, ?_, scalar_one X Z 1 0, scalar_one (wind p X) Z 1 0, ?_⟩
  · intro i s; simp only [X, Z]; positivity
  · intro i s
    rw [Subsingleton.elim i 0, hw0]
    simp only [Z]
    have : 0 < 3 * Real.pi / 2 := by positivity
    linarith
  · intro he
    have h0 := congrFun he 0
    rw [k1, k2, g1, g2] at h0
    have hlt : Real.exp (-2) < 1 := by
      rw [Real.exp_lt_one_iff]; norm_num
    have hpos := Real.exp_pos (-2)
    have hd : (1001/1000 * (2/1000) + Real.exp (-2) ^ 2 : ℝ) ≠ 0 := by positivity
    rw [div_eq_div_iff hd (by norm_num)] at h0
    nlinarith

/-- Vector lengthscale, one inducing point: both outputs, whenever the scalar system is not singular. -/
theorem vector_one (X : Mat N d ℝ) (Z : Mat 1 d ℝ) (C : ℝ) (l : Fin d → ℝ) (j : Fin d) (x : Mat n d ℝ)
    (ksz : Mat n 1 ℝ) (hk : perKsz Z (.vec l) x = .ok ksz)
    (hne : C - 1000/999 * (∑ i, periodic l (X i) (Z 0) ^ 2) + 1/1000 ≠ 0) :
    scoreSep X Z C "periodic" (.vec l) (j.val + 1) = .ok (fun i => periodic l (X i) (Z 0) *
      ((C - 1000/999 * (∑ i, periodic l (X i) (Z 0) ^ 2) + 1/1000)⁻¹ * -(1000/999)
        * sumGrad (perGrad X Z j (.vec l)) 0)) ∧
    scoreSepFn X Z C "periodic" (.vec l) (j.val + 1) x = .ok (fun i => -ksz i 0 *
      ((C - 1000/999 * (∑ i, periodic l (X i) (Z 0) ^ 2) + 1/1000)⁻¹ * -(1000/999)
        * sumGrad (perGrad X Z j (.vec l)) 0)) := by
  have hzz : ridge (perK Z Z (.vec l)) 0 0 = -999/1000 := by
    simp only [ridge, perK_vec_real, periodic_self]
    simp [eye]; norm_num
  have hp : scorePre (perK X Z (.vec l)) (perK Z Z (.vec l))
      = .ok ⟨perK X Z (.vec l), fun _ _ => -(1000/999),
          mm (tr (perK X Z (.vec l))) (perK X Z (.vec l))⟩ := by
    simp only [scorePre, inv_one (A := ridge (perK Z Z (.vec l))) (by rw [hzz]; norm_num), hzz,
      Except.ok_bind']
    norm_num
  have hA : mm (tr (perK X Z (.vec l))) (perK X Z (.vec l)) 0 0 = ∑ i, periodic l (X i) (Z 0) ^ 2 := by
    simp only [mm, tr, real_sum, perK_vec_real]
    exact Finset.sum_congr rfl fun i _ => by ring
  have hden : C + -(1000/999) * (∑ i, periodic l (X i) (Z 0) ^ 2) + 1/1000
      = C - 1000/999 * (∑ i, periodic l (X i) (Z 0) ^ 2) + 1/1000 := by ring
  simp only [scoreSep, scoreSepFn, sepCommon_periodic, hp, Except.ok_bind', String.reduceEq, if_false, hk]
  have := out_one (n := n) C (perK X Z (.vec l)) (fun _ _ => -(1000/999))
    (mm (tr (perK X Z (.vec l))) (perK X Z (.vec l))) (sumGrad (perGrad X Z j (.vec l))) ksz
    (by rw [hA, hden]; exact hne)
  rw [this.1, this.2, hA, hden]
  refine ⟨?_, rfl⟩
  congr 1
  funext i
  rw [perK_vec_real]; ring

theorem perKsz_vec_pos (Z : Mat M d ℝ) (l : Fin d → ℝ) (hd : 2 ≤ d) (x : Mat n d ℝ) :
    ∃ k, perKsz Z (.vec l) x = .ok k ∧ ∀ i m, 0 < k i m := by
  simp only [perKsz]
  rw [dif_pos ⟨hd, hd⟩]
  exact ⟨_, rfl, fun i m => mul_pos (Real.exp_pos _) (Real.exp_pos _)⟩

/-- **C58** (limits). With a vector lengthscale the function output is not periodic in its query point. -/
theorem C58_vector_function_not_periodic :
    ∃ (X Z x : Mat 1 2 ℝ) (l : Fin 2 → ℝ) (r : Fin 1 → Fin 2 → ℤ) (u v : Fin 1 → ℝ), Apart X Z 0 ∧
      (∀ k, l k ≠ 0) ∧
      scoreSepFn X Z (1/1000) "periodic" (.vec l) 1 x = .ok u ∧
      scoreSepFn X Z (1/1000) "periodic" (.vec l) 1 (wind r x) = .ok v ∧ u ≠ v := by
  let X : Mat 1 2 ℝ := fun _ k => if k = 0 then Real.pi / 2 else 0
  let Z : Mat 1 2 ℝ := fun _ _ => 0
  let l : Fin 2 → ℝ := fun _ => 2
  let r : Fin 1 → Fin 2 → ℤ := fun _ k => if k = 0 then 1 else 0
  have hpi := Real.pi_pos
  have hap : Apart X Z 0 := by intro i s; simp only [X, Z, if_pos]; positivity
  -- the kernel value is `exp (-1/4)`
  have hk : periodic l (X 0) (Z 0) = Real.exp (-(1/4)) := by
    have hs : Real.sin (Real.pi / 2 / 2) ^ 2 = 1/2 := by
      rw [Real.sin_sq_eq_half_sub, show 2 * (Real.pi / 2 / 2) = Real.pi / 2 by ring,
        Real.cos_pi_div_two]; norm_num
    simp only [periodic, Fin.sum_univ_two, X, Z, l]
    simp only [if_true, sub_zero, hs, Fin.reduceEq, if_false, one_ne_zero]
    norm_num
  have hkk : Real.exp (-(1/4)) ^ 2 = Real.exp (-(1/2)) := by
    rw [pow_two, ← Real.exp_add]; norm_num
  have hbig : (1:ℝ)/2 ≤ Real.exp (-(1/2)) := by
    have := Real.add_one_le_exp (-(1/2 : ℝ)); linarith
  have hne : (1/1000 : ℝ) - 1000/999 * (∑ i, periodic l (X i) (Z 0) ^ 2) + 1/1000 ≠ 0 := by
    rw [Fin.sum_univ_one, hk, hkk]; intro h; linarith
  have hg : sumGrad (perGrad X Z 0 (.vec l)) 0 ≠ 0 := by
    simp only [sumGrad, negM, real_sum, Fin.sum_univ_one]
    rw [perGrad_vec_real X Z l 0 0 0 (hap 0 0), pderiv_periodic, hk]
    have : X 0 0 - Z 0 0 = Real.pi / 2 := by simp [X, Z]
    rw [this, Real.sin_pi_div_two]
    have := Real.exp_pos (-(1/4 : ℝ))
    simp only [l]
    rw [neg_mul, neg_neg]
    positivity
  obtain ⟨k1, e1, _⟩ := perKsz_vec_pos (n := 1) Z l le_rfl Z
  obtain ⟨k2, e2, _⟩ := perKsz_vec_pos (n := 1) Z l le_rfl (wind r Z)
  refine ⟨X, Z, Z, l, r, _, _, hap, by intro k; simp [l], (vector_one X Z (1/1000) l 0 Z k1 e1 hne).2,
    (vector_one X Z (1/1000) l 0 (wind r Z) k2 e2 hne).2, ?_⟩
  intro he
  have h0 := congrFun he 0
  have v1 : k1 0 0 = 1 := by
    simp only [perKsz] at e1
    rw [dif_pos ⟨le_rfl, le_rfl⟩] at e1
    cases e1
    simp [Z]
  have v2 : k2 0 0 = Real.exp (-2) := by
    simp only [perKsz] at e2
    rw [dif_pos ⟨le_rfl, le_rfl⟩] at e2
    cases e2
    have : |2 * Real.pi| / (2 * 2) = Real.pi / 2 := by
      rw [abs_of_pos (by positivity)]; ring
    have hz : (⟨0, by omega⟩ : Fin 2) = 0 := rfl
    have h1 : (⟨1, by omega⟩ : Fin 2) = 1 := rfl
    simp only [Z, wind, r, l, hz, h1, real_abs, real_exp, real_sq, real_sin, real_lit_int, sub_zero,
      if_true, zero_add, Int.cast_one, one_mul, this, Real.sin_pi_div_two]
    simp
  have hlt : Real.exp (-2) < 1 := by rw [Real.exp_lt_one_iff]; norm_num
  rw [v1, v2] at h0
  have hc : ((1/1000 : ℝ) - 1000/999 * (∑ i, periodic l (X i) (Z 0) ^ 2) + 1/1000)⁻¹ * -(1000/999)
        * sumGrad (perGrad X Z 0 (.vec l)) 0 ≠ 0 :=
    mul_ne_zero (mul_ne_zero (inv_ne_zero hne) (by norm_num)) hg
  have := mul_right_cancel₀ hc h0
  linarith

/-- Non-vacuity of C58: two samples, one inducing point on the circle; the first sample is moved once
around, the inducing point twice backwards. -/
example : scoreSep (wind (fun i _ => if i = 0 then 1 else 0) (fun (i : Fin 2) (_ : Fin 1) => (i.val + 1 : ℝ)))
      (wind (fun _ _ => -2) (fun (_ : Fin 1) (_ : Fin 1) => (0:ℝ))) (1/1000) "periodic" (.scalar 1) 1
    = scoreSep (fun (i : Fin 2) (_ : Fin 1) => (i.val + 1 : ℝ)) (fun (_ : Fin 1) (_ : Fin 1) => (0:ℝ))
      (1/1000) "periodic" (.scalar 1) 1 :=
  (C58_winding_scalar_1d (n := 0) _ _ _ 1 (by norm_num) (fun i _ => if i = 0 then 1 else 0) (fun _ _ => -2)
    (fun i s => by have : (0:ℝ) ≤ (i.val : ℝ) := by positivity
                   intro h; change (i.val : ℝ) + 1 = 0 at h; linarith)
    (fun i s => by
      have h1 : (0:ℝ) ≤ (i.val : ℝ) := by positivity
      have h2 := Real.pi_pos
      have h3 : (0:ℤ) ≤ (if i = 0 then 1 else 0 : ℤ) := by split <;> norm_num
      have h4 : (0:ℝ) ≤ ((if i = 0 then 1 else 0 : ℤ) : ℝ) := by exact_mod_cast h3
      have h5 : 0 ≤ ((if i = 0 then 1 else 0 : ℤ) : ℝ) * (2 * Real.pi) := by positivity
      simp only [wind]
      push_cast at h5 ⊢
      linarith)
    (fun i => i.elim0) (fun i => i.elim0)).1

/-! ## C59 -/

private theorem kernMat_scalar (X : Mat N 1 ℝ) (Z : Mat M 1 ℝ) (l : ℝ) :
    Matrix.of (perK X Z (.scalar l)) = kernMat (periodic fun _ => l) X Z := by
  ext i m; exact perK_scalar_real X Z l i m

private theorem kernMat_vec (X : Mat N d ℝ) (Z : Mat M d ℝ) (l : Fin d → ℝ) :
    Matrix.of (perK X Z (.vec l)) = kernMat (fun x y => -periodic l x y) X Z := by
  ext i m; exact perK_vec_real X Z l i m

private theorem gradSum_scalar (X : Mat N 1 ℝ) (Z : Mat M 1 ℝ) (l : ℝ) (h : Apart X Z 0) :
    sumGrad (perGrad X Z 0 (.scalar l)) = kernGradSum (periodic fun _ => l) X Z 0 := by
  funext m
  simp only [sumGrad, negM, real_sum, kernGradSum]
  refine Finset.sum_congr rfl fun i _ => ?_
  rw [perGrad_scalar_real X Z l 0 i m (h i m), neg_neg]

private theorem gradSum_vec (X : Mat N d ℝ) (Z : Mat M d ℝ) (l : Fin d → ℝ) (j : Fin d) (h : Apart X Z j) :
    sumGrad (perGrad X Z j (.vec l)) = kernGradSum (fun x y => -periodic l x y) X Z j := by
  funext m
  simp only [sumGrad, negM, real_sum, kernGradSum]
  refine Finset.sum_congr rfl fun i _ => ?_
  rw [perGrad_vec_real X Z l j i m (h i m), pderiv_neg]

/-- **C59.** In one dimension with a scalar lengthscale, for every sample set, every inducing set (repeated
points allowed) and every `C > -1e-3`, both outputs exist and are the regularised score estimate with the
periodic kernel: the analogue of C17, C18, C20 and C21. -/
theorem C59_scalar_1d (X : Mat N 1 ℝ) (Z : Mat M 1 ℝ) (l : ℝ) (hl : l ≠ 0) (C : ℝ) (hC : -1/1000 < C)
    (h : Apart X Z 0) (x : Mat n 1 ℝ) :
    scoreSep X Z C "periodic" (.scalar l) 1
      = .ok (fun i => kernScore (periodic fun _ => l) C X Z 0 (X i)) ∧
    scoreSepFn X Z C "periodic" (.scalar l) 1 x
      = .ok (fun i => kernScore (periodic fun _ => l) C X Z 0 (x i)) := by
  have e : ((1 : Int)) = ((0 : Fin 1).val : Int) + 1 := rfl
  have hps := periodic_posSemidef (fun _ : Fin 1 => l) Z
  have hG := posDef_isUnit_det (kernGram_posDef hps)
  have hS := posDef_isUnit_det (kernSys_posDef (X := X) hC hps)
  rw [e]
  constructor
  · simp only [scoreSep, sepCommon_periodic, scorePre_kern Z (kernMat_scalar Z Z l) hG, Except.ok_bind']
    exact directOut_kern C X Z (kernMat_scalar X Z l) (kernMat_scalar Z Z l) hG hS (gradSum_scalar X Z l h)
  · simp only [scoreSepFn, sepCommon_periodic, scorePre_kern Z (kernMat_scalar Z Z l) hG, Except.ok_bind',
      String.reduceEq, if_false, perKsz_scalar]
    exact fnOut_kern C X Z (kernMat_scalar X Z l) (kernMat_scalar Z Z l) hG hS (gradSum_scalar X Z l h)
      (kernMat_scalar x Z l)

/-- **C59.** With a vector lengthscale the array output is the estimate for the *negated* periodic kernel,
and the call raises LinAlgError exactly when one of the two matrices built from it is singular. -/
theorem C59_vector_negated_kernel (X : Mat N d ℝ) (Z : Mat M d ℝ) (l : Fin d → ℝ) (hl : ∀ k, l k ≠ 0)
    (C : ℝ) (j : Fin d) (h : Apart X Z j) :
    ((kernGram (fun x y => -periodic l x y) Z).det ≠ 0 ∧
      (kernSys (fun x y => -periodic l x y) C X Z).det ≠ 0 →
      scoreSep X Z C "periodic" (.vec l) (j.val + 1)
        = .ok (fun i => kernScore (fun x y => -periodic l x y) C X Z j (X i))) ∧
    ((kernGram (fun x y => -periodic l x y) Z).det = 0 ∨
      (kernSys (fun x y => -periodic l x y) C X Z).det = 0 →
      scoreSep X Z C "periodic" (.vec l) (j.val + 1) = .error .linAlgError) := by
  constructor
  · rintro ⟨hG, hS⟩
    simp only [scoreSep, sepCommon_periodic, scorePre_kern Z (kernMat_vec Z Z l) hG.isUnit, Except.ok_bind']
    exact directOut_kern C X Z (kernMat_vec X Z l) (kernMat_vec Z Z l) hG.isUnit hS.isUnit
      (gradSum_vec X Z l j h)
  · intro hs
    by_cases hG : (kernGram (fun x y => -periodic l x y) Z).det = 0
    · simp only [scoreSep, sepCommon_periodic, scorePre_kern_err (kxz := perK X Z (.vec l)) Z
        (kernMat_vec Z Z l) (by rw [hG]; exact not_isUnit_zero), Except.error_bind']
    · have hS := hs.resolve_left hG
      simp only [scoreSep, sepCommon_periodic, scorePre_kern Z (kernMat_vec Z Z l) (Ne.isUnit hG),
        Except.ok_bind', directOut]
      have hu : ¬ IsUnit (Matrix.of (innerMat C (matInv (ridge (perK Z Z (.vec l))))
          (mm (tr (perK X Z (.vec l))) (perK X Z (.vec l))))).det := by
        rw [kern_inner C X Z (kernMat_vec X Z l) (kernMat_vec Z Z l), inner_eq _ _ (Ne.isUnit hG),
          Matrix.det_mul]
        change ¬ IsUnit (_ * (kernSys (fun x y => -periodic l x y) C X Z).det)
        rw [hS, mul_zero]; exact not_isUnit_zero
      rw [real_inv_err hu, Except.error_bind']

/-- **C59** (consequence). The negated kernel defeats the regularisation: there are two distinct inducing
points and a lengthscale for which the call raises LinAlgError whatever the samples, `C` and coordinate. -/
theorem C59_vector_can_be_singular :
    ∃ (Z : Mat 2 1 ℝ) (l : Fin 1 → ℝ), Z 0 ≠ Z 1 ∧ 0 < l 0 ∧
      ∀ (N : ℕ) (X : Mat N 1 ℝ) (C : ℝ),
        scoreSep X Z C "periodic" (.vec l) 1 = .error .linAlgError := by
  have hlog : Real.log (999/1000) < 0 := Real.log_neg (by norm_num) (by norm_num)
  let L : ℝ := Real.sqrt (-2 / Real.log (999/1000))
  have hL0 : 0 < -2 / Real.log (999/1000) := div_pos_of_neg_of_neg (by norm_num) hlog
  have hL2 : L ^ 2 = -2 / Real.log (999/1000) := Real.sq_sqrt hL0.le
  have hexp : Real.exp (-2 * (1 / L ^ 2)) = 999/1000 := by
    rw [hL2, one_div_div, show -2 * (Real.log (999/1000) / -2) = Real.log (999/1000) by ring,
      Real.exp_log (by norm_num)]
  let Z : Mat 2 1 ℝ := fun i _ => if i = 0 then 0 else Real.pi
  refine ⟨Z, fun _ => L, ?_, Real.sqrt_pos.2 hL0, ?_⟩
  · intro h
    have := congrFun h 0
    simp [Z] at this
    exact Real.pi_ne_zero this.symm
  · intro N X C
    have k01 : periodic (fun _ => L) (Z 0) (Z 1) = 999/1000 := by
      simp only [periodic, Fin.sum_univ_one, Z, if_true, Fin.reduceEq, if_false, one_ne_zero, zero_sub,
        neg_div, Real.sin_neg, neg_sq, Real.sin_pi_div_two, one_pow]
      exact hexp
    have k10 : periodic (fun _ => L) (Z 1) (Z 0) = 999/1000 := by
      simp only [periodic, Fin.sum_univ_one, Z, if_true, Fin.reduceEq, if_false, one_ne_zero, sub_zero,
        Real.sin_pi_div_two, one_pow]
      exact hexp
    have hdet : (kernGram (fun x y => -periodic (fun _ => L) x y) Z).det = 0 := by
      rw [Matrix.det_fin_two]
      simp only [kernGram, kernMat, Matrix.add_apply, Matrix.of_apply, Matrix.smul_apply, k01, k10,
        periodic_self, Matrix.one_apply_eq, Matrix.one_apply_ne (show (0 : Fin 2) ≠ 1 by decide),
        Matrix.one_apply_ne (show (1 : Fin 2) ≠ 0 by decide), smul_eq_mul]
      norm_num
    have e : ((1 : Int)) = ((0 : Fin 1).val : Int) + 1 := rfl
    rw [e]
    simp only [scoreSep, sepCommon_periodic, scorePre_kern_err (kxz := perK X Z (.vec fun _ => L)) Z
        (kernMat_vec Z Z fun _ => L) (by rw [hdet]; exact not_isUnit_zero), Except.error_bind']

/-- **C59** (scalar lengthscale, two dimensions). The kernel of the code is not positive definite there, and
a call can raise LinAlgError for pairwise distinct inducing points, whatever the samples and `C`. -/
theorem C59_scalar_2d_can_be_singular :
    ∃ (Z : Mat 3 2 ℝ) (l : ℝ), Function.Injective Z ∧ 0 < l ∧
      ∀ (N : ℕ) (X : Mat N 2 ℝ) (C : ℝ) (j : Fin 2),
        scoreSep X Z C "periodic" (.scalar l) (j.val + 1) = .error .linAlgError := by
  let e0 : ℝ := 2 / (1001/1000) - 1001/1000
  have he : 0 < e0 ∧ e0 < 1 := by constructor <;> norm_num [e0]
  have hlog : Real.log e0 < 0 := Real.log_neg he.1 he.2
  let L : ℝ := Real.sqrt (-2 / Real.log e0)
  have hL0 : 0 < -2 / Real.log e0 := div_pos_of_neg_of_neg (by norm_num) hlog
  have hL2 : L * L = -2 / Real.log e0 := Real.mul_self_sqrt hL0.le
  have hexp : Real.exp (-2 * 1 ^ 2 / (L * L)) = e0 := by
    rw [hL2]
    rw [show -2 * 1 ^ 2 / (-2 / Real.log e0) = Real.log e0 by field_simp, Real.exp_log he.1]
  have hpi := Real.pi_pos
  let Z : Mat 3 2 ℝ := ![![0, 0], ![2 * Real.pi, 0], ![Real.pi / 2, Real.pi / 2]]
  have key : ∀ i j : Fin 3, perK Z Z (.scalar L) i j
      = Real.exp (-2 * Real.sin ((|Z i 0 - Z j 0| + |Z i 1 - Z j 1|) / 2) ^ 2 / (L * L)) := by
    intro i j
    simp only [perK, Fin.sum_univ_two, real_sum, real_abs, real_exp, real_sq, real_sin, real_lit_int]
    push_cast
    rfl
  have diag : ∀ i, perK Z Z (.scalar L) i i = 1 := by intro i; rw [key]; simp
  have a1 : |2 * Real.pi| = 2 * Real.pi := abs_of_pos (by positivity)
  have a2 : |Real.pi / 2| = Real.pi / 2 := abs_of_pos (by positivity)
  have a3 : |2 * Real.pi - Real.pi / 2| = 3 * Real.pi / 2 := by
    rw [abs_of_pos (by linarith)]; ring
  have sym : ∀ i j, perK Z Z (.scalar L) i j = perK Z Z (.scalar L) j i := by
    intro i j; rw [key, key, abs_sub_comm (Z i 0), abs_sub_comm (Z i 1)]
  have k01 : perK Z Z (.scalar L) 1 0 = 1 := by
    rw [key]
    simp only [Z, Matrix.cons_val_zero, Matrix.cons_val_one, sub_zero, a1, abs_zero, add_zero]
    rw [show 2 * Real.pi / 2 = Real.pi by ring, Real.sin_pi]; simp
  have k12 : perK Z Z (.scalar L) 1 2 = 1 := by
    rw [key]
    simp only [Z, Matrix.cons_val_zero, Matrix.cons_val_one, Matrix.cons_val, zero_sub, abs_neg, a2, a3]
    rw [show (3 * Real.pi / 2 + Real.pi / 2) / 2 = Real.pi by ring, Real.sin_pi]; simp
  have k20 : perK Z Z (.scalar L) 2 0 = e0 := by
    rw [key]
    simp only [Z, Matrix.cons_val_zero, Matrix.cons_val_one, Matrix.cons_val, sub_zero, a2]
    rw [show (Real.pi / 2 + Real.pi / 2) / 2 = Real.pi / 2 by ring, Real.sin_pi_div_two, hexp]
  refine ⟨Z, L, ?_, Real.sqrt_pos.2 hL0, ?_⟩
  · have n1 : Z 0 ≠ Z 1 := by intro h; have := congrFun h 0; simp [Z] at this
    have n2 : Z 0 ≠ Z 2 := by intro h; have := congrFun h 0; simp [Z] at this; linarith
    have n3 : Z 1 ≠ Z 2 := by intro h; have := congrFun h 1; simp [Z] at this; linarith
    intro a b hab
    fin_cases a <;> fin_cases b <;> first
      | rfl
      | exact absurd hab n1
      | exact absurd hab n2
      | exact absurd hab n3
      | exact absurd hab.symm n1
      | exact absurd hab.symm n2
      | exact absurd hab.symm n3
  · intro N X C j
    have hdet : (Matrix.of (ridge (perK Z Z (.scalar L)))).det = 0 := by
      rw [of_ridge, Matrix.det_fin_three]
      simp only [Matrix.add_apply, Matrix.of_apply, Matrix.smul_apply, diag, k01, k12, k20,
        sym 0 1, sym 0 2, sym 2 1, Matrix.one_apply_eq, smul_eq_mul,
        Matrix.one_apply_ne (show (0 : Fin 3) ≠ 1 by decide),
        Matrix.one_apply_ne (show (1 : Fin 3) ≠ 0 by decide),
        Matrix.one_apply_ne (show (0 : Fin 3) ≠ 2 by decide),
        Matrix.one_apply_ne (show (2 : Fin 3) ≠ 0 by decide),
        Matrix.one_apply_ne (show (1 : Fin 3) ≠ 2 by decide),
        Matrix.one_apply_ne (show (2 : Fin 3) ≠ 1 by decide)]
      norm_num [e0]
    simp only [scoreSep, sepCommon_periodic, scorePre, real_inv_err (A := ridge (perK Z Z (.scalar L)))
      (by rw [hdet]; exact not_isUnit_zero), Except.error_bind']

/-- **C59** (function output, vector lengthscale, one dimension). The call always raises: LinAlgError if a
matrix is singular, IndexError otherwise. -/
theorem C59_vector_function_1d_raises (X : Mat N 1 ℝ) (Z : Mat M 1 ℝ) (l : Fin 1 → ℝ) (C : ℝ) (w : Int)
    (x : Mat n 1 ℝ) :
    scoreSepFn X Z C "periodic" (.vec l) w x = .error .linAlgError ∨
    scoreSepFn X Z C "periodic" (.vec l) w x = .error .indexError := by
  have hp : perKsz Z (.vec l) x = .error .indexError := by
    simp only [perKsz]; rw [dif_neg (by omega)]
  have h2 : sepCommon X Z "periodic" (.vec l) w = .error .linAlgError ∨
      sepCommon X Z "periodic" (.vec l) w = .error .indexError ∨
      ∃ q, sepCommon X Z "periodic" (.vec l) w = .ok q := by
    simp only [sepCommon, String.reduceEq, if_false, if_true, scorePre]
    by_cases hu : IsUnit (Matrix.of (ridge (perK Z Z (.vec l))) : Matrix (Fin M) (Fin M) ℝ).det
    · right
      rw [real_inv_ok hu]
      cases hi : pyIdx 1 (w - 1) with
      | error e =>
        left
        have : e = .indexError := by
          unfold pyIdx at hi
          split_ifs at hi <;> cases hi <;> rfl
        subst this
        rfl
      | ok ii =>
        by_cases hlt : ii < 1
        · right
          simp only [Except.ok_bind', dif_pos hlt]
          exact ⟨_, rfl⟩
        · left
          simp only [Except.ok_bind', dif_neg hlt]
    · left; rw [real_inv_err hu]; rfl
  simp only [scoreSepFn, String.reduceEq, if_false, hp]
  rcases h2 with h | h | ⟨q, h⟩
  · left; rw [h]; rfl
  · right; rw [h]; rfl
  · right; rw [h]; rfl

/-- **C59** (function output, vector lengthscale). With a single inducing point the function output at the
samples never has the sign of the array output: their product is non-positive, and one vanishes only with the
other. -/
theorem C59_vector_function_sign (X : Mat N d ℝ) (Z : Mat 1 d ℝ) (l : Fin d → ℝ) (hl : ∀ k, l k ≠ 0)
    (C : ℝ) (j : Fin d) (u v : Fin N → ℝ)
    (hu : scoreSep X Z C "periodic" (.vec l) (j.val + 1) = .ok u)
    (hv : scoreSepFn X Z C "periodic" (.vec l) (j.val + 1) X = .ok v) (i : Fin N) :
    2 ≤ d ∧ u i * v i ≤ 0 ∧ (u i = 0 ↔ v i = 0) := by
  have hd : 2 ≤ d := by
    by_contra hd
    have : perKsz Z (.vec l) X = .error .indexError := by
      simp only [perKsz]; rw [dif_neg (by omega)]
    simp only [scoreSepFn, String.reduceEq, if_false, this] at hv
    obtain ⟨q, _, h⟩ := Except.bind_ok.1 hv
    simp only [Except.error_bind'] at h
    cases h
  obtain ⟨k, hk, hkp⟩ := perKsz_vec_pos (n := N) Z l hd X
  have hne : C - 1000/999 * (∑ i, periodic l (X i) (Z 0) ^ 2) + 1/1000 ≠ 0 := by
    intro h0
    have hzz : ridge (perK Z Z (.vec l)) 0 0 = -999/1000 := by
      simp only [ridge, perK_vec_real, periodic_self]
      simp [eye]; norm_num
    have hinv : NumOps.inv (ridge (perK Z Z (.vec l))) = .ok fun _ _ => (-999/1000 : ℝ)⁻¹ := by
      rw [inv_one (A := ridge (perK Z Z (.vec l))) (by rw [hzz]; norm_num), hzz]
    simp only [scoreSep, sepCommon_periodic, scorePre, hinv, Except.ok_bind', directOut] at hu
    have hdet : ¬ IsUnit (Matrix.of (innerMat C (fun _ _ => (-999/1000 : ℝ)⁻¹)
        (mm (tr (perK X Z (.vec l))) (perK X Z (.vec l)))) : Matrix (Fin 1) (Fin 1) ℝ).det := by
      rw [Matrix.det_fin_one]
      have hA : mm (tr (perK X Z (.vec l))) (perK X Z (.vec l)) 0 0 = ∑ i, periodic l (X i) (Z 0) ^ 2 := by
        simp only [mm, tr, real_sum, perK_vec_real]
        exact Finset.sum_congr rfl fun i _ => by ring
      have : innerMat C (fun _ _ => (-999/1000 : ℝ)⁻¹)
          (mm (tr (perK X Z (.vec l))) (perK X Z (.vec l))) 0 0 = 0 := by
        rw [← h0]
        simp only [innerMat, mm, real_sum, Fin.sum_univ_one]
        rw [← hA]
        simp [eye, mm]; ring
      rw [Matrix.of_apply, this]; exact not_isUnit_zero
    rw [real_inv_err hdet, Except.error_bind'] at hu
    cases hu
  obtain ⟨e1, e2⟩ := vector_one X Z C l j X k hk hne
  rw [e1] at hu; rw [e2] at hv
  cases hu; cases hv
  set c := (C - 1000/999 * (∑ i, periodic l (X i) (Z 0) ^ 2) + 1/1000)⁻¹ * -(1000/999)
        * sumGrad (perGrad X Z j (.vec l)) 0
  have p1 := periodic_pos l (X i) (Z 0)
  have p2 := hkp i 0
  refine ⟨hd, ?_, ?_⟩
  · have : 0 ≤ (periodic l (X i) (Z 0) * k i 0) * c ^ 2 := by positivity
    simp only []
    nlinarith
  · simp only [mul_eq_zero, neg_eq_zero, p1.ne', p2.ne', false_or]

/-- Non-vacuity of C59: three samples and two (equal) inducing points. -/
example : scoreSep (fun (i : Fin 3) (_ : Fin 1) => (i.val + 1 : ℝ)) (fun (_ : Fin 2) (_ : Fin 1) => (0:ℝ))
      (1/1000) "periodic" (.scalar 1) 1
    = .ok (fun i => kernScore (periodic fun _ => 1) (1/1000) (fun (i : Fin 3) (_ : Fin 1) => (i.val + 1 : ℝ))
        (fun (_ : Fin 2) (_ : Fin 1) => (0:ℝ)) 0 (fun _ => (i.val + 1 : ℝ))) :=
  (C59_scalar_1d (n := 0) _ _ 1 (by norm_num) _ (by norm_num) (fun i s => by
    have : (0:ℝ) ≤ (i.val : ℝ) := by positivity
    intro h; change (i.val : ℝ) + 1 = 0 at h; linarith) (fun i => i.elim0)).1

/-- Non-vacuity of `C59_vector_function_sign`: the witness of `C58_vector_function_not_periodic` has a
single inducing point and both outputs. -/
example : ∃ (X Z : Mat 1 2 ℝ) (l : Fin 2 → ℝ) (u v : Fin 1 → ℝ), (∀ k, l k ≠ 0) ∧
    scoreSep X Z (-2) "periodic" (.vec l) ((0 : Fin 2).val + 1) = .ok u ∧
    scoreSepFn X Z (-2) "periodic" (.vec l) ((0 : Fin 2).val + 1) X = .ok v := by
  let X : Mat 1 2 ℝ := fun _ _ => 1
  let Z : Mat 1 2 ℝ := fun _ _ => 0
  obtain ⟨k, hk, _⟩ := perKsz_vec_pos (n := 1) Z (fun _ : Fin 2 => (1:ℝ)) le_rfl X
  have hne : (-2:ℝ) - 1000/999 * (∑ i, periodic (fun _ : Fin 2 => (1:ℝ)) (X i) (Z 0) ^ 2) + 1/1000 ≠ 0 := by
    have : 0 ≤ ∑ i, periodic (fun _ : Fin 2 => (1:ℝ)) (X i) (Z 0) ^ 2 :=
      Finset.sum_nonneg fun i _ => sq_nonneg _
    intro h; linarith
  obtain ⟨h1, h2⟩ := vector_one X Z (-2) (fun _ => 1) 0 X k hk hne
  exact ⟨X, Z, fun _ => 1, _, _, fun _ => one_ne_zero, h1, h2⟩

/-- Non-vacuity of `C59_vector_function_1d_raises`: three samples, two inducing points. -/
example (x : Mat 4 1 ℝ) : ∃ e, scoreSepFn (fun (i : Fin 3) (_ : Fin 1) => (i.val + 1 : ℝ))
    (fun (_ : Fin 2) (_ : Fin 1) => (0:ℝ)) (1/1000) "periodic" (.vec fun _ => 1) 1 x = .error e := by
  rcases C59_vector_function_1d_raises (fun (i : Fin 3) (_ : Fin 1) => (i.val + 1 : ℝ))
    (fun (_ : Fin 2) (_ : Fin 1) => (0:ℝ)) (fun _ => 1) (1/1000) 1 x with h | h <;> exact ⟨_, h⟩

end DPFC
