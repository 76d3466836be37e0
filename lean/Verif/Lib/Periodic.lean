import Verif.Lib.ScoreLaws
import Verif.Spec.Periodic
import Mathlib.Analysis.SpecialFunctions.Trigonometric.Deriv

/-! Helper lemmas for the periodic kernel (C58 - C60). -/

namespace DPFC
open Matrix Spec

variable {N M d n : Nat}

theorem sin_abs_half_sq (a : ℝ) : Real.sin (|a| / 2) ^ 2 = Real.sin (a / 2) ^ 2 := by
  rcases abs_cases a with ⟨h, _⟩ | ⟨h, _⟩ <;> rw [h]
  rw [neg_div, Real.sin_neg, neg_sq]

/-- The periodic kernel of the code, vector lengthscale: minus the periodic kernel. -/
theorem perK_vec_real (X : Mat N d ℝ) (Z : Mat M d ℝ) (l : Fin d → ℝ) (i : Fin N) (j : Fin M) :
    perK X Z (.vec l) i j = -periodic l (X i) (Z j) := by
  simp only [perK, foldl_mul_prod, real_exp, real_sq, real_sin, real_abs, real_lit_int, Int.cast_one,
    one_mul]
  rw [← Real.exp_sum, periodic, Finset.mul_sum]
  congr 2
  refine Finset.sum_congr rfl fun k _ => ?_
  push_cast
  rw [sin_abs_half_sq, pow_two (l k), mul_div_assoc]

theorem perK_scalar_real (X : Mat N 1 ℝ) (Z : Mat M 1 ℝ) (l : ℝ) (i : Fin N) (j : Fin M) :
    perK X Z (.scalar l) i j = periodic (fun _ => l) (X i) (Z j) := by
  simp only [perK, real_exp, real_sq, real_sin, real_abs, real_lit_int, real_sum, Fin.sum_univ_one,
    periodic]
  push_cast
  rw [sin_abs_half_sq, pow_two l, mul_div_assoc]

theorem hasDerivAt_periodic (l x y : Fin d → ℝ) (j : Fin d) :
    HasDerivAt (fun s => periodic l (Function.update x j s) y)
      (-(Real.sin (x j - y j) / l j ^ 2) * periodic l x y) (x j) := by
  have h1 : ∀ s, ∑ k, Real.sin ((Function.update x j s k - y k) / 2) ^ 2 / l k ^ 2
      = Real.sin ((s - y j) / 2) ^ 2 / l j ^ 2
        + ∑ k ∈ Finset.univ.erase j, Real.sin ((x k - y k) / 2) ^ 2 / l k ^ 2 := by
    intro s
    rw [← Finset.add_sum_erase _ _ (Finset.mem_univ j), Function.update_self]
    congr 1
    refine Finset.sum_congr rfl fun k hk => ?_
    rw [Function.update_of_ne (Finset.ne_of_mem_erase hk)]
  have h2 : HasDerivAt (fun s => (s - y j) / 2) (1/2) (x j) := by
    have := ((hasDerivAt_id (x j)).sub_const (y j)).div_const 2
    simpa using this
  have h3 := ((h2.sin.pow 2).div_const (l j ^ 2)).add_const
    (∑ k ∈ Finset.univ.erase j, Real.sin ((x k - y k) / 2) ^ 2 / l k ^ 2)
  have h4 := (h3.const_mul (-2)).exp
  have e : (fun s => periodic l (Function.update x j s) y) = fun s => Real.exp (-2 *
      (Real.sin ((s - y j) / 2) ^ 2 / l j ^ 2
        + ∑ k ∈ Finset.univ.erase j, Real.sin ((x k - y k) / 2) ^ 2 / l k ^ 2)) := by
    funext s; rw [periodic, h1]
  have e0 : periodic l x y = Real.exp (-2 * (Real.sin ((x j - y j) / 2) ^ 2 / l j ^ 2
        + ∑ k ∈ Finset.univ.erase j, Real.sin ((x k - y k) / 2) ^ 2 / l k ^ 2)) := by
    rw [← congrFun e (x j), Function.update_eq_self]
  rw [e, e0]
  refine h4.congr_deriv ?_
  have hs : Real.sin (x j - y j) = 2 * Real.sin ((x j - y j) / 2) * Real.cos ((x j - y j) / 2) := by
    rw [← Real.sin_two_mul]; congr 1; ring
  rw [hs]
  simp only [Pi.pow_apply]
  ring_nf

theorem pderiv_periodic (l x y : Fin d → ℝ) (j : Fin d) :
    pderiv (fun x => periodic l x y) j x = -(Real.sin (x j - y j) / l j ^ 2) * periodic l x y :=
  (hasDerivAt_periodic l x y j).deriv

/-- The quotient used by the code. -/
theorem quot_sin (a l : ℝ) (ha : a ≠ 0) :
    a * Real.sin (|a| / 2) * Real.cos (|a| / 2) / (l * l * |a|) = Real.sin a / (2 * l ^ 2) := by
  have hs : Real.sin (|a|) = 2 * Real.sin (|a| / 2) * Real.cos (|a| / 2) := by
    rw [← Real.sin_two_mul]; congr 1; ring
  have : a * Real.sin (|a| / 2) * Real.cos (|a| / 2) = a * Real.sin |a| / 2 := by rw [hs]; ring
  rw [this]
  by_cases hl : l = 0
  · simp [hl]
  rcases lt_or_gt_of_ne ha with h | h
  · rw [abs_of_neg h, Real.sin_neg]; field_simp
  · rw [abs_of_pos h]; field_simp

theorem perGrad_vec_real (X : Mat N d ℝ) (Z : Mat M d ℝ) (l : Fin d → ℝ) (j : Fin d) (i : Fin N)
    (m : Fin M) (h : X i j ≠ Z m j) :
    perGrad X Z j (.vec l) i m = pderiv (fun x => periodic l x (Z m)) j (X i) := by
  simp only [perGrad, perK_vec_real, real_lit_int, real_sin, real_cos, real_abs, pderiv_periodic]
  have := quot_sin (X i j - Z m j) (l j) (sub_ne_zero.2 h)
  push_cast
  rw [show -2 * -periodic l (X i) (Z m) * (X i j - Z m j) * Real.sin (|X i j - Z m j| / 2)
      * Real.cos (|X i j - Z m j| / 2) / (l j * l j * |X i j - Z m j|)
    = 2 * periodic l (X i) (Z m) * ((X i j - Z m j) * Real.sin (|X i j - Z m j| / 2)
      * Real.cos (|X i j - Z m j| / 2) / (l j * l j * |X i j - Z m j|)) by ring, this]
  by_cases hl : l j = 0
  · simp [hl]
  field_simp

theorem perGrad_scalar_real (X : Mat N 1 ℝ) (Z : Mat M 1 ℝ) (l : ℝ) (j : Fin 1) (i : Fin N)
    (m : Fin M) (h : X i j ≠ Z m j) :
    perGrad X Z j (.scalar l) i m = -pderiv (fun x => periodic (fun _ => l) x (Z m)) j (X i) := by
  simp only [perGrad, perK_scalar_real, real_lit_int, real_sin, real_cos, real_abs, pderiv_periodic]
  have := quot_sin (X i j - Z m j) l (sub_ne_zero.2 h)
  push_cast
  rw [show -2 * (X i j - Z m j) * Real.sin (|X i j - Z m j| / 2)
      * periodic (fun _ => l) (X i) (Z m) * Real.cos (|X i j - Z m j| / 2) / (l * l * |X i j - Z m j|)
    = -2 * periodic (fun _ => l) (X i) (Z m) * ((X i j - Z m j) * Real.sin (|X i j - Z m j| / 2)
      * Real.cos (|X i j - Z m j| / 2) / (l * l * |X i j - Z m j|)) by ring, this]
  by_cases hl : l = 0
  · simp [hl]
  field_simp

theorem pderiv_neg (f : (Fin d → ℝ) → ℝ) (j : Fin d) (x : Fin d → ℝ) :
    pderiv (fun x => -f x) j x = -pderiv f j x := by
  simp [pderiv]

/-! ### The estimator with an arbitrary kernel -/

/-- What the common part of the estimator computes when the kernel matrices are those of `κ`. -/
theorem scorePre_kern {κ : (Fin d → ℝ) → (Fin d → ℝ) → ℝ} (Z : Mat M d ℝ)
    {kxz : Mat N M ℝ} {kzz : Mat M M ℝ}
    (hz : Matrix.of kzz = kernMat κ Z Z) (hG : IsUnit (kernGram κ Z).det) :
    scorePre kxz kzz = .ok ⟨kxz, matInv (ridge kzz), mm (tr kxz) kxz⟩ := by
  have : IsUnit (Matrix.of (ridge kzz)).det := by rw [of_ridge, hz]; exact hG
  simp only [scorePre, real_inv_ok this, Except.ok_bind']

theorem scorePre_kern_err {κ : (Fin d → ℝ) → (Fin d → ℝ) → ℝ} (Z : Mat M d ℝ)
    {kxz : Mat N M ℝ} {kzz : Mat M M ℝ}
    (hz : Matrix.of kzz = kernMat κ Z Z) (hG : ¬ IsUnit (kernGram κ Z).det) :
    scorePre kxz kzz = .error .linAlgError := by
  have : ¬ IsUnit (Matrix.of (ridge kzz)).det := by rw [of_ridge, hz]; exact hG
  simp only [scorePre, real_inv_err this, Except.error_bind']

theorem kern_inner {κ : (Fin d → ℝ) → (Fin d → ℝ) → ℝ} (C : ℝ) (X : Mat N d ℝ) (Z : Mat M d ℝ)
    {kxz : Mat N M ℝ} {kzz : Mat M M ℝ} (hx : Matrix.of kxz = kernMat κ X Z)
    (hz : Matrix.of kzz = kernMat κ Z Z) :
    Matrix.of (innerMat C (matInv (ridge kzz)) (mm (tr kxz) kxz))
      = C • (1 : Matrix (Fin M) (Fin M) ℝ)
        + (kernGram κ Z)⁻¹ * ((kernMat κ X Z).transpose * kernMat κ X Z) + (1/1000 : ℝ) • 1 := by
  rw [of_innerMat, of_matInv, of_ridge, hz, of_mm, of_tr, hx]; rfl

theorem directOut_kern {κ : (Fin d → ℝ) → (Fin d → ℝ) → ℝ} (C : ℝ) (X : Mat N d ℝ) (Z : Mat M d ℝ)
    {kxz : Mat N M ℝ} {kzz : Mat M M ℝ} (hx : Matrix.of kxz = kernMat κ X Z)
    (hz : Matrix.of kzz = kernMat κ Z Z) (hG : IsUnit (kernGram κ Z).det)
    (hS : IsUnit (kernSys κ C X Z).det) {g : Fin M → ℝ} {j : Fin d} (hg : g = kernGradSum κ X Z j) :
    directOut C ⟨kxz, matInv (ridge kzz), mm (tr kxz) kxz⟩ g
      = .ok fun i => kernScore κ C X Z j (X i) := by
  have hu : IsUnit (Matrix.of (innerMat C (matInv (ridge kzz)) (mm (tr kxz) kxz))).det := by
    rw [kern_inner C X Z hx hz]; exact inner_unit _ _ hG hS
  simp only [directOut, real_inv_ok hu, Except.ok_bind']
  congr 1
  funext i
  have hinv := inner_inv (C := C) (kernGram κ Z) ((kernMat κ X Z).transpose * kernMat κ X Z) hG
  rw [real_mv, of_out1, of_matInv, kern_inner C X Z hx hz, of_matInv, of_ridge, hz]
  change ((-(Matrix.of kxz * (_ * (kernGram κ Z)⁻¹))).mulVec g) i = _
  rw [hinv, hx, hg]
  change ((-(kernMat κ X Z * (kernSys κ C X Z)⁻¹)).mulVec _) i = _
  rw [Matrix.neg_mulVec, ← Matrix.mulVec_mulVec, kernScore]
  simp only [Matrix.mulVec, dotProduct, kernMat, Matrix.of_apply, Pi.neg_apply]
  rw [← Finset.sum_neg_distrib]
  refine Finset.sum_congr rfl fun m _ => ?_
  ring

theorem fnOut_kern {κ : (Fin d → ℝ) → (Fin d → ℝ) → ℝ} (C : ℝ) (X : Mat N d ℝ) (Z : Mat M d ℝ)
    {kxz : Mat N M ℝ} {kzz : Mat M M ℝ} (hx : Matrix.of kxz = kernMat κ X Z)
    (hz : Matrix.of kzz = kernMat κ Z Z) (hG : IsUnit (kernGram κ Z).det)
    (hS : IsUnit (kernSys κ C X Z).det) {g : Fin M → ℝ} {j : Fin d} (hg : g = kernGradSum κ X Z j)
    {Y : Mat n d ℝ} {kyz : Mat n M ℝ} (hy : Matrix.of kyz = kernMat κ Y Z) :
    fnOut C ⟨kxz, matInv (ridge kzz), mm (tr kxz) kxz⟩ g kyz
      = .ok fun i => kernScore κ C X Z j (Y i) := by
  have hu : IsUnit (Matrix.of (innerMat C (matInv (ridge kzz)) (mm (tr kxz) kxz))).det := by
    rw [kern_inner C X Z hx hz]; exact inner_unit _ _ hG hS
  simp only [fnOut, real_inv_ok hu, Except.ok_bind']
  congr 1
  funext i
  have hinv := inner_inv (C := C) (kernGram κ Z) ((kernMat κ X Z).transpose * kernMat κ X Z) hG
  rw [real_mv, of_out2, of_matInv, kern_inner C X Z hx hz, of_matInv, of_ridge, hz]
  change ((-(Matrix.of kyz * (_ * (kernGram κ Z)⁻¹))).mulVec g) i = _
  rw [hinv, hy, hg]
  change ((-(kernMat κ Y Z * (kernSys κ C X Z)⁻¹)).mulVec _) i = _
  rw [Matrix.neg_mulVec, ← Matrix.mulVec_mulVec, kernScore]
  simp only [Matrix.mulVec, dotProduct, kernMat, Matrix.of_apply, Pi.neg_apply]
  rw [← Finset.sum_neg_distrib]
  refine Finset.sum_congr rfl fun m _ => ?_
  ring

/-! ### Positive definiteness -/

/-- The periodic kernel is the Gaussian kernel of the points on the torus. -/
theorem periodic_posSemidef (l : Fin d → ℝ) (Z : Mat M d ℝ) :
    (kernMat (periodic l) Z Z).PosSemidef := by
  have h1 := gauss_foldl_posSemidef (fun i k => Real.cos (Z i k)) l
  have h2 := gauss_foldl_posSemidef (fun i k => Real.sin (Z i k)) l
  have := h1.hadamard h2
  have e : kernMat (periodic l) Z Z =
      (Matrix.of fun i j => ∏ k, Real.exp (-((Real.cos (Z i k) - Real.cos (Z j k))^2) / (2 * l k * l k))) ⊙
      (Matrix.of fun i j => ∏ k, Real.exp (-((Real.sin (Z i k) - Real.sin (Z j k))^2) / (2 * l k * l k))) := by
    ext i j
    simp only [kernMat, Matrix.of_apply, Matrix.hadamard_apply, ← Finset.prod_mul_distrib, ← Real.exp_add]
    rw [← Real.exp_sum, periodic, Finset.mul_sum]
    congr 1
    refine Finset.sum_congr rfl fun k _ => ?_
    have hs : Real.sin ((Z i k - Z j k) / 2) ^ 2 = (1 - Real.cos (Z i k - Z j k)) / 2 := by
      rw [Real.sin_sq_eq_half_sub]; rw [show 2 * ((Z i k - Z j k) / 2) = Z i k - Z j k by ring]; ring
    rw [hs, Real.cos_sub]
    have a1 := Real.sin_sq_add_cos_sq (Z i k)
    have a2 := Real.sin_sq_add_cos_sq (Z j k)
    by_cases hl : l k = 0
    · simp [hl]
    field_simp
    linear_combination a1 + a2
  rw [e]; exact this

theorem kernGram_posDef {κ : (Fin d → ℝ) → (Fin d → ℝ) → ℝ} {Z : Mat M d ℝ}
    (h : (kernMat κ Z Z).PosSemidef) : (kernGram κ Z).PosDef := by
  unfold kernGram
  have h1 : ((1/1000 : ℝ) • (1 : Matrix (Fin M) (Fin M) ℝ)).PosDef :=
    Matrix.PosDef.smul Matrix.PosDef.one (by norm_num)
  exact Matrix.PosDef.posSemidef_add h h1

theorem kernSys_posDef {κ : (Fin d → ℝ) → (Fin d → ℝ) → ℝ} {C : ℝ} (hC : -1/1000 < C) {X : Mat N d ℝ}
    {Z : Mat M d ℝ} (h : (kernMat κ Z Z).PosSemidef) : (kernSys κ C X Z).PosDef := by
  unfold kernSys
  refine Matrix.PosDef.posSemidef_add ?_ ?_
  · have := Matrix.posSemidef_conjTranspose_mul_self (kernMat κ X Z)
    rwa [Matrix.conjTranspose_eq_transpose_of_trivial] at this
  · exact Matrix.PosDef.smul (kernGram_posDef h) (by linarith)

/-! ### Periodicity -/

theorem sin_half_wind (a : ℝ) (p : ℤ) :
    Real.sin ((a + p * (2 * Real.pi)) / 2) ^ 2 = Real.sin (a / 2) ^ 2 := by
  have : (a + p * (2 * Real.pi)) / 2 = a / 2 + p * Real.pi := by ring
  rw [Real.sin_sq_eq_half_sub, Real.sin_sq_eq_half_sub]
  rw [show 2 * ((a + p * (2 * Real.pi)) / 2) = 2 * (a / 2) + p * (2 * Real.pi) by ring,
    Real.cos_add_int_mul_two_pi]

theorem periodic_wind (l : Fin d → ℝ) (p : Fin N → Fin d → ℤ) (q : Fin M → Fin d → ℤ) (X : Mat N d ℝ)
    (Z : Mat M d ℝ) (i : Fin N) (m : Fin M) :
    periodic l (wind p X i) (wind q Z m) = periodic l (X i) (Z m) := by
  unfold periodic
  congr 2
  refine Finset.sum_congr rfl fun k _ => ?_
  rw [show wind p X i k - wind q Z m k = (X i k - Z m k) + ((p i k - q m k : ℤ) : ℝ) * (2 * Real.pi) by
    unfold wind; push_cast; ring, sin_half_wind]

theorem sin_wind (a : ℝ) (p : ℤ) : Real.sin (a + p * (2 * Real.pi)) = Real.sin a :=
  Real.sin_add_int_mul_two_pi a p

theorem perGrad_vec_wind (l : Fin d → ℝ) (p : Fin N → Fin d → ℤ) (q : Fin M → Fin d → ℤ) (X : Mat N d ℝ)
    (Z : Mat M d ℝ) (j : Fin d) (h1 : Apart X Z j) (h2 : Apart (wind p X) (wind q Z) j) :
    perGrad (wind p X) (wind q Z) j (.vec l) = perGrad X Z j (.vec l) := by
  funext i m
  rw [perGrad_vec_real _ _ _ _ _ _ (h1 i m), perGrad_vec_real _ _ _ _ _ _ (h2 i m),
    pderiv_periodic, pderiv_periodic, periodic_wind]
  rw [show wind p X i j - wind q Z m j = (X i j - Z m j) + ((p i j - q m j : ℤ) : ℝ) * (2 * Real.pi) by
    unfold wind; push_cast; ring, sin_wind]

theorem perGrad_scalar_wind (l : ℝ) (p : Fin N → Fin 1 → ℤ) (q : Fin M → Fin 1 → ℤ) (X : Mat N 1 ℝ)
    (Z : Mat M 1 ℝ) (j : Fin 1) (h1 : Apart X Z j) (h2 : Apart (wind p X) (wind q Z) j) :
    perGrad (wind p X) (wind q Z) j (.scalar l) = perGrad X Z j (.scalar l) := by
  funext i m
  rw [perGrad_scalar_real _ _ _ _ _ _ (h1 i m), perGrad_scalar_real _ _ _ _ _ _ (h2 i m),
    pderiv_periodic, pderiv_periodic, periodic_wind]
  rw [show wind p X i j - wind q Z m j = (X i j - Z m j) + ((p i j - q m j : ℤ) : ℝ) * (2 * Real.pi) by
    unfold wind; push_cast; ring, sin_wind]

end DPFC
