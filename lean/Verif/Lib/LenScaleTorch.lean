import Verif.Lib.LenScale

/-! # Lemmas about lengthscale lists of any length: torch -/

namespace DPFC
open Spec

variable {N M d m : Nat}

theorem bget_fin {a : Nat} (v : Fin a → ℝ) (i : Fin a) : bget v i.val = v i := by
  unfold bget
  rw [dif_pos (by rw [bidx_of_fin]; exact i.2)]
  simp only [bidx_of_fin, Fin.eta]

theorem bget_one (v : Fin 1 → ℝ) (i : Nat) : bget v i = v 0 := by
  unfold bget
  rw [dif_pos (by simp [bidx])]
  simp [bidx]

theorem bdim_self (a : Nat) : bdim a a = some a := by simp [bdim]

theorem directOut_smul {C : ℝ} (hC : -1/1000 < C) (l : Fin d → ℝ) (X : Mat N d ℝ) (Z : Mat M d ℝ) (j : Fin d) (r : ℝ) :
    directOut C (preReal l X Z) (fun a => r * gradSum l X Z j a) = .ok fun i => r * score C l X Z j (X i) := by
  simp only [directOut, real_inv_ok (inner_real_unit hC l X Z), Except.ok_bind']
  congr 1
  funext i
  have : (fun a => r * gradSum l X Z j a) = r • gradSum l X Z j := rfl
  rw [real_mv, of_out1, inner_real_inv, score_eq_mulVec, Matrix.neg_mulVec, this, Matrix.mulVec_smul]
  simp only [Pi.neg_apply, Pi.smul_apply, smul_eq_mul, mul_neg]
  rfl

/-- The matrix of one `Kernel` call with `multil=True`. -/
theorem anyKernel_true {dd : Nat} (hb : bdim d m = some dd) (l : Fin m → ℝ) (X : Mat N d ℝ) (Y : Mat M d ℝ)
    (L : Fin d → ℝ)
    (hK : ∀ x y : Fin d → ℝ, Real.exp (-(1/2) * ∑ k : Fin dd, bget (fun k' : Fin d => (x k' - y k')^2) k / (bget l k)^2)
      = gauss L x y) (kd : Option (Dyn2 ℝ)) :
    (⟨.arr m l, true, lit 1 1, kd⟩ : RBFAny ℝ).kernel X Y
      = .ok (⟨N, M, gk L X Y⟩, ⟨.arr m l, true, lit 1 1, some ⟨N, M, gk L X Y⟩⟩) := by
  have e : (fun i j => (lit 1 1 : ℝ) * NumOps.exp (-(lit 1 2) *
          (NumOps.sum fun k : Fin dd => bget (fun k' : Fin d => sq (X i k' - Y j k')) k / sq (bget l k)))) = gk L X Y := by
    funext i j
    simp only [real_lit_half, real_exp, real_sum, real_sq, hK, gk]
    simp
  simp only [RBFAny.kernel, hb, Except.ok_bind', e]

theorem anyGrad_ok {dd : Nat} (hb : bdim d m = some dd) (l : Fin m → ℝ) (fl : Bool) (sv : ℝ) (X : Mat N d ℝ)
    (Y : Mat M d ℝ) (G : Mat N M ℝ) :
    (⟨.arr m l, fl, sv, some ⟨N, M, G⟩⟩ : RBFAny ℝ).gradientX X Y
      = .ok ⟨N, M, dd, fun i j k => bget (fun k' : Fin d => X i k' - Y j k') k / (bget l k)^2 * G i j⟩ := by
  simp only [RBFAny.gradientX, hb, bdim_self, Except.ok_bind', bget_fin, real_sq]

theorem torchList_core {dd : Nat} (hb : bdim d m = some dd) (hdd : d ≤ dd) (X : Mat N d ℝ) (Z : Mat M d ℝ)
    (l : Fin m → ℝ) (L r : Fin d → ℝ)
    (hK : ∀ x y : Fin d → ℝ, Real.exp (-(1/2) * ∑ k : Fin dd, bget (fun k' : Fin d => (x k' - y k')^2) k / (bget l k)^2)
      = gauss L x y)
    (hG : ∀ (di : Fin d) (x y : Fin d → ℝ), (x di - y di) / (bget l di)^2
      = r di * ((x di - y di) / L di ^ 2)) :
    torchScoreList X Z l = .ok fun i j => r j * score (1/1000) L X Z j (X i) := by
  have hk := anyKernel_true hb l X Z L hK none
  have hkz := anyKernel_true hb l Z Z L hK none
  simp only [torchScoreList, RBFAny.new, Except.ok_bind', hk, hkz, bget_fin, anyGrad_ok hb,
    real_inv_ok (ridge_unit L Z), real_lit_milli]
  have hc : ∀ di : Fin d, (if h : di.val < dd then
      directOut (1/1000) (preReal L X Z) (fun mm => NumOps.sum fun n : Fin N =>
        -((X n di - Z mm di) / (bget l di)^2 * gk L X Z n mm))
    else do
      let _ ← NumOps.inv (innerMat (1/1000) (preReal L X Z).Ksinv (preReal L X Z).A)
      .error .indexError) = .ok fun i => r di * score (1/1000) L X Z di (X i) := by
    intro di
    rw [dif_pos (by omega)]
    rw [show (fun mm => NumOps.sum fun n : Fin N =>
        -((X n di - Z mm di) / (bget l di)^2 * gk L X Z n mm))
      = fun a => r di * gradSum L X Z di a from ?_]
    · exact directOut_smul (by norm_num) L X Z di (r di)
    · funext a
      rw [real_sum, gradSum, Finset.mul_sum]
      refine Finset.sum_congr rfl fun n _ => ?_
      rw [hG, pderiv_gauss]
      simp only [gk]
      ring
  have := (seqM_except_ok (v := fun di i => r di * score (1/1000) L X Z di (X i))).2 hc
  exact Eq.trans (congrArg (fun z : Except PyErr (Fin d → Fin N → ℝ) => (z >>= fun cols => Except.ok fun n di => cols di n : Except PyErr (Mat N d ℝ))) this) rfl

/-- Product of one-dimensional Gaussians around the same point. -/
theorem gauss_one_combine (l : Fin m → ℝ) (L : ℝ) (hL : 1 / L^2 = ∑ k, 1 / (l k)^2) (x y : Fin 1 → ℝ) :
    Real.exp (-(1/2) * ∑ k : Fin m, (x 0 - y 0)^2 / (l k)^2) = gauss (fun _ => L) x y := by
  have e : ∑ k : Fin m, (x 0 - y 0)^2 / (l k)^2 = (x 0 - y 0)^2 * (1 / L^2) := by
    rw [hL, Finset.mul_sum]
    exact Finset.sum_congr rfl fun k _ => by ring
  rw [e]
  simp only [gauss, Fin.sum_univ_one]
  congr 1
  ring

end DPFC
