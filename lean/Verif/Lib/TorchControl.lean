import Verif.Lib.Control2
import Verif.Lib.NanFlow
import Verif.Lib.QueryEquiv

/-! The queries of the torch class on the reals. -/

set_option linter.unusedSectionVars false

namespace DPFC
open Spec

section
variable {K ρ : Type} [Add K] [Sub K] [Mul K] [Div K] [Neg K] [NumOps K]
variable {N M d n c : Nat}

theorem torchCalculateU_inner (env : Env ρ K) (o : Obj d N M K) (x : Mat n c K) (ti : Int)
    (b z zr : Mat d N K) (bn : Fin d → K × K)
    (hb : pyAt o.B ti = some b) (hz : pyAt o.Z ti = some z) (hr : reference o ti = some zr)
    (hbn : hullBox zr b = .ok bn) (he : ¬ Edge o.timegrid.length ti) :
    torchCalculateU env o x ti = (torchInducing env bn M >>= fun S =>
      (liftM (torchScoreFn (tr b) S (.tensor (torchLengthScales b)) (lit 1 1000)
        (effKern o.cfg.kern) (.tensor x)) : RandM ρ (Mat n d K)) >>= fun sB =>
      (liftM (torchScoreFn (tr zr) S (.tensor (torchLengthScales zr)) (lit 1 1000)
        (effKern o.cfg.kern) (.tensor x)) : RandM ρ (Mat n d K)) >>= fun sF =>
      pure (⟨d, n, fun i j => sB j i - sF j i⟩ : Dyn2 K)) := by
  unfold torchCalculateU
  unfold reference at hr
  rw [pyGet_of_pyAt hb, pyGet_of_pyAt hz]
  simp only [RandM.liftM_ok, pure_bind,
    if_neg (show ¬ (ti ≤ 5 ∨ (o.timegrid.length : Int) - 5 ≤ ti) from he)]
  cases hm : (o.cfg.reweight && o.cfg.brownBridge) with
  | false =>
    rw [hm] at hr
    simp only [Bool.false_eq_true, if_false] at hr
    rw [hr] at hz; cases hz
    simp only [RandM.liftM_ok, pure_bind, Option.getD_none, hbn]
  | true =>
    rw [hm] at hr
    simp only [if_true] at hr
    cases hT : o.Ztr with
    | none => rw [hT] at hr; cases hr
    | some T =>
      rw [hT] at hr
      simp only [Option.bind_some] at hr
      simp only [pyGet_of_pyAt hr, Except.ok_bind', RandM.liftM_ok, pure_bind, Option.getD_some, hbn]

end

section real
variable {ρ : Type} {N M d n c : Nat}

/-- With one column the argument is repeated over the coordinates. -/
theorem torchScoreFn_one (hd : 2 ≤ d) (X : Mat N d ℝ) (Z : Mat M d ℝ) (l : Fin d → ℝ) (C : ℝ) (Y : Mat n 1 ℝ) :
    torchScoreFn X Z (.tensor l) C "RBF" (.tensor Y)
      = torchScoreFn X Z (.tensor l) C "RBF" (.tensor fun i (_ : Fin d) => Y i 0) := by
  unfold torchScoreFn
  have e : (TLS.tensor l).classify = .ok (LS.vec l) := classify_tensor hd l
  simp only [torchCommon_real X Z _ _ e, Except.ok_bind']
  have : torchKsz Z (TLS.tensor l) (LS.vec l) "RBF" (.tensor Y)
      = torchKsz Z (TLS.tensor l) (LS.vec l) "RBF" (.tensor fun i (_ : Fin d) => Y i 0) := by
    simp only [torchKsz, if_true, true_or, or_true, dite_true]
    congr 1
    funext i j
    congr 3
    funext k
    rw [dif_neg (by omega)]
    rfl
  rw [this]

theorem sampleGaussU (b z : Fin N → ℝ) (hb : sampleSdev b ≠ 0) (hz : sampleSdev z ≠ 0) (x : ℝ) :
    gaussU torchStd b z x = sampleGaussScore b x - sampleGaussScore z x := by
  have e : ∀ v : Fin N → ℝ, sampleSdev v ≠ 0 → sampleGaussScore v x = -(x - avg v) / sampleSdev v ^ 2 :=
    fun v hs => (hasDerivAt_log_normal _ _ x hs).deriv
  rw [e b hb, e z hz, gaussU]
  simp only [torchStd_real, real_sq, real_mean, avg]

theorem sampleSdev_ne_zero (hN : 2 ≤ N) {v : Fin N → ℝ} (h : sdev v ≠ 0) : sampleSdev v ≠ 0 := by
  intro h0
  have h1 := sampleSdev_sq hN v
  rw [h0] at h1
  have h2 : (0:ℝ) < N / (N - 1) := by
    have : (2:ℝ) ≤ N := by exact_mod_cast hN
    exact div_pos (by linarith) (by linarith)
  have h3 : (0:ℝ) < sdev v ^ 2 := by positivity
  have := mul_pos h2 h3
  rw [← h1] at this
  norm_num at this

theorem lo_lt_hi_of_spread (hN : 0 < N) {v : Fin N → ℝ} (h : sdev v ≠ 0) : lo v < hi v := by
  by_contra hc
  push Not at hc
  apply h
  have hall : v = fun _ => v ⟨0, hN⟩ := by
    funext i
    have h1 : ∀ j, lo v ≤ v j := fun j => (lo_le_iff hN v _).2 ⟨j, le_refl _⟩
    have h2 : ∀ j, v j ≤ hi v := fun j => (le_hi_iff hN v _).2 ⟨j, le_refl _⟩
    have := h1 i; have := h2 i; have := h1 ⟨0, hN⟩; have := h2 ⟨0, hN⟩
    linarith
  rw [hall]
  exact sdev_const _

end real
end DPFC
