import Verif.Spec.Gaussian
import Verif.Lib.Pice
import Mathlib.LinearAlgebra.Matrix.ToLinearEquiv
import Mathlib.LinearAlgebra.Matrix.DotProduct

/-! The linear-Gaussian theory script over the reals. -/

namespace DPFC
open Spec Matrix
variable {ρ : Type} {d n k : ℕ}

/-- Adding 1e-6 I to a matrix with nonnegative quadratic form makes it invertible. -/
theorem reg_unit (C : Matrix (Fin d) (Fin d) ℝ) (h : ∀ v : Fin d → ℝ, 0 ≤ v ⬝ᵥ (C *ᵥ v)) :
    IsUnit (Cᵀ + (1/1000000 : ℝ) • (1 : Matrix (Fin d) (Fin d) ℝ)).det := by
  rw [isUnit_iff_ne_zero]
  intro h0
  obtain ⟨v, hv, hz⟩ := Matrix.exists_mulVec_eq_zero_iff.2 h0
  have h1 : v ⬝ᵥ ((Cᵀ + (1/1000000 : ℝ) • (1 : Matrix (Fin d) (Fin d) ℝ)) *ᵥ v) = 0 := by rw [hz, dotProduct_zero]
  rw [add_mulVec, dotProduct_add, smul_mulVec, one_mulVec, dotProduct_smul, smul_eq_mul] at h1
  have h2 : v ⬝ᵥ (Cᵀ *ᵥ v) = v ⬝ᵥ (C *ᵥ v) := by
    rw [mulVec_transpose, dotProduct_comm, dotProduct_mulVec]
  have h3 : 0 < v ⬝ᵥ v := by
    have h4 : v ⬝ᵥ v ≠ 0 := fun hh => hv (dotProduct_self_eq_zero.1 hh)
    exact lt_of_le_of_ne (Finset.sum_nonneg fun i _ => mul_self_nonneg _) (Ne.symm h4)
  have := h v
  rw [h2] at h1
  linarith

theorem of_minusTwo (Kc C : Mat d d ℝ) : Matrix.of (minusTwo Kc C) = (-2 : ℝ) • (Matrix.of Kc * Matrix.of C) := by
  unfold minusTwo
  rw [of_mm]
  have : Matrix.of (fun a b => lit (-2) 1 * Kc a b : Mat d d ℝ) = (-2 : ℝ) • Matrix.of Kc := by
    ext a b; simp [real_lit]
  rw [this, smul_mul]

theorem mm_col {p : ℕ} (A : Mat d p ℝ) (x : Mat p n ℝ) (j : Fin n) :
    (fun a => mm A x a j) = Matrix.of A *ᵥ fun a => x a j := by
  funext a
  simp [mm, mulVec, dotProduct]

theorem reg_of (C : Mat d d ℝ) : Matrix.of (fun a b => tr C a b + lit 1 1000000 * eye a b : Mat d d ℝ)
    = (Matrix.of C)ᵀ + (1/1000000 : ℝ) • (1 : Matrix (Fin d) (Fin d) ℝ) := by
  ext a b
  by_cases h : a = b
  · subst h; simp [tr, eye, real_lit]
  · simp [tr, eye, h, real_lit]

theorem gaussScoreM_ok (x : Mat d n ℝ) (m : Fin d → ℝ) (C : Mat d d ℝ)
    (h : IsUnit ((Matrix.of C)ᵀ + (1/1000000 : ℝ) • (1 : Matrix (Fin d) (Fin d) ℝ)).det) :
    gaussScoreM x m C = .ok fun a j => normalScore (Matrix.of C)ᵀ m (fun b => x b j) a := by
  unfold gaussScoreM
  rw [real_inv_ok (by rw [reg_of]; exact h)]
  simp only [Except.ok_bind']
  congr 1
  funext a j
  have := congrFun (mm_col (negM (matInv fun a b => tr C a b + lit 1 1000000 * eye a b)) (fun a j => x a j - m a) j) a
  rw [this, of_negM]
  unfold normalScore
  rw [neg_mulVec]
  congr 1
  unfold matInv
  rw [reg_of]
  rfl

theorem gaussScoreM_err (x : Mat d n ℝ) (m : Fin d → ℝ) (C : Mat d d ℝ)
    (h : ¬ IsUnit ((Matrix.of C)ᵀ + (1/1000000 : ℝ) • (1 : Matrix (Fin d) (Fin d) ℝ)).det) :
    gaussScoreM x m C = .error .linAlgError := by
  unfold gaussScoreM
  rw [real_inv_err (by rw [reg_of]; exact h)]
  rfl

theorem gaussCtl_ok (G : GaussModel d ℝ) (hG : Covariances k G) (x : Mat d n ℝ) {i : ℕ} (hi : i < k) :
    ∃ u : Mat d n ℝ, gaussCtl G k x (i : Int) = .ok u ∧ ∀ j, IsGaussControl G k i (fun a => x a j) fun a => u a j := by
  have h1 : k - 1 - i < k := by omega
  obtain ⟨mq, hmq⟩ : ∃ m, G.mtb[k-1-i]? = some m := ⟨_, List.getElem?_eq_getElem (by rw [hG.lmb]; exact h1)⟩
  obtain ⟨Cq, hCq⟩ : ∃ m, G.Ctb[k-1-i]? = some m := ⟨_, List.getElem?_eq_getElem (by rw [hG.lCb]; exact h1)⟩
  obtain ⟨mp, hmp⟩ : ∃ m, G.mt[i]? = some m := ⟨_, List.getElem?_eq_getElem (by rw [hG.lm]; exact hi)⟩
  obtain ⟨Cp, hCp⟩ : ∃ m, G.Ct[i]? = some m := ⟨_, List.getElem?_eq_getElem (by rw [hG.lC]; exact hi)⟩
  have e : (k : Int) - (i : Int) - 1 = ((k - 1 - i : ℕ) : Int) := by omega
  have uq := reg_unit (Matrix.of Cq) (hG.psdb Cq (List.mem_of_getElem? hCq))
  have up := reg_unit (Matrix.of Cp) (hG.psd Cp (List.mem_of_getElem? hCp))
  refine ⟨mm (mm G.s (tr G.s)) fun a j => normalScore (Matrix.of Cq)ᵀ mq (fun b => x b j) a
      - normalScore (Matrix.of Cp)ᵀ mp (fun b => x b j) a, ?_, fun j => ⟨mq, Cq, mp, Cp, hmq, hCq, hmp, hCp, ?_⟩⟩
  · unfold gaussCtl
    rw [e]
    simp only [pyGet_of_getElem? hmq, pyGet_of_getElem? hCq, pyGet_of_getElem? hmp, pyGet_of_getElem? hCp,
      Except.ok_bind', gaussScoreM_ok _ _ _ uq, gaussScoreM_ok _ _ _ up]
  · rw [mm_col, of_mm, of_tr]
    rfl

/-- One step on arrays as functions. -/
theorem gaussStep_real (env : Env ρ ℝ) (Kc C s : Mat d d ℝ) (G : GaussModel d ℝ) (hG : Covariances k G) {i : ℕ}
    (hi : i + 1 < k) (X : ℕ → Mat d n ℝ) (q : ρ) :
    ∃ Y : Mat d n ℝ, gaussStep env (gaussDrift Kc C) s G k (i+1) (arrT k X) q
        = .ok (arrT k (Function.update X (i+1) Y), normalsNext env d n q) ∧
      ∀ j, ∃ u, IsGaussControl G k i (fun a => X i a j) u ∧
        (fun a => Y a j) = (fun a => X i a j)
          + (1/1000 : ℝ) • (((-2 : ℝ) • (Matrix.of Kc * Matrix.of C)) *ᵥ (fun a => X i a j) + u)
          + Real.sqrt (1/1000) • (Matrix.of s *ᵥ fun a => normals env d n q a j) := by
  obtain ⟨u, hu, hc⟩ := gaussCtl_ok G hG (X i) (show i < k by omega)
  have e : (((i + 1 : ℕ) : Int) - 1) = (i : Int) := by omega
  refine ⟨fun a j => X i a j + dtc * gaussDrift Kc C (X i) a j + dtc * u a j
      + mm s (fun a n' => NumOps.sqrt dtc * normals env d n q a n') a j, ?_, fun j => ⟨_, hc j, ?_⟩⟩
  · unfold gaussStep
    simp only [e, arrT_pyGet X (show i < k by omega), hu, RandM.liftM_ok, pure_bind]
    rw [RandM.bind_app, normalMat_real]
    simp only [arrT_setSlice X hi, RandM.liftM_ok]
    rfl
  · funext a
    have h1 := congrFun (mm_col (minusTwo Kc C) (X i) j) a
    have h2 := congrFun (mm_col s (fun a n' => NumOps.sqrt dtc * normals env d n q a n') j) a
    unfold gaussDrift
    beta_reduce
    rw [h1, h2, of_minusTwo]
    have h3 : (fun a => NumOps.sqrt (dtc : ℝ) * normals env d n q a j)
        = Real.sqrt (1/1000) • fun a => normals env d n q a j := by
      funext a; simp [dtc_real, real_sqrt]
    rw [h3, mulVec_smul]
    simp only [Pi.add_apply, Pi.smul_apply, smul_eq_mul, dtc_real]
    ring

/-- The loop from time index `i+1` on. -/
theorem gauss_loop (env : Env ρ ℝ) (Kc C : Mat d d ℝ) (G G0 : GaussModel d ℝ) (hG : Covariances k G)
    (hG0 : Covariances k G0) (y1 : Fin d → ℝ) : ∀ (ts : List ℝ) (i : ℕ) (X X0 : ℕ → Mat d n ℝ) (q : ρ),
    i + 1 + ts.length = k →
    ∃ (Y Y0 : ℕ → Mat d n ℝ) (rs : ℕ → ρ), enumLoop (gaussBody env (gaussDrift Kc C) G G0 y1 k) (i+1) ts
        ⟨arrT k X, arrT k X0⟩ q = .ok (⟨arrT k Y, arrT k Y0⟩, rs (k-1)) ∧ rs i = q ∧
      (∀ l, l ≤ i → Y l = X l ∧ Y0 l = X0 l) ∧ ∀ l, i ≤ l → l + 1 < k →
        rs (l+1) = normalsNext env d n (normalsNext env d n (rs l)) ∧
        (∀ j, ∃ u, IsGaussControl G0 k l (fun a => Y0 l a j) u ∧
          (fun a => Y0 (l+1) a j) = (fun a => Y0 l a j)
            + (1/1000 : ℝ) • (((-2 : ℝ) • (Matrix.of Kc * Matrix.of C)) *ᵥ (fun a => Y0 l a j) + u)
            + Real.sqrt (1/1000) • (Matrix.of G.s *ᵥ fun a => normals env d n (rs l) a j)) ∧
        (∀ j, ∃ u, IsGaussControl G k l (fun a => Y l a j) u ∧
          (fun a => Y (l+1) a j) = (fun a => Y l a j)
            + (1/1000 : ℝ) • (((-2 : ℝ) • (Matrix.of Kc * Matrix.of C)) *ᵥ (fun a => Y l a j) + u)
            + Real.sqrt (1/1000) • (Matrix.of G.s *ᵥ fun a => normals env d n (normalsNext env d n (rs l)) a j)) := by
  intro ts
  induction ts with
  | nil =>
    intro i X X0 q hk
    simp only [List.length_nil, Nat.add_zero] at hk
    exact ⟨X, X0, fun _ => q, rfl, rfl, fun _ _ => ⟨rfl, rfl⟩, fun l h1 h2 => by omega⟩
  | cons t ts ih =>
    intro i X X0 q hk
    simp only [List.length_cons] at hk
    obtain ⟨y0, h0, c0⟩ := gaussStep_real env Kc C G.s G0 hG0 (show i + 1 < k by omega) X0 q
    obtain ⟨y, h1, c1⟩ := gaussStep_real env Kc C G.s G hG (show i + 1 < k by omega) X (normalsNext env d n q)
    obtain ⟨Y, Y0, rs, hl, hrs, hold, hnew⟩ := ih (i+1) (Function.update X (i+1) y) (Function.update X0 (i+1) y0)
      (normalsNext env d n (normalsNext env d n q)) (by omega)
    have hb : gaussBody env (gaussDrift Kc C) G G0 y1 k (i+1) t ⟨arrT k X, arrT k X0⟩ q
        = .ok (⟨arrT k (Function.update X (i+1) y), arrT k (Function.update X0 (i+1) y0)⟩,
          normalsNext env d n (normalsNext env d n q)) := by
      unfold gaussBody
      rw [if_neg (by omega), RandM.bind_app, h0]
      simp only []
      rw [RandM.bind_app, h1]
      rfl
    have hX : ∀ l, l ≤ i → Y l = X l ∧ Y0 l = X0 l := by
      intro l hl'
      obtain ⟨ha, hb⟩ := hold l (by omega)
      rw [ha, hb, Function.update_of_ne (by omega), Function.update_of_ne (by omega)]
      exact ⟨rfl, rfl⟩
    have hX1 : Y (i+1) = y ∧ Y0 (i+1) = y0 := by
      obtain ⟨ha, hb⟩ := hold (i+1) le_rfl
      rw [ha, hb, Function.update_self, Function.update_self]
      exact ⟨rfl, rfl⟩
    refine ⟨Y, Y0, Function.update rs i q, ?_, Function.update_self .., hX, ?_⟩
    · rw [enumLoop, RandM.bind_app, hb]
      simp only []
      rw [hl, Function.update_of_ne (by omega)]
    · intro l hil hlk
      by_cases h : l = i
      · subst h
        rw [Function.update_self, Function.update_of_ne (by omega), hrs]
        refine ⟨rfl, ?_, ?_⟩
        · rw [(hX l le_rfl).2, hX1.2]; exact c0
        · rw [(hX l le_rfl).1, hX1.1]; exact c1
      · rw [Function.update_of_ne h, Function.update_of_ne (by omega)]
        exact hnew l (by omega) hlk

end DPFC
