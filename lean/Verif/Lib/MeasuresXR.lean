import Verif.Lib.Measures

/-! Helper lemmas for C101: values with infinities and NaN. -/

namespace DPFC
open Spec
variable {d R n : ℕ}
variable (inv : {m : ℕ} → Mat m m XR → Except PyErr (Mat m m XR))

theorem xr_sq_fin (a : ℝ) : sq (XR.fin a) = XR.fin (a * a) := rfl
theorem xr_sq_nan : sq XR.nan = XR.nan := rfl
theorem xr_sq_pinf : sq XR.pinf = XR.pinf := by
  show XR.infMul (XR.sgn .pinf * XR.sgn .pinf) = _
  simp [XR.infMul, XR.sgn]
theorem xr_sq_ninf : sq XR.ninf = XR.pinf := by
  show XR.infMul (XR.sgn .ninf * XR.sgn .ninf) = _
  simp [XR.infMul, XR.sgn]

theorem xr_add_fin (a b : ℝ) : XR.fin a + XR.fin b = XR.fin (a + b) := rfl
theorem xr_add_pinf_right (a : ℝ) : XR.fin a + XR.pinf = XR.pinf := rfl
theorem xr_add_pinf_left (a : ℝ) : XR.pinf + XR.fin a = XR.pinf := rfl
theorem xr_add_pinf_pinf : XR.pinf + XR.pinf = XR.pinf := rfl

/-- Either a number or plus infinity. -/
def Up (x : XR) : Prop := (∃ a, x = .fin a) ∨ x = .pinf

theorem xr_fold_pinf {n : ℕ} (v : Fin n → XR) (hv : ∀ i, Up (v i)) :
    Fin.foldl n (fun acc i => acc + v i) .pinf = .pinf := by
  induction n with
  | zero => rfl
  | succ n ih =>
    rw [Fin.foldl_succ]
    have : XR.pinf + v 0 = .pinf := by
      rcases hv 0 with ⟨a, e⟩ | e <;> rw [e] <;> rfl
    rw [this]
    exact ih _ fun i => hv i.succ

theorem xr_fold_pinf_of {n : ℕ} (v : Fin n → XR) (hv : ∀ i, Up (v i)) (i : Fin n) (hi : v i = .pinf) (a : ℝ) :
    Fin.foldl n (fun acc i => acc + v i) (.fin a) = .pinf := by
  induction n generalizing a with
  | zero => exact i.elim0
  | succ n ih =>
    rw [Fin.foldl_succ]
    cases i using Fin.cases with
    | zero => rw [hi]; exact xr_fold_pinf _ fun i => hv i.succ
    | succ i =>
      rcases hv 0 with ⟨b, e⟩ | e
      · rw [e]; exact ih (fun j => v j.succ) (fun j => hv j.succ) i hi _
      · rw [e]; exact xr_fold_pinf _ fun i => hv i.succ

section
/-- The square that `nanSum` adds up. -/
noncomputable def sqv : XR → XR
  | .fin a => .fin (a ^ 2)
  | .nan => .fin 0
  | _ => .pinf

theorem sqv_inf {x : XR} (h : x = .pinf ∨ x = .ninf) : sqv x = .pinf := by rcases h with rfl | rfl <;> rfl

theorem sqv_notInf {x : XR} (h : NotInf x) : sqv x = .fin (nanToZero x ^ 2) := by
  cases x with
  | fin a => rfl
  | nan => simp [sqv, nanToZero]
  | pinf => exact absurd rfl h.1
  | ninf => exact absurd rfl h.2

theorem xr_term (x : XR) : letI : NumOps XR := XR.ops inv
    (if NumOps.eqB (sq x) (sq x) then sq x else lit 0 1 : XR) =
      sqv x := by
  cases x with
  | fin a => simp [xr_sq_fin, sqv, pow_two, NumOps.eqB]
  | pinf => simp [xr_sq_pinf, sqv, NumOps.eqB]
  | ninf => simp [xr_sq_ninf, sqv, NumOps.eqB]
  | nan => simp [xr_sq_nan, NumOps.eqB, sqv, lit, NumOps.lit]

theorem xr_up (x : XR) : Up (sqv x) := by
  cases x
  · exact .inl ⟨_, rfl⟩
  · exact .inr rfl
  · exact .inr rfl
  · exact .inl ⟨_, rfl⟩

theorem xr_nanSum (v : Fin n → XR) : letI : NumOps XR := XR.ops inv
    nanSum (fun i => sq (v i)) =
      Fin.foldl n (fun acc i => acc + sqv (v i)) (.fin 0) := by
  simp only [nanSum, xr_term]
  rfl

theorem xr_nanSum_fin (v : Fin n → XR) (h : ∀ i, NotInf (v i)) : letI : NumOps XR := XR.ops inv
    nanSum (fun i => sq (v i)) = .fin (∑ i, nanToZero (v i) ^ 2) := by
  rw [xr_nanSum]
  simp only [fun i => sqv_notInf (h i), XR.sum_fin, zero_add]

theorem xr_nanSum_inf (v : Fin n → XR) (i : Fin n) (h : v i = .pinf ∨ v i = .ninf) :
    letI : NumOps XR := XR.ops inv
    nanSum (fun i => sq (v i)) = .pinf := by
  rw [xr_nanSum]
  exact xr_fold_pinf_of _ (fun i => xr_up _) i (sqv_inf h) _

theorem xr_norm_fin (u : Mat d R XR) (r : Fin R) (h : ∀ a, NotInf (u a r)) : letI : NumOps XR := XR.ops inv
    ctlNorm u r = .fin (ctlNorm (fun a r => nanToZero (u a r)) r) := by
  letI : NumOps XR := XR.ops inv
  unfold ctlNorm
  rw [xr_nanSum_fin inv _ h]
  show (if _ < _ then XR.nan else XR.fin _) = _
  rw [if_neg (not_lt.2 (Finset.sum_nonneg fun _ _ => sq_nonneg _)), nanSum_real]
  simp only [sq, ← pow_two]
  rfl

theorem xr_norm_inf (u : Mat d R XR) (r : Fin R) (a : Fin d) (h : u a r = .pinf ∨ u a r = .ninf) :
    letI : NumOps XR := XR.ops inv
    ctlNorm u r = .pinf := by
  letI : NumOps XR := XR.ops inv
  unfold ctlNorm
  rw [xr_nanSum_inf inv _ a h]
  rfl

theorem xr_norm_up (u : Mat d R XR) (r : Fin R) : Up (letI : NumOps XR := XR.ops inv; ctlNorm u r) := by
  by_cases h : ∀ a, NotInf (u a r)
  · exact .inl ⟨_, xr_norm_fin inv u r h⟩
  · simp only [not_forall, NotInf, not_and_or, not_not] at h
    obtain ⟨a, ha⟩ := h
    exact .inr (xr_norm_inf inv u r a ha)

theorem xr_div_pos {T dt : ℝ} (hT : 0 < T) (hdt : 0 < dt) (a : ℝ) :
    XR.fin a / (XR.fin T / XR.fin dt) = .fin (a / (T / dt)) := by
  have h1 : XR.fin T / XR.fin dt = .fin (T / dt) := if_neg hdt.ne'
  rw [h1]
  exact if_neg (div_pos hT hdt).ne'

theorem xr_pinf_div_pos {T dt : ℝ} (hT : 0 < T) (hdt : 0 < dt) :
    XR.pinf / (XR.fin T / XR.fin dt) = .pinf := by
  have h1 : XR.fin T / XR.fin dt = .fin (T / dt) := if_neg hdt.ne'
  have h0 := div_pos hT hdt
  rw [h1]
  show (if T / dt = 0 then XR.pinf else XR.infMul (XR.sgn .pinf * XR.sgn (.fin (T / dt)))) = _
  rw [if_neg h0.ne']
  simp [XR.infMul, XR.sgn, h0]

theorem xr_effort_fin {T dt : ℝ} (hT : 0 < T) (hdt : 0 < dt) (u : Traj d R XR) (r : Fin R)
    (h : ∀ m ∈ u, ∀ a, NotInf (m a r)) : letI : NumOps XR := XR.ops inv
    effort (.fin T) (.fin dt) u r = .fin (effort T dt (u.map fun m a r => nanToZero (m a r)) r) := by
  letI : NumOps XR := XR.ops inv
  unfold effort
  have e : ∀ i : Fin u.length, (letI : NumOps XR := XR.ops inv; ctlNorm u[i] r) =
      .fin (ctlNorm (fun a r => nanToZero (u[i] a r)) r) := fun i =>
    xr_norm_fin inv _ r fun a => h _ (List.getElem_mem _) a
  have e2 : (NumOps.sum fun i : Fin u.length => ctlNorm u[i] r) =
      XR.fin (∑ i : Fin u.length, ctlNorm (fun a r => nanToZero (u[i] a r)) r) := by
    simp only [e]
    exact (XR.sum_fin _ 0).trans (by rw [zero_add])
  rw [e2, xr_sq_fin, xr_div_pos hT hdt]
  simp only [sq, real_sum]
  congr 3 <;>
  · refine Fintype.sum_equiv (finCongr (by simp)) _ _ fun i => ?_
    simp

theorem xr_effort_inf {T dt : ℝ} (hT : 0 < T) (hdt : 0 < dt) (u : Traj d R XR) (r : Fin R)
    (m) (hm : m ∈ u) (a : Fin d) (h : m a r = .pinf ∨ m a r = .ninf) : letI : NumOps XR := XR.ops inv
    effort (.fin T) (.fin dt) u r = .pinf := by
  obtain ⟨i, hi, rfl⟩ := List.getElem_of_mem hm
  letI : NumOps XR := XR.ops inv
  unfold effort
  have e := xr_fold_pinf_of (fun i : Fin u.length => (letI : NumOps XR := XR.ops inv; ctlNorm u[i] r))
    (fun i => xr_norm_up inv _ r) ⟨i, hi⟩ (xr_norm_inf inv _ r a h) 0
  have e2 : (NumOps.sum fun i : Fin u.length => ctlNorm u[i] r) = XR.pinf := e
  rw [e2, xr_sq_pinf, xr_pinf_div_pos hT hdt]

theorem xr_ltB (a b : XR) : (letI : NumOps XR := XR.ops inv; NumOps.ltB a b) = true ↔ XR.lt a b := by
  simp [NumOps.ltB]

end
end DPFC
