import Verif.Lib.XRTotal
import Verif.Spec.Periodic

/-!
# C60: the periodic kernel gradient at coinciding coordinates

`K` is any arithmetic with the special-value rules of IEEE 754 (`Spec.Ieee`).
-/

namespace DPFC
open Spec

variable {K : Type} [Add K] [Sub K] [Mul K] [Div K] [Neg K] [NumOps K]
variable {d N M n : ℕ}

/-- zero or NaN -/
private def ZN (I : Ieee K) (a : K) : Prop := I.zero a ∨ I.nan a

private theorem zn_mul_left {I : Ieee K} {a b : K} (h : ZN I a) : ZN I (a * b) :=
  h.elim (fun h => I.zero_mul_any h) (fun h => Or.inr (I.nan_mul_left h))

private theorem zn_mul_right {I : Ieee K} {a b : K} (h : ZN I b) : ZN I (a * b) :=
  h.elim (fun h => I.mul_zero_any h) (fun h => Or.inr (I.nan_mul_right h))

private theorem zn_div {I : Ieee K} {a b : K} (h1 : ZN I a) (h2 : ZN I b) : I.nan (a / b) := by
  rcases h1 with h1 | h1
  · rcases h2 with h2 | h2
    · exact I.zero_div_zero h1 h2
    · exact I.nan_div_right h2
  · exact I.nan_div_left h1

private theorem nan_perGrad (I : Ieee K) {X : Mat N d K} {Z : Mat M d K} (l : LS d K) {j : Fin d} {i : Fin N}
    {m : Fin M} (h : X i j = Z m j) (hf : I.fin (Z m j)) : I.nan (perGrad X Z j l i m) := by
  have hz : I.zero (X i j - Z m j) := by rw [h]; exact I.sub_self hf
  have ha : ZN I (NumOps.abs (X i j - Z m j)) := Or.inl (I.zero_abs hz)
  have hd : ZN I (X i j - Z m j) := Or.inl hz
  cases l with
  | vec l =>
    exact I.nan_neg (zn_div (zn_mul_left (zn_mul_left (zn_mul_right hd))) (zn_mul_right ha))
  | scalar l =>
    exact I.nan_neg (zn_div (zn_mul_left (zn_mul_left (zn_mul_left (zn_mul_right hd)))) (zn_mul_right ha))

private theorem sepCommon_periodic_grad {X : Mat N d K} {Z : Mat M d K} {l : LS d K} {j : Fin d} {p g}
    (h : sepCommon X Z "periodic" l (j.val + 1) = .ok (p, g)) : g = sumGrad (perGrad X Z j l) := by
  unfold sepCommon at h
  rw [if_neg (by decide), if_pos rfl] at h
  obtain ⟨q, h1, h⟩ := Except.bind_ok.1 h
  rw [show ((j.val : Int) + 1 - 1) = (j.val : Int) by omega, pyIdx_nat d j.2] at h
  simp only [Except.ok_bind', dif_pos j.2] at h
  injection h with h
  injection h with _ h
  exact h.symm

/-- **C60.** With `kern='periodic'`, if some sample has the same (finite) value as some inducing point in the
selected coordinate - in particular if a sample is used as an inducing point - every component of the estimate
is NaN: of the array output, and of the function output at every query point. -/
theorem C60_coincidence_is_nan (I : Ieee K) (X : Mat N d K) (Z : Mat M d K) (C : K) (l : LS d K) (j : Fin d)
    (i : Fin N) (m : Fin M) (h : X i j = Z m j) (hf : I.fin (Z m j)) {c : ℕ} (x : Mat n c K) :
    (∀ v, scoreSep X Z C "periodic" l (j.val + 1) = .ok v → ∀ s, I.nan (v s)) ∧
    (∀ v, scoreSepFn X Z C "periodic" l (j.val + 1) x = .ok v → ∀ s, I.nan (v s)) := by
  have hg : I.nan (sumGrad (perGrad X Z j l) m) := I.nan_sum i (I.nan_neg (nan_perGrad I l h hf))
  constructor
  · intro v hv s
    unfold scoreSep at hv
    obtain ⟨⟨p, g⟩, h1, h2⟩ := Except.bind_ok.1 hv
    obtain rfl := sepCommon_periodic_grad h1
    unfold directOut at h2
    obtain ⟨J, _, h2⟩ := Except.bind_ok.1 h2
    injection h2 with h2
    subst h2
    exact I.nan_sum m (I.nan_mul_right hg)
  · intro v hv s
    unfold scoreSepFn at hv
    obtain ⟨⟨p, g⟩, h1, h2⟩ := Except.bind_ok.1 hv
    obtain rfl := sepCommon_periodic_grad h1
    obtain ⟨k, _, h2⟩ := Except.bind_ok.1 h2
    unfold fnOut at h2
    obtain ⟨J, _, h2⟩ := Except.bind_ok.1 h2
    injection h2 with h2
    subst h2
    exact I.nan_sum m (I.nan_mul_right hg)

section
open XR
attribute [local instance] exOps

/-- Non-vacuity of C60: over exact arithmetic with special values, two samples, the second one also used as the
inducing point. Both outputs are returned. -/
example : ∃ v w : Fin 2 → XR,
    scoreSep (fun (i : Fin 2) (_ : Fin 1) => XR.fin (i.val : ℝ)) (fun (_ : Fin 1) (_ : Fin 1) => XR.fin 1)
      (XR.fin 1) "periodic" (.scalar (XR.fin 1)) ((0 : Fin 1).val + 1) = .ok v ∧
    scoreSepFn (fun (i : Fin 2) (_ : Fin 1) => XR.fin (i.val : ℝ)) (fun (_ : Fin 1) (_ : Fin 1) => XR.fin 1)
      (XR.fin 1) "periodic" (.scalar (XR.fin 1)) ((0 : Fin 1).val + 1)
      (fun (i : Fin 2) (_ : Fin 1) => XR.fin (i.val : ℝ)) = .ok w ∧
    (∀ s, v s = XR.nan) ∧ (∀ s, w s = XR.nan) := by
  obtain ⟨v, hv⟩ : ∃ v, scoreSep (fun (i : Fin 2) (_ : Fin 1) => XR.fin (i.val : ℝ))
      (fun (_ : Fin 1) (_ : Fin 1) => XR.fin 1) (XR.fin 1) "periodic" (.scalar (XR.fin 1))
      ((0 : Fin 1).val + 1) = .ok v := ⟨_, rfl⟩
  obtain ⟨w, hw⟩ : ∃ w, scoreSepFn (fun (i : Fin 2) (_ : Fin 1) => XR.fin (i.val : ℝ))
      (fun (_ : Fin 1) (_ : Fin 1) => XR.fin 1) (XR.fin 1) "periodic" (.scalar (XR.fin 1))
      ((0 : Fin 1).val + 1) (fun (i : Fin 2) (_ : Fin 1) => XR.fin (i.val : ℝ)) = .ok w := ⟨_, rfl⟩
  have h := C60_coincidence_is_nan exIeee (fun (i : Fin 2) (_ : Fin 1) => XR.fin (i.val : ℝ))
      (fun (_ : Fin 1) (_ : Fin 1) => XR.fin 1) (XR.fin 1) (.scalar (XR.fin 1)) 0 1 0
      (by simp) ⟨1, rfl⟩ (fun (i : Fin 2) (_ : Fin 1) => XR.fin (i.val : ℝ))
  exact ⟨v, w, hv, hw, fun s => h.1 v hv s, fun s => h.2 w hw s⟩

end
end DPFC
