import Verif.Model.Measures
import Verif.Spec.Measures
import Mathlib.Algebra.Order.BigOperators.Ring.Finset
import Mathlib.Algebra.Order.Chebyshev

/-! Helper lemmas for C101. -/

namespace DPFC
open Spec
variable {d R n : ℕ}

theorem nanSum_real (v : Fin n → ℝ) : nanSum v = ∑ i, v i := by
  simp [nanSum]

theorem entry_get (u : Traj d R ℝ) (i : Fin u.length) (a : Fin d) (r : Fin R) : u[i] a r = entry u i a r := by
  simp [entry, List.getD]

theorem ctlNorm_real (u : Traj d R ℝ) (i : Fin u.length) (r : Fin R) : ctlNorm u[i] r = csize u r i := by
  simp only [ctlNorm, nanSum_real, real_sqrt, csize, sq, pow_two, ← entry_get]

theorem effort_real (T dt : ℝ) (u : Traj d R ℝ) (r : Fin R) :
    effort T dt u r = (∑ t ∈ Finset.range u.length, csize u r t) ^ 2 / (T / dt) := by
  simp only [effort, ctlNorm_real, real_sum, sq, pow_two]
  rw [Fin.sum_univ_eq_sum_range (fun t => csize u r t)]

theorem entry_dropLast (u : Traj d R ℝ) {t : ℕ} (h : t < u.length - 1) (a : Fin d) (r : Fin R) :
    entry u.dropLast t a r = entry u t a r := by
  have h' : t < u.dropLast.length := by simpa using h
  simp only [entry, List.getD]
  rw [List.getElem?_eq_getElem h', List.getElem?_eq_getElem (by omega), List.getElem_dropLast]

theorem entry_take (u : Traj d R ℝ) {t m : ℕ} (h : t < m) (a : Fin d) (r : Fin R) :
    entry (u.take m) t a r = entry u t a r := by
  simp only [entry, List.getD, List.getElem?_take, h, if_true]

theorem entry_drop (u : Traj d R ℝ) (m t : ℕ) (a : Fin d) (r : Fin R) :
    entry (u.drop m) t a r = entry u (m + t) a r := by
  simp only [entry, List.getD, List.getElem?_drop]

theorem csize_congr {u v : List (Mat d R ℝ)} {r : Fin R} {t t' : ℕ} (h : ∀ a, entry u t a r = entry v t' a r) :
    csize u r t = csize v r t' := by simp only [csize, h]

theorem csize_nonneg (u : List (Mat d R ℝ)) (r : Fin R) (t : ℕ) : 0 ≤ csize u r t := Real.sqrt_nonneg _

theorem csize_sq (u : List (Mat d R ℝ)) (r : Fin R) (t : ℕ) : csize u r t ^ 2 = ∑ a, entry u t a r ^ 2 :=
  Real.sq_sqrt (Finset.sum_nonneg fun _ _ => sq_nonneg _)

theorem csize_eq_zero (u : List (Mat d R ℝ)) (r : Fin R) (t : ℕ) : csize u r t = 0 ↔ ∀ a, entry u t a r = 0 := by
  rw [csize, Real.sqrt_eq_zero (Finset.sum_nonneg fun _ _ => sq_nonneg _),
    Finset.sum_eq_zero_iff_of_nonneg fun _ _ => sq_nonneg _]
  simp

theorem ctlAll_real (T dt : ℝ) (u : Traj d R ℝ) (r : Fin R) :
    ctlAll T dt u r = (∑ t ∈ Finset.range (u.length - 1), csize u r t) ^ 2 / (T / dt) := by
  rw [ctlAll, effort_real, List.length_dropLast]
  congr 2
  exact Finset.sum_congr rfl fun t ht => csize_congr fun a => entry_dropLast u (Finset.mem_range.1 ht) a r

theorem ctlFirst_real (T dt : ℝ) (m : ℕ) (u : Traj d R ℝ) (r : Fin R) :
    ctlFirst T dt m u r = (∑ t ∈ Finset.range (min m u.length), csize u r t) ^ 2 / (T / dt) := by
  rw [ctlFirst, effort_real, List.length_take]
  congr 2
  refine Finset.sum_congr rfl fun t ht => csize_congr fun a => entry_take u ?_ a r
  have := Finset.mem_range.1 ht
  omega

theorem ctlSecond_real (T dt : ℝ) (m : ℕ) (u : Traj d R ℝ) (r : Fin R) :
    ctlSecond T dt m u r = (∑ t ∈ Finset.range (u.length - 1 - m), csize u r (m + t)) ^ 2 / (T / dt) := by
  rw [ctlSecond, effort_real, List.length_drop, List.length_dropLast]
  congr 2
  refine Finset.sum_congr rfl fun t ht => csize_congr fun a => ?_
  have := Finset.mem_range.1 ht
  rw [entry_drop, entry_dropLast u (by omega)]

theorem ctlEnergy_real (T dt : ℝ) (u : Traj 1 R ℝ) (r : Fin R) :
    ctlEnergy T dt u r = (∑ t ∈ Finset.range (u.length - 1), entry u t 0 r ^ 2) / (T / dt) := by
  rw [ctlEnergy, nanSum_real]
  congr 1
  simp only [sq, entry_get, ← pow_two]
  rw [Fin.sum_univ_eq_sum_range (fun t => entry u.dropLast t 0 r ^ 2), List.length_dropLast]
  exact Finset.sum_congr rfl fun t ht => by rw [entry_dropLast u (Finset.mem_range.1 ht)]

theorem pathError_real (T dt : ℝ) (y2 : Fin 2 → ℝ) (F : Traj 2 R ℝ) (r : Fin R) :
    pathError T dt y2 F r = (∑ t ∈ Finset.range (F.length - 1), (entry F t 1 r - y2 1) ^ 2) / (T / dt) := by
  rw [pathError, nanSum_real]
  congr 1
  simp only [sq, entry_get, ← pow_two]
  rw [Fin.sum_univ_eq_sum_range (fun t => (entry F.dropLast t 1 r - y2 1) ^ 2), List.length_dropLast]
  exact Finset.sum_congr rfl fun t ht => by rw [entry_dropLast F (Finset.mem_range.1 ht)]

/-- For non-negative numbers the square of the sum exceeds the sum of squares unless at most one is non-zero. -/
theorem sq_sum_eq_iff (n : ℕ) (s : ℕ → ℝ) (h : ∀ t, 0 ≤ s t) :
    (∑ t ∈ Finset.range n, s t) ^ 2 = ∑ t ∈ Finset.range n, s t ^ 2 ↔
      ∀ i < n, ∀ j < n, i ≠ j → s i = 0 ∨ s j = 0 := by
  induction n with
  | zero => simp
  | succ n ih =>
    have hS : 0 ≤ ∑ t ∈ Finset.range n, s t := Finset.sum_nonneg fun t _ => h t
    have hle : ∑ t ∈ Finset.range n, s t ^ 2 ≤ (∑ t ∈ Finset.range n, s t) ^ 2 :=
      Finset.sum_sq_le_sq_sum_of_nonneg fun t _ => h t
    rw [Finset.sum_range_succ, Finset.sum_range_succ]
    have key : (∑ t ∈ Finset.range n, s t + s n) ^ 2 = ∑ t ∈ Finset.range n, s t ^ 2 + s n ^ 2 ↔
        (∑ t ∈ Finset.range n, s t) ^ 2 = ∑ t ∈ Finset.range n, s t ^ 2 ∧ (∑ t ∈ Finset.range n, s t) * s n = 0 := by
      have hp := mul_nonneg hS (h n)
      constructor
      · intro e
        have e' : (∑ t ∈ Finset.range n, s t) ^ 2 + 2 * ((∑ t ∈ Finset.range n, s t) * s n) =
            ∑ t ∈ Finset.range n, s t ^ 2 := by linarith [e]
        exact ⟨by linarith, by linarith⟩
      · rintro ⟨a, b⟩
        nlinarith
    rw [key, ih, mul_eq_zero, Finset.sum_eq_zero_iff_of_nonneg fun t _ => h t]
    constructor
    · rintro ⟨h1, h2⟩ i hi j hj hij
      rcases Nat.lt_succ_iff_lt_or_eq.1 hi with hi | rfl
      · rcases Nat.lt_succ_iff_lt_or_eq.1 hj with hj | rfl
        · exact h1 i hi j hj hij
        · exact h2.imp (fun f => f i (Finset.mem_range.2 hi)) id
      · rcases Nat.lt_succ_iff_lt_or_eq.1 hj with hj | rfl
        · exact (h2.imp (fun f => f j (Finset.mem_range.2 hj)) id).symm
        · exact absurd rfl hij
    · intro H
      refine ⟨fun i hi j hj => H i (by omega) j (by omega), ?_⟩
      by_cases hn : s n = 0
      · exact .inr hn
      · left
        intro t ht
        have := Finset.mem_range.1 ht
        exact (H t (by omega) n (by omega) (by omega)).resolve_right hn

end DPFC
