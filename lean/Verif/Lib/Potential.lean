import Verif.Model.Potential
import Verif.Spec.Potential
import Verif.Inst.Real
import Mathlib.Analysis.Calculus.Deriv.Pow
import Mathlib.Analysis.Calculus.Deriv.Mul
import Mathlib.Analysis.Calculus.Deriv.Add
import Mathlib.Topology.Order.MonotoneConvergence
import Mathlib.Tactic.Linarith
import Mathlib.Tactic.Positivity

/-! Helper lemmas for C100. -/

namespace DPFC
open Spec Filter Topology

theorem dwF_real (x : ℝ) : dwF x = 4 * x * (1 - x) * (1 + x) := by
  simp only [dwF, real_lit_int]
  push_cast
  ring

theorem dwV_real (x : ℝ) : dwV x = (x ^ 2 - 1) ^ 2 - 1 := by
  simp only [dwV, sq, real_lit_int]
  push_cast
  ring

theorem dwF_neg (x : ℝ) : dwF (-x) = -dwF x := by
  rw [dwF_real, dwF_real]
  ring

theorem rosF_zero (b : ℝ) {n : ℕ} (x : Mat 2 n ℝ) (j : Fin n) :
    rosF b x 0 j = -(4 * b * x 0 j ^ 3) + x 0 j * (4 * b * x 1 j - 2) + 2 := by
  simp only [rosF, if_true, real_lit_int]
  push_cast
  ring

theorem rosF_one (b : ℝ) {n : ℕ} (x : Mat 2 n ℝ) (j : Fin n) : rosF b x 1 j = -(2 * b * (x 1 j - x 0 j ^ 2)) := by
  simp only [rosF, if_neg (show (1 : Fin 2) ≠ 0 by decide), sq, real_lit_int]
  push_cast
  ring

theorem euler_neg (x0 : ℝ) (n : ℕ) : eulerIter dwF (-x0) n = -eulerIter dwF x0 n := by
  induction n with
  | zero => rfl
  | succ n ih => rw [eulerIter, eulerIter, ih, dwF_neg]; ring

/-- One step inside the right half of the barrier region. -/
theorem euler_step_inner {x : ℝ} (h0 : 0 < x) (h1 : x ≤ 1) :
    x ≤ x + 1 / 1000 * dwF x ∧ x + 1 / 1000 * dwF x ≤ 1 := by
  rw [dwF_real]
  have h2 : 0 ≤ 1 - x := by linarith
  constructor
  · nlinarith [mul_nonneg (mul_nonneg h0.le h2) (by linarith : (0 : ℝ) ≤ 1 + x)]
  · nlinarith [mul_nonneg h2 (by nlinarith : (0 : ℝ) ≤ 1 - 1 / 250 * (x * (1 + x)))]

theorem euler_step_outer {x : ℝ} (h0 : 1 ≤ x) (h1 : x ≤ 10) :
    1 ≤ x + 1 / 1000 * dwF x ∧ x + 1 / 1000 * dwF x ≤ x := by
  rw [dwF_real]
  have h2 : 0 ≤ x - 1 := by linarith
  constructor
  · nlinarith [mul_nonneg h2 (by nlinarith : (0 : ℝ) ≤ 1 - 1 / 250 * (x * (1 + x)))]
  · nlinarith [mul_nonneg (mul_nonneg (by linarith : (0 : ℝ) ≤ x) h2) (by linarith : (0 : ℝ) ≤ 1 + x)]

theorem dwF_cont : Continuous (dwF : ℝ → ℝ) := by
  have : (dwF : ℝ → ℝ) = fun x => 4 * x * (1 - x) * (1 + x) := funext dwF_real
  rw [this]
  fun_prop

theorem euler_limit_fixed {x0 l : ℝ} (h : Tendsto (eulerIter dwF x0) atTop (𝓝 l)) : dwF l = 0 := by
  have h1 : Tendsto (fun n => eulerIter dwF x0 (n + 1)) atTop (𝓝 l) := (tendsto_add_atTop_iff_nat 1).2 h
  have h2 : Tendsto (fun n => eulerIter dwF x0 n + 1 / 1000 * dwF (eulerIter dwF x0 n)) atTop
      (𝓝 (l + 1 / 1000 * dwF l)) :=
    h.add (((dwF_cont.tendsto l).comp h).const_mul _)
  have := tendsto_nhds_unique h1 h2
  linarith

theorem euler_pos_limit {x0 : ℝ} (h0 : 0 < x0) (h1 : x0 ≤ 10) : Tendsto (eulerIter dwF x0) atTop (𝓝 1) := by
  rcases le_total x0 1 with hx | hx
  · have inv : ∀ n, x0 ≤ eulerIter dwF x0 n ∧ eulerIter dwF x0 n ≤ 1 := by
      intro n
      induction n with
      | zero => exact ⟨le_rfl, hx⟩
      | succ n ih =>
        have := euler_step_inner (h0.trans_le ih.1) ih.2
        exact ⟨ih.1.trans this.1, this.2⟩
    have mono : Monotone (eulerIter dwF x0) := monotone_nat_of_le_succ fun n =>
      (euler_step_inner (h0.trans_le (inv n).1) (inv n).2).1
    have hb : BddAbove (Set.range (eulerIter dwF x0)) := ⟨1, by rintro _ ⟨n, rfl⟩; exact (inv n).2⟩
    have ht := tendsto_atTop_ciSup mono hb
    have hf := euler_limit_fixed ht
    have hl : x0 ≤ ⨆ n, eulerIter dwF x0 n := ge_of_tendsto' ht fun n => (inv n).1
    have hu : ⨆ n, eulerIter dwF x0 n ≤ 1 := le_of_tendsto' ht fun n => (inv n).2
    rw [dwF_real] at hf
    have : ⨆ n, eulerIter dwF x0 n = 1 := by
      rcases mul_eq_zero.1 hf with hf | hf
      · rcases mul_eq_zero.1 hf with hf | hf <;> linarith
      · linarith
    rwa [this] at ht
  · have inv : ∀ n, 1 ≤ eulerIter dwF x0 n ∧ eulerIter dwF x0 n ≤ x0 := by
      intro n
      induction n with
      | zero => exact ⟨hx, le_rfl⟩
      | succ n ih =>
        have := euler_step_outer ih.1 (ih.2.trans h1)
        exact ⟨this.1, this.2.trans ih.2⟩
    have anti : Antitone (eulerIter dwF x0) := antitone_nat_of_succ_le fun n =>
      (euler_step_outer (inv n).1 ((inv n).2.trans h1)).2
    have hb : BddBelow (Set.range (eulerIter dwF x0)) := ⟨1, by rintro _ ⟨n, rfl⟩; exact (inv n).1⟩
    have ht := tendsto_atTop_ciInf anti hb
    have hf := euler_limit_fixed ht
    have hl : 1 ≤ ⨅ n, eulerIter dwF x0 n := ge_of_tendsto' ht fun n => (inv n).1
    rw [dwF_real] at hf
    have : ⨅ n, eulerIter dwF x0 n = 1 := by
      rcases mul_eq_zero.1 hf with hf | hf
      · rcases mul_eq_zero.1 hf with hf | hf <;> linarith
      · linarith
    rwa [this] at ht

/-- The change of the potential in one Euler step. -/
theorem dwV_step (x s : ℝ) :
    dwV (x + s * dwF x) - dwV x =
      s * dwF x ^ 2 * (-1 + (6 * x ^ 2 - 2) * s + 4 * x * s ^ 2 * dwF x + s ^ 3 * dwF x ^ 2) := by
  rw [dwV_real, dwV_real, dwF_real]
  ring

theorem dwV_factor {x : ℝ} (h : |x| ≤ 10) :
    -1 + (6 * x ^ 2 - 2) * (1 / 1000) + 4 * x * (1 / 1000) ^ 2 * dwF x + (1 / 1000) ^ 3 * dwF x ^ 2 < 0 := by
  have h2 : x ^ 2 ≤ 100 := by
    have := sq_abs x
    nlinarith [abs_nonneg x]
  have hF : x * dwF x = 4 * x ^ 2 * (1 - x ^ 2) := by rw [dwF_real]; ring
  have hF2 : dwF x ^ 2 = 16 * x ^ 2 * (1 - x ^ 2) ^ 2 := by rw [dwF_real]; ring
  have e : 4 * x * (1 / 1000) ^ 2 * dwF x = 4 * (1 / 1000) ^ 2 * (x * dwF x) := by ring
  rw [e, hF, hF2]
  have h0 := sq_nonneg x
  generalize x ^ 2 = y at *
  have h3 : y * (1 - y) ≤ 1 := by nlinarith [sq_nonneg (y - 1 / 2)]
  have h4 : (1 - y) ^ 2 ≤ 10000 := by nlinarith
  have h5 : y * (1 - y) ^ 2 ≤ 100 * 10000 := by
    apply mul_le_mul h2 h4 (sq_nonneg _) (by norm_num)
  nlinarith

end DPFC
