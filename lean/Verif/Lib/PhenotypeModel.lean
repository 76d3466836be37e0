import Verif.Spec.Phenotype
import Verif.Inst.Real
import Mathlib.Analysis.Calculus.Deriv.Add
import Mathlib.Analysis.Calculus.Deriv.Inv
import Mathlib.Analysis.Calculus.Deriv.Pow
import Mathlib.Tactic.FieldSimp
import Mathlib.Tactic.FinCases

/-! The gene circuit of the phenotype-differentiation example and its derivatives. -/

namespace DPFC
open Spec
variable {n : ℕ}

theorem pow4_real (x : ℝ) : pow4 x = x ^ 4 := by simp only [pow4, real_sq]; ring
theorem pow3_real (x : ℝ) : pow3 x = x ^ 3 := by simp only [pow3, real_sq]; ring
theorem pow7_real (x : ℝ) : pow7 x = x ^ 7 := by simp only [pow7, pow4_real, pow3_real]; ring

theorem phenoF_real (p : PhenoPars ℝ) (x : Mat 2 n ℝ) (a : Fin 2) (j : Fin n) :
    phenoF p x a j = circuit p (fun b => x b j) a := by
  unfold phenoF circuit
  fin_cases a <;> simp [pow4_real]

theorem phenoF1_real (p : PhenoPars ℝ) (x : Fin 2 → ℝ) : phenoF1 p x = circuit p x := by
  funext a
  unfold phenoF1
  rw [phenoF_real]

theorem phenoDiag_real (p x : ℝ) : phenoDiag p x = -4 * x^7 / (p^4 + x^4) + 4 * x^3 / (p^4 + x^4) - 1 := by
  unfold phenoDiag
  rw [pow7_real, pow4_real, pow4_real, pow3_real]
  simp

theorem phenoOff_real (p x : ℝ) : phenoOff p x = -4 * p^4 * x^3 / (p^4 + x^4)^2 := by
  unfold phenoOff
  rw [pow4_real, pow4_real, pow3_real, real_sq]
  simp

theorem den_pos {p : ℝ} (hp : p ≠ 0) (x : ℝ) : 0 < p^4 + x^4 := by positivity

/-- Derivative of the activation term. -/
theorem hasDerivAt_act {p : ℝ} (hp : p ≠ 0) (x : ℝ) :
    HasDerivAt (fun s : ℝ => s^4 / (p^4 + s^4)) (4 * p^4 * x^3 / (p^4 + x^4)^2) x := by
  have h1 : HasDerivAt (fun s : ℝ => s^4) (4 * x^3) x := by simpa using hasDerivAt_pow 4 x
  have h2 : HasDerivAt (fun s : ℝ => p^4 + s^4) (4 * x^3) x := h1.const_add _
  have h3 := h1.div h2 (den_pos hp x).ne'
  have e : 4 * p^4 * x^3 / (p^4 + x^4)^2 = (4 * x^3 * (p^4 + x^4) - x^4 * (4 * x^3)) / (p^4 + x^4)^2 := by
    congr 1; ring
  rw [e]; exact h3

/-- Derivative of the inhibition term. -/
theorem hasDerivAt_inh {p : ℝ} (hp : p ≠ 0) (q x : ℝ) :
    HasDerivAt (fun s : ℝ => q^4 / (p^4 + s^4)) (-4 * q^4 * x^3 / (p^4 + x^4)^2) x := by
  have h1 : HasDerivAt (fun s : ℝ => s^4) (4 * x^3) x := by simpa using hasDerivAt_pow 4 x
  have h2 : HasDerivAt (fun s : ℝ => p^4 + s^4) (4 * x^3) x := h1.const_add _
  have h3 := (hasDerivAt_const x (q^4)).div h2 (den_pos hp x).ne'
  have e : -4 * q^4 * x^3 / (p^4 + x^4)^2 = (0 * (p^4 + x^4) - q^4 * (4 * x^3)) / (p^4 + x^4)^2 := by
    congr 1; ring
  rw [e]; exact h3

theorem circuit_deriv00 (p : PhenoPars ℝ) (h1 : p.p1 ≠ 0) (y x : ℝ) :
    HasDerivAt (fun s => circuit p ![s, y] 0) (4 * p.p1^4 * x^3 / (p.p1^4 + x^4)^2 - 1) x := by
  have h : HasDerivAt (fun s : ℝ => s^4 / (p.p1^4 + s^4) + p.p2^4 / (p.p2^4 + y^4) - s)
      (4 * p.p1^4 * x^3 / (p.p1^4 + x^4)^2 - 1) x :=
    HasDerivAt.sub ((hasDerivAt_act h1 x).add_const _) (hasDerivAt_id x)
  have e : (fun s => circuit p ![s, y] 0) = fun s : ℝ => s^4 / (p.p1^4 + s^4) + p.p2^4 / (p.p2^4 + y^4) - s := by
    funext s; simp [circuit]
  rw [e]; exact h

theorem circuit_deriv11 (p : PhenoPars ℝ) (h3 : p.p3 ≠ 0) (y x : ℝ) :
    HasDerivAt (fun s => circuit p ![y, s] 1) (4 * p.p3^4 * x^3 / (p.p3^4 + x^4)^2 - 1) x := by
  have h : HasDerivAt (fun s : ℝ => s^4 / (p.p3^4 + s^4) + p.p2^4 / (p.p4^4 + y^4) - s)
      (4 * p.p3^4 * x^3 / (p.p3^4 + x^4)^2 - 1) x :=
    HasDerivAt.sub ((hasDerivAt_act h3 x).add_const _) (hasDerivAt_id x)
  have e : (fun s => circuit p ![y, s] 1) = fun s : ℝ => s^4 / (p.p3^4 + s^4) + p.p2^4 / (p.p4^4 + y^4) - s := by
    funext s; simp [circuit]
  rw [e]; exact h

/-- State `i` of the linearised mean. -/
noncomputable def linMean (p : PhenoPars ℝ) (y2 : Fin 2 → ℝ) : ℕ → Fin 2 → ℝ
  | 0 => y2
  | i+1 => fun a => linMean p y2 i a + phenoLin p y2 (linMean p y2 i) a * lit 1 1000

theorem phenoMeans_eq (p : PhenoPars ℝ) (y2 : Fin 2 → ℝ) (n : ℕ) :
    phenoMeans p y2 n = (List.range n).map (linMean p y2) := by
  cases n with
  | zero => rfl
  | succ n =>
    unfold phenoMeans
    refine List.map_congr_left fun i hi => ?_
    clear hi
    induction i with
    | zero => rfl
    | succ i ih => simp only [linMean, ih]

theorem hill_unit {p : ℝ} (hp : p ≠ 0) (x : ℝ) : 0 ≤ x^4 / (p^4 + x^4) ∧ x^4 / (p^4 + x^4) ≤ 1 := by
  have h := den_pos hp x
  refine ⟨by positivity, (div_le_one h).2 (by have : 0 ≤ p^4 := by positivity
                                              linarith)⟩

theorem hill_unit' {p : ℝ} (hp : p ≠ 0) (x : ℝ) : 0 ≤ p^4 / (p^4 + x^4) ∧ p^4 / (p^4 + x^4) ≤ 1 := by
  have h := den_pos hp x
  refine ⟨by positivity, (div_le_one h).2 (by have : 0 ≤ x^4 := by positivity
                                              linarith)⟩

end DPFC
