import Verif.Lib.PiceRun
import Verif.Lib.LeastSquares
import Verif.Lib.Examples
import Mathlib.Probability.Distributions.Gaussian.Real

/-!
# C91, C92: the path-integral fit of the phenotype-differentiation example
-/

namespace DPFC
open Spec ProbabilityTheory
variable {ρ : Type} {n b : ℕ}

section
variable (env : Env ρ ℝ) (c : PicePars ℝ) (pinv : Mat (b+1) (b+1) ℝ → Mat (b+1) (b+1) ℝ) (grid : List ℝ)

/-- **C91** (simulation). Every iteration `i` that is reached simulates the circuit with the polynomial control whose
coefficients are stored under `i`, with noise that continues the random stream; coefficients, controls and noise at the
last time index are zero. -/
theorem C91_simulation (hb : b ≤ 15) (hg : grid ≠ []) {r q q' : ρ} {i : ℕ} {s s' : PiceState n b ℝ} {fl : Bool}
    (hR : PiceReach env c pinv grid r i s q) (hi : i + 1 < c.maxIter)
    (h : piceIter env c pinv grid i s q = .ok ((fl, s'), q')) :
    ∃ A Z U E rs, s.At[i]? = some ((List.range grid.length).map A) ∧ s'.arr.Z = (List.range grid.length).map Z ∧
      s'.arr.us = (List.range grid.length).map U ∧ s'.arr.nos = (List.range grid.length).map E ∧
      PiceSimulation env (circuit c.p) c.g c.x1 grid.length A Z U E rs ∧ rs 0 = q ∧ rs (grid.length - 1) = q' ∧
      A (grid.length - 1) = 0 := by
  have hk : 1 ≤ grid.length := List.length_pos_iff.2 hg
  obtain ⟨A, Z, E, U, e1, e2, I⟩ := reach_inv env c pinv grid hk hR
  rw [piceIter_real env c pinv grid hk hi I.toRep q] at h
  simp only [Except.ok.injEq, Prod.mk.injEq] at h
  obtain ⟨h, hq⟩ := h
  refine ⟨A i, itZ env c (A i) n q, itU env c grid.length (A i) U q, itE env c grid.length (A i) E q, _, ?_, ?_, ?_, ?_,
    itSim env c hb grid.length (A i) E U I.zE I.zU hk q, rfl, hq, I.zA i⟩
  · rw [I.At]; exact arrT_get _ (by omega)
  all_goals
    by_cases hC : Close c.x2 (itZ env c (A i) n q (grid.length - 1))
    · rw [if_pos hC] at h
      simp only [Prod.mk.injEq] at h
      rw [← h.2]
    · rw [if_neg hC] at h
      simp only [Prod.mk.injEq] at h
      rw [← h.2]

/-- **C91** (first iteration). It is uncontrolled: all coefficients stored under 0 are zero, whenever one looks. -/
theorem C91_first (hg : grid ≠ []) {r q : ρ} {i : ℕ} {s : PiceState n b ℝ} (hR : PiceReach env c pinv grid r i s q)
    (hM : 1 ≤ c.maxIter) :
    s.At[0]? = some ((List.range grid.length).map fun _ => 0) := by
  have hk : 1 ≤ grid.length := List.length_pos_iff.2 hg
  obtain ⟨A, Z, E, U, e1, e2, I⟩ := reach_inv env c pinv grid hk hR
  rw [I.At, arrT_get _ (by omega), I.z0]
  rfl

/-- **C91** (weights). The weights computed from paths with controls `U`, noise `E` and end points `z` are the normalised
exponentials of minus running cost minus end cost; with at least one path they are positive and sum to one. -/
theorem C91_weights (k : ℕ) (Z E U : ℕ → Fin 2 → Fin n → ℝ) (alph : Fin 2 → ℝ) (z : Fin 2 → Fin n → ℝ) (hn : 0 < n) :
    let w := piceWeights c alph ⟨(List.range k).map Z, (List.range k).map E, (List.range k).map U⟩ z
    w = pathWeight c.x2 alph k U E z ∧ (∀ j, 0 < w j) ∧ ∑ j, w j = 1 := by
  intro w
  have hw : w = pathWeight c.x2 alph k U E z := piceWeights_real c alph Z E U z
  have hS : 0 < ∑ j, Real.exp (-(runCost k U E j + endCost c.x2 alph fun a => z a j)) :=
    Finset.sum_pos (fun j _ => Real.exp_pos _) ⟨⟨0, hn⟩, Finset.mem_univ _⟩
  refine ⟨hw, ?_, ?_⟩
  · intro j
    rw [hw]
    exact div_pos (Real.exp_pos _) hS
  · rw [hw]
    unfold pathWeight
    rw [← Finset.sum_div]
    exact div_self hS.ne'

/-- **C91** (end cost). With equal weights all end points whose two coordinates both lie between the two coordinates of the
target have the same least end cost. If the first weight is larger, the unique best end point has *both* coordinates equal
to the first coordinate of the target; likewise for the second. So the target itself is not the unique best end point,
unless its two coordinates are equal. -/
theorem C91_end_cost (x2 alph z : Fin 2 → ℝ) :
    (alph 0 = alph 1 → 0 < alph 0 → x2 0 ≤ x2 1 → (2 * alph 0 * (x2 1 - x2 0) ≤ endCost x2 alph z ∧
      (endCost x2 alph z = 2 * alph 0 * (x2 1 - x2 0) ↔ ∀ a, x2 0 ≤ z a ∧ z a ≤ x2 1))) ∧
    (∀ m m' : Fin 2, m ≠ m' → 0 ≤ alph m' → alph m' < alph m → z ≠ (fun _ => x2 m) →
      endCost x2 alph (fun _ => x2 m) < endCost x2 alph z) := by
  constructor
  · intro he hp hx
    have ha : ∀ t : ℝ, x2 1 - x2 0 ≤ |t - x2 0| + |t - x2 1| := by
      intro t
      have h1 := le_abs_self (t - x2 0)
      have h2 := neg_abs_le (t - x2 1)
      linarith
    have hiff : ∀ t : ℝ, |t - x2 0| + |t - x2 1| = x2 1 - x2 0 ↔ x2 0 ≤ t ∧ t ≤ x2 1 := by
      intro t
      constructor
      · intro h
        have h1 := neg_abs_le (t - x2 0)
        have h1' := le_abs_self (t - x2 0)
        have h2 := le_abs_self (t - x2 1)
        have h2' := neg_abs_le (t - x2 1)
        constructor <;> by_contra hc <;> rw [not_le] at hc
        · rw [abs_of_neg (by linarith), abs_of_neg (by linarith)] at h; linarith
        · rw [abs_of_nonneg (by linarith), abs_of_pos (by linarith)] at h; linarith
      · rintro ⟨h1, h2⟩
        rw [abs_of_nonneg (by linarith), abs_of_nonpos (by linarith)]; ring
    have hE : endCost x2 alph z = alph 0 * ((|z 0 - x2 0| + |z 0 - x2 1|) + (|z 1 - x2 0| + |z 1 - x2 1|)) := by
      unfold endCost
      simp only [Fin.sum_univ_two]
      rw [← he]; ring
    rw [hE]
    refine ⟨?_, ?_⟩
    · have := add_le_add (ha (z 0)) (ha (z 1))
      nlinarith
    · rw [show 2 * alph 0 * (x2 1 - x2 0) = alph 0 * ((x2 1 - x2 0) + (x2 1 - x2 0)) by ring, mul_right_inj' hp.ne']
      rw [Fin.forall_fin_two, ← hiff, ← hiff]
      constructor
      · intro h
        have h0 := ha (z 0)
        have h1 := ha (z 1)
        exact ⟨by linarith, by linarith⟩
      · rintro ⟨h0, h1⟩; rw [h0, h1]
  · intro m m' hm hp hlt hz
    have hsum : ∀ y : Fin 2 → ℝ, endCost x2 alph y
        = (alph m * |y 0 - x2 m| + alph m' * |y 0 - x2 m'|) + (alph m * |y 1 - x2 m| + alph m' * |y 1 - x2 m'|) := by
      intro y
      unfold endCost
      simp only [Fin.sum_univ_two]
      fin_cases m <;> fin_cases m' <;> first | exact absurd rfl hm | (simp; try ring)
    have hle : ∀ t : ℝ, alph m' * |x2 m - x2 m'| + (alph m - alph m') * |t - x2 m|
        ≤ alph m * |t - x2 m| + alph m' * |t - x2 m'| := by
      intro t
      have h1 : |x2 m - x2 m'| ≤ |t - x2 m| + |t - x2 m'| := by
        have := abs_sub_le (x2 m) t (x2 m')
        rwa [abs_sub_comm (x2 m) t] at this
      nlinarith [mul_le_mul_of_nonneg_left h1 hp]
    have hne : 0 < |z 0 - x2 m| + |z 1 - x2 m| := by
      rcases eq_or_ne (z 0) (x2 m) with h0 | h0
      · rcases eq_or_ne (z 1) (x2 m) with h1 | h1
        · exfalso; apply hz; funext a; fin_cases a
          · exact h0
          · exact h1
        · have := abs_pos.2 (sub_ne_zero.2 h1); have := abs_nonneg (z 0 - x2 m); linarith
      · have := abs_pos.2 (sub_ne_zero.2 h0); have := abs_nonneg (z 1 - x2 m); linarith
    rw [hsum, hsum z]
    have h0 := hle (z 0)
    have h1 := hle (z 1)
    have h2 : 0 < (alph m - alph m') * (|z 0 - x2 m| + |z 1 - x2 m|) := mul_pos (by linarith) hne
    simp only [sub_self, abs_zero, mul_zero, zero_add]
    nlinarith

/-- With the target (0, 2) and weights (5/4, 1) the end point (0, 0) costs less than the target. -/
example : endCost ![0, 2] ![5/4, 1] (fun _ => 0) < endCost ![0, 2] ![5/4, 1] ![0, 2] := by
  have := (C91_end_cost ![0, 2] ![5/4, 1] ![0, 2]).2 0 1 (by decide) (by norm_num) (by norm_num)
    (fun h => by have := congrFun h 1; norm_num at this)
  simpa using this

/-- **C91** (what the weights correct for). For `g > 0` the running-cost factor of a path is the ratio of the densities of
the uncontrolled and of the controlled Euler-Maruyama transitions along it, times `exp((1/g - 1) sum u e)`: an importance
weight for the uncontrolled process only if `g = 1`. -/
theorem C91_likelihood (f : (Fin 2 → ℝ) → Fin 2 → ℝ) (g : ℝ) (hg : 0 < g) (y : Fin 2 → ℝ) (k : ℕ)
    (A : ℕ → Fin 2 → Fin (b+1) → ℝ) (Z U E : ℕ → Fin 2 → Fin n → ℝ) (rs : ℕ → ρ)
    (hS : PiceSimulation env f g y k A Z U E rs) (j : Fin n) :
    Real.exp (-(runCost k U E j)) =
      (∏ i ∈ Finset.range (k-1), ∏ a,
        gaussianPDFReal (Z i a j + 1/1000 * f (fun e => Z i e j) a) (g^2 * (1/1000)).toNNReal (Z (i+1) a j)
        / gaussianPDFReal (Z i a j + 1/1000 * (f (fun e => Z i e j) a + g * U i a j)) (g^2 * (1/1000)).toNNReal
            (Z (i+1) a j))
      * Real.exp ((1/g - 1) * ∑ i ∈ Finset.range (k-1), ∑ a, U i a j * E i a j) := by
  have hgn : g ≠ 0 := hg.ne'
  have hterm : ∀ i ∈ Finset.range (k-1), ∀ a,
      gaussianPDFReal (Z i a j + 1/1000 * f (fun e => Z i e j) a) (g^2 * (1/1000)).toNNReal (Z (i+1) a j)
        / gaussianPDFReal (Z i a j + 1/1000 * (f (fun e => Z i e j) a + g * U i a j)) (g^2 * (1/1000)).toNNReal
            (Z (i+1) a j)
        = Real.exp (-(1/2 * U i a j ^ 2 * (1/1000) + U i a j * E i a j / g)) := by
    intro i hi a
    have hi' : i + 1 < k := by have := Finset.mem_range.1 hi; omega
    have hst := congrFun (congrFun (hS.step i hi') a) j
    rw [hst]
    unfold gaussianPDFReal
    have hv : (0:ℝ) < g^2 * (1/1000) := by positivity
    rw [Real.coe_toNNReal _ hv.le]
    rw [mul_div_mul_left _ _ (by positivity), ← Real.exp_sub]
    congr 1
    field_simp
    ring
  have hsplit : ∀ F : ℕ → ℝ, F (k-1) = 0 → ∑ i ∈ Finset.range k, F i = ∑ i ∈ Finset.range (k-1), F i := by
    intro F hF
    cases k with
    | zero => rfl
    | succ k => rw [Finset.sum_range_succ]; simp only [Nat.add_sub_cancel] at hF ⊢; rw [hF, add_zero]
  have hr : runCost k U E j = ∑ i ∈ Finset.range (k-1), ∑ a, (1/2 * U i a j ^ 2 * (1/1000) + U i a j * E i a j) := by
    unfold runCost
    apply hsplit
    rw [hS.last.1]
    simp
  rw [Finset.prod_congr rfl fun i hi => Finset.prod_congr rfl fun a _ => hterm i hi a]
  simp only [← Real.exp_sum]
  rw [← Real.exp_add, hr]
  congr 1
  rw [Finset.mul_sum, ← Finset.sum_neg_distrib, ← Finset.sum_add_distrib]
  refine Finset.sum_congr rfl fun i _ => ?_
  rw [Finset.mul_sum, ← Finset.sum_neg_distrib, ← Finset.sum_add_distrib]
  refine Finset.sum_congr rfl fun a _ => ?_
  field_simp
  ring

end

/-- A concrete setting: thresholds one, noise strength 1/2, learning rate 0.05. -/
noncomputable def exPice (x2 : Fin 2 → ℝ) : PicePars ℝ :=
  { p := ⟨1, 1, 1, 1⟩
    x1 := fun _ => 0
    x2 := x2
    g := 1/2
    eta := 1/20
    maxIter := 5 }

/-- There is a target for which the first iteration with three noisy paths on three time points does not stop. -/
theorem ex_piceIter (pinv : Mat 6 6 ℝ → Mat 6 6 ℝ) : ∃ (x2 : Fin 2 → ℝ) (s s' : PiceState 3 5 ℝ) (q' : ℕ),
    PiceReach exEnv (exPice x2) pinv [0, 1/1000, 2/1000] 7 0 s 7 ∧ 0 + 1 < (exPice x2).maxIter ∧
    piceIter exEnv (exPice x2) pinv [0, 1/1000, 2/1000] 0 s 7 = .ok ((false, s'), q') := by
  set z := itZ exEnv (exPice 0) (0 : ℕ → Mat 2 6 ℝ) 3 7 2 with hz
  refine ⟨fun _ => endMean z 0 + 1, ?_⟩
  set c := exPice fun _ => endMean z 0 + 1 with hc
  obtain ⟨A, Z, E, U, e1, e2, I⟩ := reach_inv (n := 3) exEnv c pinv [0, 1/1000, 2/1000] (by simp)
    (PiceReach.init (r := 7))
  have hz' : itZ exEnv c (A 0) 3 7 (([0, 1/1000, 2/1000] : List ℝ).length - 1) = z := by rw [I.z0]; rfl
  have hn : ¬ Close c.x2 z := by
    intro h
    have := h 0
    rw [show c.x2 0 = endMean z 0 + 1 from rfl, sub_add_cancel_left] at this
    norm_num at this
  have hit := piceIter_real exEnv c pinv [0, 1/1000, 2/1000] (by simp) (show 0 + 1 < c.maxIter by simp [hc, exPice])
    I.toRep 7
  rw [if_neg (by rw [hz']; exact hn)] at hit
  exact ⟨_, _, _, .init, by simp [hc, exPice], hit⟩

end DPFC
