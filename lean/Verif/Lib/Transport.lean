import Verif.Spec.Transport
import Verif.Lib.RecReal2
import Mathlib.Topology.Order.Compact
import Mathlib.Topology.MetricSpace.Bounded
import Mathlib.Analysis.Convex.Combination

/-! Transport plans: existence of optimal ones, effect on particles. -/

namespace DPFC
open Spec
variable {ρ : Type} {n N d : ℕ}

theorem coupling_le_one {a b : Fin n → ℝ} {T : Fin n → Fin n → ℝ} (ha : IsProb a)
    (h : IsCoupling a b T) (i j : Fin n) : T i j ≤ 1 := by
  have h1 : T i j ≤ ∑ j, T i j := Finset.single_le_sum (fun k _ => h.1 i k) (Finset.mem_univ j)
  have h2 : a i ≤ ∑ i, a i := Finset.single_le_sum (fun k _ => ha.1 k) (Finset.mem_univ i)
  rw [h.2.1 i] at h1
  rw [ha.2] at h2
  linarith

theorem product_coupling {a b : Fin n → ℝ} (ha : IsProb a) (hb : IsProb b) :
    IsCoupling a b fun i j => a i * b j := by
  refine ⟨fun i j => mul_nonneg (ha.1 i) (hb.1 j), fun i => ?_, fun j => ?_⟩
  · rw [← Finset.mul_sum, hb.2, mul_one]
  · rw [← Finset.sum_mul, ha.2, one_mul]

/-- Optimal plans exist. -/
theorem exists_optimal {a b : Fin n → ℝ} (ha : IsProb a) (hb : IsProb b) (C : Fin n → Fin n → ℝ) :
    ∃ T, IsOptimal a b C T := by
  have hcl : IsClosed {T : Fin n → Fin n → ℝ | IsCoupling a b T} := by
    have e : {T : Fin n → Fin n → ℝ | IsCoupling a b T}
        = (⋂ i, ⋂ j, {T | 0 ≤ T i j}) ∩ ((⋂ i, {T | ∑ j, T i j = a i}) ∩ ⋂ j, {T | ∑ i, T i j = b j}) := by
      ext T; simp [IsCoupling]
    rw [e]
    refine IsClosed.inter ?_ (IsClosed.inter ?_ ?_)
    · exact isClosed_iInter fun i => isClosed_iInter fun j => isClosed_le (by fun_prop) (by fun_prop)
    · exact isClosed_iInter fun i => isClosed_eq (by fun_prop) (by fun_prop)
    · exact isClosed_iInter fun j => isClosed_eq (by fun_prop) (by fun_prop)
  have hcp : IsCompact {T : Fin n → Fin n → ℝ | IsCoupling a b T} := by
    have hbox : IsCompact (Set.pi Set.univ fun _ : Fin n => Set.pi Set.univ fun _ : Fin n =>
        Set.Icc (0:ℝ) 1) := isCompact_univ_pi fun _ => isCompact_univ_pi fun _ => isCompact_Icc
    refine hbox.of_isClosed_subset hcl fun T hT => ?_
    intro i _ j _
    exact ⟨hT.1 i j, coupling_le_one ha hT i j⟩
  obtain ⟨T, hT, hmin⟩ := hcp.exists_isMinOn ⟨_, product_coupling ha hb⟩
    (f := planCost C) (by unfold planCost; fun_prop)
  exact ⟨T, hT, fun T' hT' => hmin hT'⟩

open Classical in
/-- An environment whose transport solver is optimal. -/
noncomputable def optEnv : Env ℕ ℝ where
  normal r := (r, r + 1)
  uniform r := (1/2, r + 1)
  emd a b C := if h : ∃ T, IsOptimal a b C T then .ok h.choose else .error .valueError

theorem optEnv_optimal : SolverOptimal optEnv := by
  intro n a b C ha hb _
  have h := exists_optimal ha hb C
  exact ⟨h.choose, by simp only [optEnv]; rw [dif_pos h], h.choose_spec⟩

theorem optEnv_couples : SolverCouples optEnv := by
  intro n a b C T ha hb h
  have hx := exists_optimal ha hb C
  simp only [optEnv] at h
  rw [dif_pos hx] at h
  cases h
  exact hx.choose_spec.1

theorem uniform_prob (hN : 0 < N) : IsProb fun _ : Fin N => 1 / (N:ℝ) := by
  refine ⟨fun _ => by positivity, ?_⟩
  simp only [Finset.sum_const, Finset.card_univ, Fintype.card_fin, nsmul_eq_mul]
  field_simp

theorem softmax_pos (hN : 0 < N) (v : Fin N → ℝ) (i : Fin N) : 0 < softmax v i :=
  div_pos (Real.exp_pos _) (Finset.sum_pos (fun _ _ => Real.exp_pos _) ⟨i, Finset.mem_univ _⟩)

theorem sumExp_pos (hN : 0 < N) (v : Fin N → ℝ) : 0 < ∑ m, Real.exp (v m) :=
  Finset.sum_pos (fun _ _ => Real.exp_pos _) ⟨⟨0, hN⟩, Finset.mem_univ _⟩

theorem softmax_prob (hN : 0 < N) (v : Fin N → ℝ) : IsProb (softmax v) := by
  refine ⟨fun i => (softmax_pos hN v i).le, ?_⟩
  simp only [softmax, ← Finset.sum_div]
  exact div_self (sumExp_pos hN v).ne'

theorem softmax_const (hN : 0 < N) (v : Fin N → ℝ) (h : ∀ i j, v i = v j) :
    softmax v = fun _ => 1 / (N:ℝ) := by
  funext i
  have : ∀ m, Real.exp (v m) = Real.exp (v i) := fun m => by rw [h m i]
  simp only [softmax, this, Finset.sum_const, Finset.card_univ, Fintype.card_fin, nsmul_eq_mul]
  have := Real.exp_pos (v i)
  have : (N:ℝ) ≠ 0 := by positivity
  field_simp

theorem softmax_shift (v : Fin N → ℝ) (c : ℝ) : softmax (fun n => v n + c) = softmax v := by
  funext i
  simp only [softmax, Real.exp_add, ← Finset.sum_mul]
  rw [mul_div_mul_right _ _ (Real.exp_pos c).ne']

theorem softmax_lt_iff (hN : 0 < N) (v : Fin N → ℝ) (i j : Fin N) :
    softmax v i < softmax v j ↔ v i < v j := by
  simp only [softmax]
  rw [div_lt_div_iff_of_pos_right (sumExp_pos hN v), Real.exp_lt_exp]

theorem softmax_ratio (hN : 0 < N) (v : Fin N → ℝ) (i j : Fin N) :
    softmax v i / softmax v j = Real.exp (v i - v j) := by
  have h := (sumExp_pos hN v).ne'
  have := (Real.exp_pos (v j)).ne'
  simp only [softmax, Real.exp_sub]
  field_simp

/-- A coupling of weights with the uniform distribution moves each particle to a convex combination, and
preserves the weighted mean. -/
theorem coupling_mean (hN : 0 < N) {W : Fin N → ℝ} {T : Fin N → Fin N → ℝ} {x y : Fin d → Fin N → ℝ}
    (h : IsCoupling W (fun _ => 1 / (N:ℝ)) T) (hy : ∀ a n, y a n = ∑ m, x a m * (T m n * N))
    (a : Fin d) : (∑ n, y a n) / N = ∑ m, W m * x a m := by
  have hN' : (N:ℝ) ≠ 0 := by positivity
  simp only [hy]
  rw [Finset.sum_comm, Finset.sum_div]
  refine Finset.sum_congr rfl fun m _ => ?_
  rw [← Finset.mul_sum, ← Finset.sum_mul, h.2.1 m]
  field_simp

theorem coupling_convex (hN : 0 < N) {W : Fin N → ℝ} {T : Fin N → Fin N → ℝ} {x y : Fin d → Fin N → ℝ}
    (h : IsCoupling W (fun _ => 1 / (N:ℝ)) T) (hy : ∀ a n, y a n = ∑ m, x a m * (T m n * N))
    {S : Set (Fin d → ℝ)} (hS : Convex ℝ S) (hx : ∀ m, particle x m ∈ S) (n : Fin N) :
    particle y n ∈ S := by
  have hN' : (N:ℝ) ≠ 0 := by positivity
  have e : particle y n = ∑ m, (T m n * N) • particle x m := by
    funext a
    simp only [particle, Finset.sum_apply, Pi.smul_apply, smul_eq_mul, hy]
    exact Finset.sum_congr rfl fun m _ => mul_comm _ _
  rw [e]
  refine hS.sum_mem (fun m _ => mul_nonneg (h.1 m n) (by positivity)) ?_ fun m _ => hx m
  rw [← Finset.sum_mul, h.2.2 n]
  field_simp

/-- An optimal plan between uniform weights, for a cost that vanishes on the diagonal and only between equal
particles, moves nothing. -/
theorem optimal_uniform_fixes (hN : 0 < N) {C T : Fin N → Fin N → ℝ} {x y : Fin d → Fin N → ℝ}
    (hC0 : ∀ i, C i i = 0) (hCp : ∀ i j, 0 ≤ C i j)
    (hCx : ∀ i j, C i j = 0 → particle x i = particle x j)
    (h : IsOptimal (fun _ => 1 / (N:ℝ)) (fun _ => 1 / (N:ℝ)) C T)
    (hy : ∀ a n, y a n = ∑ m, x a m * (T m n * N)) : y = x := by
  have hN' : (N:ℝ) ≠ 0 := by positivity
  have hid : IsCoupling (fun _ : Fin N => 1 / (N:ℝ)) (fun _ => 1 / (N:ℝ))
      (fun i j => if i = j then 1 / (N:ℝ) else 0) := by
    refine ⟨fun i j => by positivity, fun i => by simp, fun j => by simp⟩
  have hcost : planCost C (fun i j => if i = j then 1 / (N:ℝ) else 0) = 0 := by
    simp [planCost, hC0]
  have hle := h.2 _ hid
  rw [hcost] at hle
  have hz : ∀ i j, T i j * C i j = 0 := by
    have hnn : ∀ i j, 0 ≤ T i j * C i j := fun i j => mul_nonneg (h.1.1 i j) (hCp i j)
    have h0 : ∑ i, ∑ j, T i j * C i j = 0 :=
      le_antisymm hle (Finset.sum_nonneg fun i _ => Finset.sum_nonneg fun j _ => hnn i j)
    intro i j
    have := (Finset.sum_eq_zero_iff_of_nonneg fun i _ => Finset.sum_nonneg fun j _ => hnn i j).1 h0 i
      (Finset.mem_univ _)
    exact (Finset.sum_eq_zero_iff_of_nonneg fun j _ => hnn i j).1 this j (Finset.mem_univ _)
  funext a n
  rw [hy]
  have : ∀ m, x a m * (T m n * N) = x a n * (T m n * N) := by
    intro m
    rcases mul_eq_zero.1 (hz m n) with h1 | h1
    · simp [h1]
    · have := congrFun (hCx m n h1) a
      simp only [particle] at this
      rw [this]
  simp only [this, ← Finset.mul_sum, ← Finset.sum_mul, h.1.2.2 n]
  field_simp

theorem pdist_nonneg (x : Fin d → Fin N → ℝ) (i j : Fin N) : 0 ≤ pdist x i j := Real.sqrt_nonneg _
theorem pdist_self (x : Fin d → Fin N → ℝ) (i : Fin N) : pdist x i i = 0 := by simp [pdist]

theorem sqdist_eq_zero {x : Fin d → Fin N → ℝ} {i j : Fin N} (h : sqdist x i j = 0) :
    particle x i = particle x j := by
  funext a
  have := (Finset.sum_eq_zero_iff_of_nonneg fun a _ => sq_nonneg (x a i - x a j)).1 h a
    (Finset.mem_univ _)
  exact sub_eq_zero.1 (pow_eq_zero_iff (two_ne_zero) |>.1 this)

theorem pdist_eq_zero {x : Fin d → Fin N → ℝ} {i j : Fin N} (h : pdist x i j = 0) :
    particle x i = particle x j :=
  sqdist_eq_zero ((Real.sqrt_eq_zero (Finset.sum_nonneg fun a _ => sq_nonneg _)).1 h)

theorem sqdist_nonneg (x : Fin d → Fin N → ℝ) (i j : Fin N) : 0 ≤ sqdist x i j :=
  Finset.sum_nonneg fun a _ => sq_nonneg _

end DPFC
