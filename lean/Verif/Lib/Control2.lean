import Verif.Lib.Control

/-! More about the queries: coverage loops, spread, the kernel branch on other shapes, limits. -/

set_option linter.unusedSectionVars false

namespace DPFC
open Spec

section
variable {K ρ : Type} [Add K] [Sub K] [Mul K] [Div K] [Neg K] [NumOps K]
variable {N M d n c : Nat}

theorem forFin_and : ∀ {d : Nat} (p : Fin d → Bool) (b : Bool),
    forFin d (fun ii cov => (Except.ok (cov && p ii) : Except PyErr Bool)) b
      = .ok (b && decide (∀ i, p i = true))
  | 0, p, b => by simp [forFin]
  | d+1, p, b => by
    rw [forFin, Except.ok_bind', forFin_and]
    congr 1
    rw [Bool.and_assoc]
    congr 1
    rw [Bool.eq_iff_iff]
    simp only [Bool.and_eq_true, decide_eq_true_eq]
    exact ⟨fun h i => Fin.cases h.1 h.2 i, fun h => ⟨h 0, fun i => h i.succ⟩⟩

theorem checkIfCovered_out (o : Obj d N M K) (X : Fin c → K) (ti : Int) (z b : Mat d N K)
    (hz : pyAt o.Z ti = some z) (hb : pyAt o.B ti = some b) (hN : 0 < N) (hc : c < d) :
    checkIfCovered o X ti = .error .indexError := by
  obtain ⟨N, rfl⟩ : ∃ m, N = m + 1 := ⟨N - 1, by omega⟩
  unfold checkIfCovered
  simp only [pyGet_of_pyAt hz, pyGet_of_pyAt hb, Except.ok_bind', npMin, npMax]
  refine forFin_error_index _ (fun i s e he => ?_) ⟨c, hc⟩ (fun s => ?_)
  · split at he
    · cases he
    · injection he with he; exact he.symm
  · rw [dif_neg (by simp)]

theorem torchCheckIfCovered_out (o : Obj d N M K) (X : Fin c → K) (ti : Int) (z b : Mat d N K)
    (hz : pyAt o.Z ti = some z) (hb : pyAt o.B ti = some b) (hN : 0 < N) (hc : c < d) :
    torchCheckIfCovered o X ti = .error .indexError := by
  obtain ⟨N, rfl⟩ : ∃ m, N = m + 1 := ⟨N - 1, by omega⟩
  unfold torchCheckIfCovered
  simp only [pyGet_of_pyAt hz, pyGet_of_pyAt hb, Except.ok_bind', torchMin, torchMax]
  refine forFin_error_index _ (fun i s e he => ?_) ⟨c, hc⟩ (fun s => ?_)
  · split at he
    · cases he
    · injection he with he; exact he.symm
  · rw [dif_neg (by simp)]

end

section real
variable {ρ : Type} {N M d n c : Nat}

theorem lo_le_iff (hN : 0 < N) (v : Fin N → ℝ) (x : ℝ) : lo v ≤ x ↔ ∃ i, v i ≤ x := by
  have : Nonempty (Fin N) := ⟨⟨0, hN⟩⟩
  constructor
  · intro h
    obtain ⟨i, hi⟩ := exists_eq_ciInf_of_finite (f := v)
    exact ⟨i, by rw [hi]; exact h⟩
  · rintro ⟨i, h⟩
    exact (ciInf_le (Set.finite_range v).bddBelow i).trans h

theorem le_hi_iff (hN : 0 < N) (v : Fin N → ℝ) (x : ℝ) : x ≤ hi v ↔ ∃ i, x ≤ v i := by
  have : Nonempty (Fin N) := ⟨⟨0, hN⟩⟩
  constructor
  · intro h
    obtain ⟨i, hi⟩ := exists_eq_ciSup_of_finite (f := v)
    exact ⟨i, by rw [hi]; exact h⟩
  · rintro ⟨i, h⟩
    exact h.trans (le_ciSup (Set.finite_range v).bddAbove i)

open Classical in
theorem checkIfCovered_real (o : Obj d N M ℝ) (X : Fin d → ℝ) (ti : Int) (z b : Mat d N ℝ)
    (hz : pyAt o.Z ti = some z) (hb : pyAt o.B ti = some b) (hN : 0 < N) :
    checkIfCovered o X ti = .ok (decide (∀ a, max (lo (z a)) (lo (b a)) ≤ X a ∧
      X a ≤ min (hi (z a)) (hi (b a)))) := by
  unfold checkIfCovered
  simp only [pyGet_of_pyAt hz, pyGet_of_pyAt hb, Except.ok_bind', npMin_real hN, npMax_real hN,
    pyMax_real, pyMin_real]
  have : ∀ (ii : Fin d) (cov : Bool), (if h : ii.val < d then
      (Except.ok (cov && (NumOps.leB (max (lo (z ii)) (lo (b ii))) (X ⟨ii, h⟩)
        && NumOps.leB (X ⟨ii, h⟩) (min (hi (z ii)) (hi (b ii))))) : Except PyErr Bool)
      else .error .indexError) = Except.ok (cov && decide (max (lo (z ii)) (lo (b ii)) ≤ X ii ∧
      X ii ≤ min (hi (z ii)) (hi (b ii)))) := by
    intro ii cov
    rw [dif_pos ii.2]
    congr 2
    rw [Bool.eq_iff_iff]
    simp only [Bool.and_eq_true, real_leB, decide_eq_true_eq]
  rw [forFin_congr this, forFin_and]
  simp only [Bool.true_and, decide_eq_true_eq]

open Classical in
theorem torchCheckIfCovered_real (o : Obj d N M ℝ) (X : Fin d → ℝ) (ti : Int) (z b : Mat d N ℝ)
    (hz : pyAt o.Z ti = some z) (hb : pyAt o.B ti = some b) (hN : 0 < N) :
    torchCheckIfCovered o X ti = .ok (decide (∀ a, min (lo (z a)) (lo (b a)) ≤ X a ∧
      X a ≤ max (hi (z a)) (hi (b a)))) := by
  unfold torchCheckIfCovered
  simp only [pyGet_of_pyAt hz, pyGet_of_pyAt hb, Except.ok_bind', torchMin_real hN, torchMax_real hN,
    pyMax_real, pyMin_real]
  have : ∀ (ii : Fin d) (cov : Bool), (if h : ii.val < d then
      (Except.ok (cov && (NumOps.leB (min (lo (z ii)) (lo (b ii))) (X ⟨ii, h⟩)
        && NumOps.leB (X ⟨ii, h⟩) (max (hi (z ii)) (hi (b ii))))) : Except PyErr Bool)
      else .error .indexError) = Except.ok (cov && decide (min (lo (z ii)) (lo (b ii)) ≤ X ii ∧
      X ii ≤ max (hi (z ii)) (hi (b ii)))) := by
    intro ii cov
    rw [dif_pos ii.2]
    congr 2
    rw [Bool.eq_iff_iff]
    simp only [Bool.and_eq_true, real_leB, decide_eq_true_eq]
  rw [forFin_congr this, forFin_and]
  simp only [Bool.true_and, decide_eq_true_eq]

/-- A cloud with two different values has spread. -/
theorem sdev_ne_zero {v : Fin N → ℝ} {i j : Fin N} (h : v i ≠ v j) : sdev v ≠ 0 := by
  intro h0
  have hN : (0:ℝ) < N := by have := i.2; exact_mod_cast (by omega : 0 < N)
  unfold sdev variance at h0
  have hs : 0 ≤ ∑ k, (v k - avg v) ^ 2 := Finset.sum_nonneg fun _ _ => sq_nonneg _
  rw [Real.sqrt_eq_zero (div_nonneg hs hN.le), div_eq_zero_iff] at h0
  rcases h0 with h0 | h0
  · rw [Finset.sum_eq_zero_iff_of_nonneg fun _ _ => sq_nonneg _] at h0
    have hi := h0 i (Finset.mem_univ _)
    have hj := h0 j (Finset.mem_univ _)
    simp only [pow_eq_zero_iff, ne_eq, OfNat.ofNat_ne_zero, not_false_eq_true] at hi hj
    exact h (by linarith)
  · exact hN.ne' h0

/-- Without different values there is no spread. -/
theorem sdev_const (y : ℝ) : sdev (fun _ : Fin N => y) = 0 := by
  unfold sdev variance avg
  rcases Nat.eq_zero_or_pos N with rfl | h
  · simp
  · have : (N:ℝ) ≠ 0 := by exact_mod_cast h.ne'
    simp [this]

theorem sampleSdev_sq (hN : 2 ≤ N) (v : Fin N → ℝ) :
    sampleSdev v ^ 2 = N / (N - 1) * sdev v ^ 2 := by
  have h1 : (0:ℝ) < N - 1 := by
    have : (2:ℝ) ≤ N := by exact_mod_cast hN
    linarith
  have h0 : (0:ℝ) < N := by linarith
  have hs : 0 ≤ ∑ k, (v k - avg v) ^ 2 := Finset.sum_nonneg fun _ _ => sq_nonneg _
  unfold sampleSdev sdev variance
  rw [Real.sq_sqrt (div_nonneg hs h1.le), Real.sq_sqrt (div_nonneg hs h0.le)]
  field_simp

theorem sampleSdev_eq (hN : 2 ≤ N) (v : Fin N → ℝ) :
    sampleSdev v = Real.sqrt (N / (N - 1)) * sdev v := by
  have h1 : (0:ℝ) < N - 1 := by
    have : (2:ℝ) ≤ N := by exact_mod_cast hN
    linarith
  have h0 : (0:ℝ) < N := by linarith
  have hs : 0 ≤ ∑ k, (v k - avg v) ^ 2 := Finset.sum_nonneg fun _ _ => sq_nonneg _
  unfold sdev variance sampleSdev
  rw [← Real.sqrt_mul (div_nonneg h0.le h1.le)]
  congr 1
  field_simp

theorem gaussU_torch (hN : 2 ≤ N) (b z : Fin N → ℝ) (x : ℝ) :
    gaussU torchStd b z x = (N - 1) / N * gaussU npStd b z x := by
  have h1 : (N:ℝ) - 1 ≠ 0 := by
    have : (2:ℝ) ≤ N := by exact_mod_cast hN
    linarith
  have h0 : (N:ℝ) ≠ 0 := by positivity
  unfold gaussU
  simp only [torchStd_real, npStd_real, real_sq, sampleSdev_sq hN]
  have : ∀ t s : ℝ, t / (N / (N - 1) * s) = (N - 1) / N * (t / s) := by
    intro t s
    rw [div_mul_eq_div_div, div_div_eq_mul_div]
    ring
  rw [this, this]
  ring

/-! Kernel branch on other shapes -/

theorem scoreSepFn_lt (X : Mat N d ℝ) (Z : Mat M d ℝ) (l : Fin d → ℝ) (di : Fin d) (x : Mat n c ℝ)
    (h0 : 0 < c) (h : c ≤ d) :
    ∃ v, scoreSepFn X Z (lit 1 1000) "RBF" (.vec l) (di.val + 1) x = .ok v := by
  have hi : pyIdx d ((di.val : Int) + 1 - 1) = .ok di.val := by
    rw [Int.add_sub_cancel]; exact pyIdx_nat d di.2
  simp only [scoreSepFn, real_lit_milli, sepCommon_real X Z (.vec l) _ di hi, Except.ok_bind', if_true,
    rbfKsz, if_neg (by omega : ¬ c = 0), dif_pos h, fnOut, 
    real_inv_ok (inner_real_unit milli_gt _ X Z)]
  exact ⟨_, rfl⟩

theorem scoreSepFn_gt (X : Mat N d ℝ) (Z : Mat M d ℝ) (l : Fin d → ℝ) (di : Fin d) (x : Mat n c ℝ)
    (h : d < c) :
    scoreSepFn X Z (lit 1 1000) "RBF" (.vec l) (di.val + 1) x = .error .indexError := by
  have hi : pyIdx d ((di.val : Int) + 1 - 1) = .ok di.val := by
    rw [Int.add_sub_cancel]; exact pyIdx_nat d di.2
  simp only [scoreSepFn, real_lit_milli, sepCommon_real X Z (.vec l) _ di hi, Except.ok_bind', if_true,
    rbfKsz, if_neg (by omega : ¬ c = 0), dif_neg (by omega : ¬ c ≤ d)]
  rfl

theorem scoreSepFn_zero (X : Mat N d ℝ) (Z : Mat M d ℝ) (l : Fin d → ℝ) (di : Fin d) (x : Mat n 0 ℝ) :
    scoreSepFn X Z (lit 1 1000) "RBF" (.vec l) (di.val + 1) x = .error .typeError := by
  have hi : pyIdx d ((di.val : Int) + 1 - 1) = .ok di.val := by
    rw [Int.add_sub_cancel]; exact pyIdx_nat d di.2
  simp only [scoreSepFn, real_lit_milli, sepCommon_real X Z (.vec l) _ di hi, Except.ok_bind', if_true,
    rbfKsz]
  rfl

/-- The score estimate vanishes far away. -/
theorem score_tendsto {C : ℝ} (l : Fin d → ℝ) (X : Fin N → Fin d → ℝ) (Z : Fin M → Fin d → ℝ)
    (j a : Fin d) (hl : l a ≠ 0) (x : Fin d → ℝ) :
    Filter.Tendsto (fun s : ℝ => score C l X Z j (Function.update x a s)) Filter.atTop (nhds 0) := by
  unfold score
  rw [show (0:ℝ) = ∑ i : Fin M, coef C l X Z j i * 0 by simp]
  refine tendsto_finsetSum _ fun i _ => Filter.Tendsto.const_mul _ ?_
  have hup : Filter.Tendsto (fun s : ℝ => Real.exp (-((s - Z i a) ^ 2 / (2 * l a ^ 2)))) Filter.atTop
      (nhds 0) := by
    refine Real.tendsto_exp_neg_atTop_nhds_zero.comp ?_
    have : 0 < 2 * l a ^ 2 := by positivity
    refine Filter.Tendsto.atTop_div_const this ?_
    refine (Filter.tendsto_pow_atTop (by norm_num)).comp ?_
    exact Filter.tendsto_atTop_add_const_right _ _ Filter.tendsto_id
  refine squeeze_zero (fun s => (gauss_pos _ _ _).le) (fun s => ?_) hup
  unfold gauss
  refine Real.exp_le_exp.2 (neg_le_neg ?_)
  have := Finset.single_le_sum (f := fun k => (Function.update x a s k - Z i k) ^ 2 / (2 * l k ^ 2))
    (fun k _ => by positivity) (Finset.mem_univ a)
  simpa using this

end real
/-! ### Computations that draw no random numbers -/

/-- The computation neither looks at nor changes the random state. -/
def NoDraw {ρ α : Type} (x : RandM ρ α) : Prop :=
  ∃ e : Except PyErr α, ∀ r, x r = match e with
    | .ok a => .ok (a, r)
    | .error e => .error e

theorem noDraw_pure {ρ α : Type} (a : α) : NoDraw (pure a : RandM ρ α) := ⟨.ok a, fun _ => rfl⟩

theorem noDraw_liftM {ρ α : Type} (e : Except PyErr α) : NoDraw (liftM e : RandM ρ α) :=
  ⟨e, fun _ => by cases e <;> rfl⟩

theorem noDraw_bind {ρ α β : Type} {x : RandM ρ α} {f : α → RandM ρ β} (hx : NoDraw x)
    (hf : ∀ a, NoDraw (f a)) : NoDraw (x >>= f) := by
  obtain ⟨e, he⟩ := hx
  cases e with
  | error e => exact ⟨.error e, fun r => by rw [RandM.bind_app, he]⟩
  | ok a =>
    obtain ⟨e', he'⟩ := hf a
    exact ⟨e', fun r => by rw [RandM.bind_app, he]; exact he' r⟩

end DPFC
