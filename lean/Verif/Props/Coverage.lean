import Verif.Props.Control
import Verif.Props.TorchControl
import Verif.Model.Coverage

/-!
# Properties of `check_if_covered` (C42, C43, C54)
-/

namespace DPFC
open Spec
variable {ρ : Type} {N M d n c m : ℕ}

/-- **C42**. `check_if_covered` answers True exactly if in every coordinate the point has a forward particle
and a backward particle on each side (at or below, at or above). -/
theorem C42_coverage (o : Obj d N M ℝ) (hN : 0 < N) (X : Fin d → ℝ) (ti : Int) (z b : Mat d N ℝ)
    (hz : pyAt o.Z ti = some z) (hb : pyAt o.B ti = some b) :
    ∃ ans, checkIfCovered o X ti = .ok ans ∧ (ans = true ↔ ∀ a,
      ((∃ i, z a i ≤ X a) ∧ (∃ i, X a ≤ z a i)) ∧ ((∃ i, b a i ≤ X a) ∧ (∃ i, X a ≤ b a i))) := by
  classical
  refine ⟨_, checkIfCovered_real o X ti z b hz hb hN, ?_⟩
  rw [decide_eq_true_eq]
  refine forall_congr' fun a => ?_
  rw [max_le_iff, le_min_iff, lo_le_iff hN, lo_le_iff hN, le_hi_iff hN, le_hi_iff hN]
  tauto

/-- **C42** (every particle seen by both flows is covered; a point outside one flow is not). -/
theorem C42_common_points (o : Obj d N M ℝ) (hN : 0 < N) (ti : Int) (z b : Mat d N ℝ)
    (hz : pyAt o.Z ti = some z) (hb : pyAt o.B ti = some b) (X : Fin d → ℝ) :
    (∀ i j, (∀ a, X a = z a i ∧ X a = b a j) → checkIfCovered o X ti = .ok true) ∧
    (∀ a, (∀ i, X a < z a i) ∨ (∀ i, z a i < X a) ∨ (∀ i, X a < b a i) ∨ (∀ i, b a i < X a) →
      checkIfCovered o X ti = .ok false) := by
  obtain ⟨ans, h, hi⟩ := C42_coverage o hN X ti z b hz hb
  rw [h]
  constructor
  · intro i j hx
    congr 1
    exact hi.2 fun a => ⟨⟨⟨i, (hx a).1.ge⟩, ⟨i, (hx a).1.le⟩⟩, ⟨⟨j, (hx a).2.ge⟩, ⟨j, (hx a).2.le⟩⟩⟩
  · intro a ha
    congr 1
    rw [Bool.eq_false_iff]
    intro ht
    obtain ⟨⟨⟨i1, h1⟩, ⟨i2, h2⟩⟩, ⟨⟨i3, h3⟩, ⟨i4, h4⟩⟩⟩ := hi.1 ht a
    rcases ha with ha | ha | ha | ha
    · exact absurd (ha i1) (not_lt.2 h1)
    · exact absurd (ha i2) (not_lt.2 h2)
    · exact absurd (ha i3) (not_lt.2 h3)
    · exact absurd (ha i4) (not_lt.2 h4)

/-- **C42** (other lengths, any arithmetic). A point with fewer than `dim` entries raises IndexError; entries
beyond `dim` are ignored. -/
theorem C42_lengths {K : Type} [Add K] [Sub K] [Mul K] [Div K] [Neg K] [NumOps K]
    (o : Obj d N M K) (hN : 0 < N) (ti : Int) (z b : Mat d N K)
    (hz : pyAt o.Z ti = some z) (hb : pyAt o.B ti = some b) (X : Fin c → K) :
    (c < d → checkIfCovered o X ti = .error .indexError) ∧
    (∀ h : d ≤ c, checkIfCovered o X ti = checkIfCovered o (fun a => X (Fin.castLE h a)) ti) := by
  refine ⟨checkIfCovered_out o X ti z b hz hb hN, fun h => ?_⟩
  obtain ⟨N, rfl⟩ : ∃ m, N = m + 1 := ⟨N - 1, by omega⟩
  unfold checkIfCovered
  refine congrFun (congrArg _ ?_) _
  funext ii cov
  simp only [dif_pos (lt_of_lt_of_le ii.2 h), dif_pos ii.2, Fin.castLE]

/-- **C43**. The torch `check_if_covered` answers True exactly if in every coordinate the point has some
particle of either flow on each side. -/
theorem C43_torch_coverage (o : Obj d N M ℝ) (hN : 0 < N) (X : Fin d → ℝ) (ti : Int) (z b : Mat d N ℝ)
    (hz : pyAt o.Z ti = some z) (hb : pyAt o.B ti = some b) :
    ∃ ans, torchCheckIfCovered o X ti = .ok ans ∧ (ans = true ↔ ∀ a,
      ((∃ i, z a i ≤ X a) ∨ (∃ i, b a i ≤ X a)) ∧ ((∃ i, X a ≤ z a i) ∨ (∃ i, X a ≤ b a i))) := by
  classical
  refine ⟨_, torchCheckIfCovered_real o X ti z b hz hb hN, ?_⟩
  rw [decide_eq_true_eq]
  refine forall_congr' fun a => ?_
  rw [min_le_iff, le_max_iff, lo_le_iff hN, lo_le_iff hN, le_hi_iff hN, le_hi_iff hN]

/-- **C43** (comparison). On the same flows every point covered for numpy is covered for torch; if in every
coordinate all forward particles lie strictly below all backward particles, every point in the gap is
covered for torch and no point at all is covered for numpy (`dim >= 1`). -/
theorem C43_torch_weaker (o : Obj d N M ℝ) (hN : 0 < N) (ti : Int) (z b : Mat d N ℝ)
    (hz : pyAt o.Z ti = some z) (hb : pyAt o.B ti = some b) (X : Fin d → ℝ) :
    (checkIfCovered o X ti = .ok true → torchCheckIfCovered o X ti = .ok true) ∧
    (0 < d → (∀ a i j, z a i < b a j) → (∀ a i, z a i < X a ∧ X a < b a i) →
      torchCheckIfCovered o X ti = .ok true) ∧
    (0 < d → (∀ a i j, z a i < b a j) → checkIfCovered o X ti = .ok false) := by
  obtain ⟨t, ht, hti⟩ := C43_torch_coverage o hN X ti z b hz hb
  obtain ⟨s, hs, hsi⟩ := C42_coverage o hN X ti z b hz hb
  rw [ht, hs]
  refine ⟨fun h => ?_, fun hd _ hx => ?_, fun hd hzb => ?_⟩
  · injection h with h
    rw [hti.2 fun a => ⟨.inl (hsi.1 h a).1.1, .inl (hsi.1 h a).1.2⟩]
  · rw [hti.2 fun a => ⟨.inl ⟨⟨0, hN⟩, (hx a _).1.le⟩, .inr ⟨⟨0, hN⟩, (hx a _).2.le⟩⟩]
  · congr 1
    rw [Bool.eq_false_iff]
    intro h
    obtain ⟨⟨_, ⟨i, h1⟩⟩, ⟨⟨j, h2⟩, _⟩⟩ := hsi.1 h ⟨0, hd⟩
    exact absurd (hzb _ i j) (not_lt.2 (h2.trans h1))

/-- Concrete instance: index 3 of the example object, forward particles 0, 2 / 1, 3 and backward particles
1, 2 / 2, 3; and an object with separated flows. -/
example : checkIfCovered (exObj false false) (fun a : Fin 2 => (a.val : ℝ) + 2) 3 = .ok true ∧
    checkIfCovered (exObj false false) (fun _ : Fin 2 => -1) 3 = .ok false := by
  have h3 := exObj_slices false false 3 (by norm_num) (by norm_num)
  refine ⟨(C42_common_points (exObj false false) (by norm_num) 3 _ _ h3.2 h3.1 _).1 1 1 (fun a => ?_),
    (C42_common_points (exObj false false) (by norm_num) 3 _ _ h3.2 h3.1 _).2 0 (.inl fun i => ?_)⟩
  · constructor
    · norm_num
    · norm_num
      ring
  · show (-1:ℝ) < ((0 : Fin 2).val : ℝ) + 2 * i.val
    have : (0:ℝ) ≤ i.val := Nat.cast_nonneg _
    simp only [Fin.val_zero, Nat.cast_zero]
    linarith

/-- Forward particles 0, 1 and backward particles 10, 11 in both coordinates. -/
noncomputable def exGap : Obj 2 2 3 ℝ :=
  { exObj false false with
    Z := List.replicate 20 fun _ n => (n.val : ℝ), B := List.replicate 20 fun _ n => 10 + (n.val : ℝ) }

example : torchCheckIfCovered exGap (fun _ : Fin 2 => 5) 3 = .ok true ∧
    checkIfCovered exGap (fun _ : Fin 2 => 5) 3 = .ok false := by
  have hlt : ∀ i : Fin 2, (i.val : ℝ) ≤ 1 := fun i => by exact_mod_cast (by omega : i.val ≤ 1)
  have h0 : ∀ i : Fin 2, (0:ℝ) ≤ (i.val : ℝ) := fun i => Nat.cast_nonneg _
  have h := C43_torch_weaker exGap (by norm_num) 3 (fun _ n => (n.val : ℝ)) (fun _ n => 10 + (n.val : ℝ))
    rfl rfl (fun _ => 5)
  have hzb : ∀ (_ : Fin 2) (i j : Fin 2), (i.val : ℝ) < 10 + (j.val : ℝ) := fun a i j => by
    have := hlt i; have := h0 j; linarith
  exact ⟨h.2.1 (by norm_num) hzb (fun a i => ⟨by have := hlt i; linarith, by have := h0 i; linarith⟩),
    h.2.2 (by norm_num) hzb⟩

/-! ### C41: the answers of a session -/

/-- **C41** (answers). At every position of every session, on either class, a coverage query gets the geometric answer of
C42 (numpy) or C43 (torch), whatever was asked before and whatever the random generator did. -/
theorem C41_session_coverage (env : Env ρ ℝ) (o : Obj d N M ℝ) (hN : 0 < N) (X : Fin d → ℝ) (ti : Int) (z b : Mat d N ℝ)
    (hz : pyAt o.Z ti = some z) (hb : pyAt o.B ti = some b) (h : List (Query ℝ × ρ)) (i : ℕ) (r : ρ)
    (hi : h[i]? = some (.covered d X ti, r)) :
    ∃ ans ans', (session (ask env o) h)[i]? = some (.covered ans) ∧
      (session (torchAsk env o) h)[i]? = some (.covered ans') ∧
      (ans = true ↔ ∀ a,
        ((∃ i, z a i ≤ X a) ∧ (∃ i, X a ≤ z a i)) ∧ ((∃ i, b a i ≤ X a) ∧ (∃ i, X a ≤ b a i))) ∧
      (ans' = true ↔ ∀ a,
        ((∃ i, z a i ≤ X a) ∨ (∃ i, b a i ≤ X a)) ∧ ((∃ i, X a ≤ z a i) ∨ (∃ i, X a ≤ b a i))) := by
  obtain ⟨s, hs, hsi⟩ := C42_coverage o hN X ti z b hz hb
  obtain ⟨t, ht, hti⟩ := C43_torch_coverage o hN X ti z b hz hb
  refine ⟨s, t, ?_, ?_, hsi, hti⟩
  · simp only [session, List.getElem?_map, hi, Option.map_some, ask, hs]
  · simp only [session, List.getElem?_map, hi, Option.map_some, torchAsk, ht]

/-- **C41** (answers). The same for control queries at the edge indices: the formula of C36, on either class. -/
theorem C41_session_edge_control (env : Env ρ ℝ) (o : Obj d N M ℝ) (hN : 2 ≤ N) (x : Mat n d ℝ) (ti : Int)
    (he : Edge o.timegrid.length ti) (b z zr : Mat d N ℝ) (hb : pyAt o.B ti = some b) (hz : pyAt o.Z ti = some z)
    (hr : reference o ti = some zr) (sb : Spread b) (sz : Spread zr) (h : List (Query ℝ × ρ)) (i : ℕ) (r : ρ)
    (hi : h[i]? = some (.control n d x ti, r)) :
    ∃ u ut : Mat d n ℝ, (session (ask env o) h)[i]? = some (.control ⟨d, n, u⟩) ∧
      (session (torchAsk env o) h)[i]? = some (.control ⟨d, n, ut⟩) ∧
      ∀ a j, u a j = gaussScore (b a) (x j a) - gaussScore (zr a) (x j a) ∧
        ut a j = sampleGaussScore (b a) (x j a) - sampleGaussScore (zr a) (x j a) := by
  obtain ⟨u, hu, hui⟩ := C36_edge_control env o (by omega) x ti he b z zr hb hz hr sb sz r
  obtain ⟨t, ht, hti⟩ := C36_torch_edge_control env o hN x ti he b z zr hb hz hr sb sz r
  refine ⟨u, t, ?_, ?_, fun a j => ⟨hui a j, hti a j⟩⟩
  · simp only [session, List.getElem?_map, hi, Option.map_some, ask, hu]
  · simp only [session, List.getElem?_map, hi, Option.map_some, torchAsk, ht]

/-- A session with an interior query before the coverage query, and an edge query after it. -/
example (x : Mat 4 2 ℝ) :
    let h : List (Query ℝ × ℕ) := [(.control 4 2 x 10, 0), (.covered 2 (fun _ => 5) 3, 57), (.control 4 2 x 3, 9)]
    (∃ ans ans', (session (ask exEnv (exObj false false)) h)[1]? = some (.covered ans) ∧
      (session (torchAsk exEnv (exObj false false)) h)[1]? = some (.covered ans')) ∧
    ∃ u, (session (torchAsk exEnv (exObj false false)) h)[2]? = some (.control u) := by
  intro h
  have h3 := exObj_slices false false 3 (by norm_num) (by norm_num)
  obtain ⟨a, a', e, e', _⟩ := C41_session_coverage exEnv (exObj false false) (by norm_num) (fun _ => 5) 3 _ _ h3.2 h3.1 h 1 57 rfl
  obtain ⟨u, ut, _, f, _⟩ := C41_session_edge_control exEnv (exObj false false) (by norm_num) x 3 (.inl (by norm_num))
    _ _ _ h3.1 h3.2 h3.2 exObj_spread.1 exObj_spread.2 h 2 9 rfl
  exact ⟨⟨a, a', e, e'⟩, _, f⟩

/-! ### C54: the documented two-dimensional arguments -/

section
variable {K : Type} [Add K] [Sub K] [Mul K] [Div K] [Neg K] [NumOps K]

/-- **C54**. For `dim >= 2` the documented call `check_if_covered(X, ti)` with `X` of shape `m x dim` never
returns: ValueError in numpy, RuntimeError in torch (IndexError if `X` has no rows). -/
theorem C54_matrix_argument_raises (o : Obj d N M K) (hN : 0 < N) (ti : Int) (z b : Mat d N K)
    (hz : pyAt o.Z ti = some z) (hb : pyAt o.B ti = some b) (hd : 2 ≤ d) (hc : c + 1 = d)
    (X : Mat m (c+1) K) :
    checkIfCovered2 o X ti = .error (if m = 0 then .indexError else .valueError) ∧
    torchCheckIfCovered2 o X ti = .error (if m = 0 then .indexError else .runtimeError) := by
  obtain ⟨N, rfl⟩ : ∃ m, N = m + 1 := ⟨N - 1, by omega⟩
  subst hc
  obtain ⟨c, rfl⟩ : ∃ m, c = m + 1 := ⟨c - 1, by omega⟩
  unfold checkIfCovered2 torchCheckIfCovered2
  rw [forFin, forFin, pyGet_of_pyAt hz, pyGet_of_pyAt hb]
  simp only [Except.ok_bind', npMin, npMax, torchMin, torchMax]
  by_cases hm : m = 0
  · rw [if_pos hm, if_pos hm, dif_neg (show ¬ (0 : Fin (c+1+1)).val < m by rw [Fin.val_zero]; omega),
      dif_neg (show ¬ (0 : Fin (c+1+1)).val < m by rw [Fin.val_zero]; omega)]
    exact ⟨rfl, rfl⟩
  · rw [if_neg hm, if_neg hm, dif_pos (show (0 : Fin (c+1+1)).val < m by rw [Fin.val_zero]; omega),
      dif_pos (show (0 : Fin (c+1+1)).val < m by rw [Fin.val_zero]; omega)]
    exact ⟨rfl, rfl⟩

/-- **C54** (column). A point given as a column (`m x 1` array) gets the answer of the flat point, whatever the
dimension; with fewer than `dim` rows both raise IndexError. -/
theorem C54_column_point (o : Obj d N M K) (X : Mat m 1 K) (ti : Int) :
    checkIfCovered2 o X ti = checkIfCovered o (fun i => X i 0) ti ∧
    torchCheckIfCovered2 o X ti = torchCheckIfCovered o (fun i => X i 0) ti := by
  unfold checkIfCovered2 torchCheckIfCovered2 checkIfCovered torchCheckIfCovered
  constructor
  all_goals
    refine congrFun (congrArg _ ?_) _
    funext ii cov
    by_cases hm : ii.val < m
    all_goals
      simp only [hm, dif_pos, dif_neg, not_false_eq_true, rowCovered, arrayTruth, Except.ok_bind']
    congr! 12
    split <;> simp_all

/-- **C54** (one dimension). For `dim = 1` a `K x 1` array is accepted, but the answer is that for its
first row alone. -/
theorem C54_one_dim_first_point (o : Obj 1 N M K) (hN : 0 < N) (ti : Int) (z b : Mat 1 N K)
    (hz : pyAt o.Z ti = some z) (hb : pyAt o.B ti = some b) (X : Mat (m+1) 1 K) :
    checkIfCovered2 o X ti = checkIfCovered o (X 0) ti ∧
    torchCheckIfCovered2 o X ti = torchCheckIfCovered o (X 0) ti := by
  obtain ⟨N, rfl⟩ : ∃ m, N = m + 1 := ⟨N - 1, by omega⟩
  unfold checkIfCovered2 torchCheckIfCovered2 checkIfCovered torchCheckIfCovered
  constructor
  all_goals
    rw [forFin, forFin, pyGet_of_pyAt hz, pyGet_of_pyAt hb]
    simp only [Except.ok_bind', npMin, npMax, torchMin, torchMax, rowCovered, arrayTruth]
    rw [dif_pos (show (0 : Fin 1).val < m + 1 by simp), dif_pos (show (0 : Fin 1).val < 1 by simp)]
    simp only [forFin]
    split <;> simp_all
end

example (X : Mat 7 2 ℝ) : checkIfCovered2 exGap X 3 = .error .valueError :=
  (C54_matrix_argument_raises exGap (by norm_num) 3 (fun _ n => (n.val : ℝ))
    (fun _ n => 10 + (n.val : ℝ)) rfl rfl (by norm_num) rfl X).1

/-- A point in the gap, given as a column. -/
example : torchCheckIfCovered2 exGap (fun (_ : Fin 2) (_ : Fin 1) => (5:ℝ)) 3 = .ok true := by
  rw [(C54_column_point exGap _ 3).2]
  have hlt : ∀ i : Fin 2, (i.val : ℝ) ≤ 1 := fun i => by exact_mod_cast (by omega : i.val ≤ 1)
  have h0 : ∀ i : Fin 2, (0:ℝ) ≤ (i.val : ℝ) := fun i => Nat.cast_nonneg _
  exact (C43_torch_weaker exGap (by norm_num) 3 (fun _ n => (n.val : ℝ)) (fun _ n => 10 + (n.val : ℝ)) rfl rfl (fun _ => 5)).2.1
    (by norm_num) (fun a i j => by have := hlt i; have := h0 j; linarith)
    (fun a i => ⟨by have := hlt i; linarith, by have := h0 i; linarith⟩)

end DPFC
