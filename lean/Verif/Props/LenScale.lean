import Verif.Lib.LenScale

/-!
# C83: lists of lengthscales that are too short or too long (numpy)
-/

namespace DPFC
open Spec

section
variable {K : Type} [Add K] [Sub K] [Mul K] [Div K] [Neg K] [NumOps K]
variable {N M d m : Nat}

/-- **C83** (short lists are accepted silently). If the list of lengthscales has fewer entries than there are columns and
`which_dim` is one of the dimensions it covers, the estimators for one dimension return, without any error, what they
return for the samples and inducing points with the remaining columns deleted; the returned function, too (which then has
to be called with deleted columns). For every kernel and arithmetic. -/
theorem C83_short_list (hm : m ≤ d) (X : Mat N d K) (Z : Mat M d K) (C : K) (kern : String) (l : Fin m → K) (w : Int)
    (h1 : 1 ≤ w) (h2 : w ≤ m) :
    scoreSepList hm X Z C kern l w
      = scoreSep (fun i k => X i (Fin.castLE hm k)) (fun i k => Z i (Fin.castLE hm k)) C kern (.vec l) w ∧
    (∀ {n c : Nat} (x : Mat n c K), scoreSepFnList hm X Z C kern l w x
      = scoreSepFn (fun i k => X i (Fin.castLE hm k)) (fun i k => Z i (Fin.castLE hm k)) C kern (.vec l) w x) ∧
    scoreOldList X Z C kern l w
      = scoreOld (fun i k => X i (Fin.castLE hm k)) (fun i k => Z i (Fin.castLE hm k)) C kern (.vec l) w := by
  refine ⟨?_, fun x => ?_, ?_⟩
  · unfold scoreSepList scoreSep
    rw [sepCommonList_eq hm X Z kern l h1 h2]
    rfl
  · unfold scoreSepFnList scoreSepFn
    rw [sepCommonList_eq hm X Z kern l h1 h2, rbfKszList_eq hm, perKszList_eq hm]
    rfl
  · unfold scoreOldList scoreOld
    rw [oldCommonList_eq hm X Z kern l h1 h2]
    rfl

/-- **C83** (long lists, all dimensions at once). The older estimators raise IndexError if the list has more entries than
there are columns; the estimator for all dimensions never returns unless the list has exactly one entry per column. -/
theorem C83_never_returns (X : Mat N d K) (Z : Mat M d K) (C : K) (kern : String) (l : Fin m → K) :
    (d < m → ∀ w, scoreOldList X Z C "RBF" l w = .error .indexError) ∧
    (d < m → scoreAllList X Z C "RBF" l = .error .indexError) ∧
    (m ≠ d → ∀ r, scoreAllList X Z C kern l ≠ .ok r) := by
  refine ⟨fun h w => ?_, fun h => ?_, fun h r hr => ?_⟩
  · simp [scoreOldList, oldCommonList, Nat.not_le.2 h]
  · simp [scoreAllList, Nat.not_le.2 h]
  · unfold scoreAllList at hr
    split at hr
    · split at hr
      · next hm =>
        cases hp : scorePre (rbfKList hm X Z l) (rbfKList hm Z Z l) with
        | error e => rw [hp] at hr; cases hr
        | ok p =>
          rw [hp] at hr
          simp only [Except.ok_bind', dif_neg (show ¬ d ≤ m by omega)] at hr
          cases hr
      · cases hr
    · split at hr
      · split at hr
        · next hm =>
          cases hp : scorePre (perKList hm X Z l) (perKList hm Z Z l) with
          | error e => rw [hp] at hr; cases hr
          | ok p => rw [hp] at hr; cases hr
        · cases hr
      · cases hr

/-- **C83** (lists of the right length). With one entry per column these are the functions of the other properties. -/
theorem C83_right_length (X : Mat N d K) (Z : Mat M d K) (C : K) (kern : String) (l : Fin d → K) (w : Int) (h1 : 1 ≤ w)
    (h2 : w ≤ d) :
    scoreSepList le_rfl X Z C kern l w = scoreSep X Z C kern (.vec l) w ∧
    scoreOldList X Z C kern l w = scoreOld X Z C kern (.vec l) w ∧
    scoreAllList X Z C kern l = scoreAll X Z C kern (.vec l) := by
  obtain ⟨a, -, b⟩ := C83_short_list le_rfl X Z C kern l w h1 h2
  refine ⟨a, b, ?_⟩
  unfold scoreAllList scoreAll allCommon
  simp only [dif_pos (le_refl d), rbfKList_eq, perKList_eq]
  split
  · cases hp : scorePre (rbfK (firstCols le_rfl X) (firstCols le_rfl Z) (.vec l))
      (rbfK (firstCols le_rfl Z) (firstCols le_rfl Z) (.vec l)) with
    | error e =>
      rw [show scorePre (rbfK X Z (.vec l)) (rbfK Z Z (.vec l)) = .error e from hp]; rfl
    | ok p =>
      rw [show scorePre (rbfK X Z (.vec l)) (rbfK Z Z (.vec l)) = .ok p from hp]; rfl
  · split
    · cases hp : scorePre (perK (firstCols le_rfl X) (firstCols le_rfl Z) (.vec l))
        (perK (firstCols le_rfl Z) (firstCols le_rfl Z) (.vec l)) with
      | error e =>
        rw [show scorePre (perK X Z (.vec l)) (perK Z Z (.vec l)) = .error e from hp]; rfl
      | ok p =>
        rw [show scorePre (perK X Z (.vec l)) (perK Z Z (.vec l)) = .ok p from hp]; rfl
    · rfl

end

variable {N M d m : Nat}

/-- **C83** (what is estimated). In exact arithmetic a short list gives the score estimate of the marginal cloud of the
first `m` coordinates. -/
theorem C83_marginal {C : ℝ} (hC : -1/1000 < C) (hm : m ≤ d) (X : Mat N d ℝ) (Z : Mat M d ℝ) (l : Fin m → ℝ) (j : Fin m) :
    scoreSepList hm X Z C "RBF" l (j + 1) = .ok fun i =>
      Spec.score C l (fun s k => X s (Fin.castLE hm k)) (fun s k => Z s (Fin.castLE hm k)) j
        (fun k => X i (Fin.castLE hm k)) := by
  rw [(C83_short_list hm X Z C "RBF" l (j+1) (by omega) (by have := j.2; omega)).1]
  exact scoreSep_real hC _ _ (.vec l) (j+1) j (pyIdx_of_nat (by omega) j.2)

/-- **C83** (which calls return). In exact arithmetic, with at most as many lengthscales as columns and the RBF kernel, the
estimators for one dimension return exactly if `which_dim` counts an entry of the *list*, from the front (`1 .. m`) or from
the back (`0 .. 1 - m`); otherwise they raise IndexError. -/
theorem C83_outcome {C : ℝ} (hC : -1/1000 < C) (hm : m ≤ d) (X : Mat N d ℝ) (Z : Mat M d ℝ) (l : Fin m → ℝ) (w : Int) :
    ((∃ r, scoreSepList hm X Z C "RBF" l w = .ok r) ↔ 1 - (m:Int) ≤ w ∧ w ≤ m) ∧
    ((∃ r, scoreOldList X Z C "RBF" l w = .ok r) ↔ 1 - (m:Int) ≤ w ∧ w ≤ m) ∧
    (¬ (1 - (m:Int) ≤ w ∧ w ≤ m) → scoreSepList hm X Z C "RBF" l w = .error .indexError ∧
      scoreOldList X Z C "RBF" l w = .error .indexError) := by
  rcases gradIdx_cases hm w with ⟨⟨q, hq⟩, h1, h2⟩ | ⟨hn, he⟩
  · have hw : 1 - (m:Int) ≤ w ∧ w ≤ m := ⟨by omega, by omega⟩
    have ho := directOut_pre_ok hC l (firstCols hm X) (firstCols hm Z) (sumGrad (rbfGradList hm X Z l q.1 q.2))
    refine ⟨⟨fun _ => hw, fun _ => ?_⟩, ⟨fun _ => hw, fun _ => ?_⟩, fun h => absurd hw h⟩
    · obtain ⟨r, hr⟩ := ho
      refine ⟨r, ?_⟩
      simp only [scoreSepList, sepCommonList, if_true, scorePre_list_real, Except.ok_bind', hq, hr]
    · obtain ⟨r, hr⟩ := ho
      refine ⟨r, ?_⟩
      simp only [scoreOldList, oldCommonList, if_true, dif_pos hm, scorePre_list_real, Except.ok_bind', hq, hr]
  · have hw : ¬ (1 - (m:Int) ≤ w ∧ w ≤ m) := fun h => hn ⟨by omega, by omega⟩
    have e1 : scoreSepList hm X Z C "RBF" l w = .error .indexError := by
      simp only [scoreSepList, sepCommonList, if_true, scorePre_list_real, Except.ok_bind', he]
      rfl
    have e2 : scoreOldList X Z C "RBF" l w = .error .indexError := by
      simp only [scoreOldList, oldCommonList, if_true, dif_pos hm, scorePre_list_real, Except.ok_bind', he]
      rfl
    refine ⟨⟨fun ⟨r, hr⟩ => ?_, fun h => absurd h hw⟩, ⟨fun ⟨r, hr⟩ => ?_, fun h => absurd h hw⟩, fun _ => ⟨e1, e2⟩⟩
    · rw [e1] at hr; cases hr
    · rw [e2] at hr; cases hr

/-- **C83** (all dimensions, exact outcome). In exact arithmetic the estimator for all dimensions returns exactly if the
list has one entry per column, and otherwise raises IndexError. -/
theorem C83_all_dims {C : ℝ} (hC : -1/1000 < C) (X : Mat N d ℝ) (Z : Mat M d ℝ) (l : Fin m → ℝ) :
    ((∃ r, scoreAllList X Z C "RBF" l = .ok r) ↔ m = d) ∧
    (m ≠ d → scoreAllList X Z C "RBF" l = .error .indexError) := by
  have e : m ≠ d → scoreAllList X Z C "RBF" l = .error .indexError := by
    intro h
    by_cases hm : m ≤ d
    · simp only [scoreAllList, if_true, dif_pos hm, scorePre_list_real, Except.ok_bind', dif_neg (show ¬ d ≤ m by omega)]
    · exact (C83_never_returns X Z C "RBF" l).2.1 (by omega)
  refine ⟨⟨fun ⟨r, hr⟩ => ?_, fun h => ?_⟩, e⟩
  · by_contra h
    rw [e h] at hr
    cases hr
  · subst h
    rcases Nat.eq_zero_or_pos m with rfl | hpos
    · simp only [scoreAllList, if_true, dif_pos (le_refl 0), scorePre_list_real, Except.ok_bind',
        real_inv_ok (inner_real_unit hC l _ _)]
      exact ⟨_, rfl⟩
    · rw [(C83_right_length X Z C "RBF" l 1 (by omega) (by omega)).2.2, scoreAll_real hC]
      exact ⟨_, rfl⟩

/-! ### Examples -/

/-- C83: two columns, one lengthscale: dimension 1 is estimated as if the second column did not exist, dimension 2 and the
estimator for all dimensions raise IndexError. -/
example (X : Mat 5 2 ℝ) (Z : Mat 3 2 ℝ) :
    (∃ r, scoreSepList (m := 1) (by omega) X Z (1/1000) "RBF" (fun _ => (2:ℝ)) 1 = .ok r) ∧
    scoreSepList (m := 1) (by omega) X Z (1/1000) "RBF" (fun _ => (2:ℝ)) 2 = .error .indexError ∧
    scoreAllList (m := 1) X Z (1/1000) "RBF" (fun _ => (2:ℝ)) = .error .indexError :=
  ⟨(C83_outcome (by norm_num) _ X Z _ 1).1.2 (by norm_num),
   ((C83_outcome (by norm_num) _ X Z _ 2).2.2 (by norm_num)).1,
   (C83_all_dims (by norm_num) X Z _).2 (by decide)⟩

end DPFC
