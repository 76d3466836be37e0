import Verif.Model.LenScale
import Verif.Lib.ScoreReal

/-! # Lemmas about lengthscale lists of any length -/

namespace DPFC
open Spec

set_option linter.unusedSectionVars false

section
variable {K : Type} [Add K] [Sub K] [Mul K] [Div K] [Neg K] [NumOps K]
variable {N M d m : Nat}

/-- The first `m` columns. -/
def firstCols {α : Type} (hm : m ≤ d) (X : Mat N d α) : Mat N m α := fun i k => X i (Fin.castLE hm k)

theorem rbfKList_eq (hm : m ≤ d) (X : Mat N d K) (Z : Mat M d K) (l : Fin m → K) :
    rbfKList hm X Z l = rbfK (firstCols hm X) (firstCols hm Z) (.vec l) := rfl

theorem perKList_eq (hm : m ≤ d) (X : Mat N d K) (Z : Mat M d K) (l : Fin m → K) :
    perKList hm X Z l = perK (firstCols hm X) (firstCols hm Z) (.vec l) := rfl

theorem pyIdx_of_nat {n : Nat} {w : Int} {j : Nat} (hj : w = j) (h : j < n) : pyIdx n w = .ok j := by
  subst hj
  simp [pyIdx, h]

theorem gradIdx_ok {w : Int} (hm : m ≤ d) (h1 : 1 ≤ w) (h2 : w ≤ m) :
    gradIdx d m w = .ok (⟨(w - 1).toNat, by omega⟩, ⟨(w - 1).toNat, by omega⟩) := by
  have e : w - 1 = ((w - 1).toNat : Int) := by omega
  simp only [gradIdx, pyIdx_of_nat (n := d) e (by omega), pyIdx_of_nat (n := m) e (by omega), Except.ok_bind']
  rw [dif_pos ⟨by omega, by omega⟩]

theorem sepCommonList_eq (hm : m ≤ d) (X : Mat N d K) (Z : Mat M d K) (kern : String) (l : Fin m → K) {w : Int}
    (h1 : 1 ≤ w) (h2 : w ≤ m) :
    sepCommonList hm X Z kern l w = sepCommon (firstCols hm X) (firstCols hm Z) kern (.vec l) w := by
  have e : w - 1 = ((w - 1).toNat : Int) := by omega
  have hlt : (w - 1).toNat < m := by omega
  unfold sepCommonList sepCommon
  simp only [gradIdx_ok hm h1 h2, rbfKList_eq, perKList_eq, pyIdx_of_nat (n := m) e hlt, Except.ok_bind', dif_pos hlt]
  rfl

theorem oldCommonList_eq (hm : m ≤ d) (X : Mat N d K) (Z : Mat M d K) (kern : String) (l : Fin m → K) {w : Int}
    (h1 : 1 ≤ w) (h2 : w ≤ m) :
    oldCommonList X Z kern l w = oldCommon (firstCols hm X) (firstCols hm Z) kern (.vec l) w := by
  have e : w - 1 = ((w - 1).toNat : Int) := by omega
  have hlt : (w - 1).toNat < m := by omega
  unfold oldCommonList oldCommon
  simp only [dif_pos hm, gradIdx_ok hm h1 h2, rbfKList_eq, pyIdx_of_nat (n := m) e hlt, Except.ok_bind', dif_pos hlt]
  rfl

theorem rbfKszList_eq (hm : m ≤ d) (Z : Mat M d K) (l : Fin m → K) {n c : Nat} (x : Mat n c K) :
    rbfKszList Z l x = rbfKsz (firstCols hm Z) (.vec l) x := by
  unfold rbfKszList rbfKsz
  split
  · rfl
  · by_cases h : c ≤ m
    · rw [dif_pos ⟨h.trans hm, h⟩]; simp only [dif_pos h]; rfl
    · rw [dif_neg (fun h' => h h'.2)]; simp only [dif_neg h]

theorem perKszList_eq (hm : m ≤ d) (Z : Mat M d K) (l : Fin m → K) {n c : Nat} (x : Mat n c K) :
    perKszList Z l x = perKsz (firstCols hm Z) (.vec l) x := by
  unfold perKszList perKsz
  by_cases h : 2 ≤ c ∧ 2 ≤ m
  · rw [dif_pos ⟨h.1, h.2.trans hm, h.2⟩]
    simp only [dif_pos h]
    rfl
  · rw [dif_neg (fun h' => h ⟨h'.1, h'.2.2⟩)]
    simp only [dif_neg h]

theorem pyIdx_iff {n : Nat} {w : Int} {j : Nat} : pyIdx n w = .ok j → j < n := by
  unfold pyIdx
  split
  · split
    · intro h; cases h; omega
    · intro h; cases h
  · split
    · intro h; cases h; omega
    · intro h; cases h

theorem pyIdx_err {n : Nat} {w : Int} : (∃ j, pyIdx n w = .ok j) ↔ -(n:Int) ≤ w ∧ w < n := by
  unfold pyIdx
  split
  · split <;> simp <;> omega
  · split <;> simp <;> omega

theorem pyIdx_cases (n : Nat) (w : Int) :
    (∃ j, j < n ∧ pyIdx n w = .ok j) ∨ (¬ (-(n:Int) ≤ w ∧ w < n) ∧ pyIdx n w = .error .indexError) := by
  by_cases h : -(n:Int) ≤ w ∧ w < n
  · obtain ⟨j, hj⟩ := pyIdx_err.2 h
    exact .inl ⟨j, pyIdx_iff hj, hj⟩
  · refine .inr ⟨h, ?_⟩
    unfold pyIdx
    split
    · split
      · omega
      · rfl
    · split
      · omega
      · rfl

theorem gradIdx_cases (hm : m ≤ d) (w : Int) :
    ((∃ q, gradIdx d m w = .ok q) ∧ -(m:Int) ≤ w - 1 ∧ w - 1 < m) ∨
    (¬ (-(m:Int) ≤ w - 1 ∧ w - 1 < m) ∧ gradIdx d m w = .error .indexError) := by
  rcases pyIdx_cases d (w-1) with ⟨i, hi, ei⟩ | ⟨hn, e⟩
  · rcases pyIdx_cases m (w-1) with ⟨j, hj, ej⟩ | ⟨hn, e⟩
    · left
      refine ⟨⟨(⟨i, hi⟩, ⟨j, hj⟩), ?_⟩, pyIdx_err.1 ⟨j, ej⟩⟩
      simp only [gradIdx, ei, ej, Except.ok_bind']
      rw [dif_pos ⟨hi, hj⟩]
    · right
      refine ⟨hn, ?_⟩
      simp only [gradIdx, ei, e, Except.ok_bind']
      rfl
  · right
    refine ⟨fun h => hn ⟨by omega, by omega⟩, ?_⟩
    simp only [gradIdx, e]
    rfl

end

variable {N M d m : Nat}

theorem scorePre_list_real (hm : m ≤ d) (X : Mat N d ℝ) (Z : Mat M d ℝ) (l : Fin m → ℝ) :
    scorePre (rbfKList hm X Z l) (rbfKList hm Z Z l) = .ok (preReal l (firstCols hm X) (firstCols hm Z)) := by
  rw [rbfKList_eq, rbfKList_eq, rbfK_real, rbfK_real]
  exact scorePre_real l _ _

theorem directOut_pre_ok {C : ℝ} (hC : -1/1000 < C) (l : Fin d → ℝ) (X : Mat N d ℝ) (Z : Mat M d ℝ) (g : Fin M → ℝ) :
    ∃ r, directOut C (preReal l X Z) g = .ok r := by
  simp only [directOut, real_inv_ok (inner_real_unit hC l X Z), Except.ok_bind']
  exact ⟨_, rfl⟩

end DPFC
