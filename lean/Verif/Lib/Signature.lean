import Verif.Spec.Signature

/-! Helper lemmas for C102. -/

namespace DPFC
open Spec
variable {K ρ : Type} {d N M : Nat}

/-- The same on tags. -/
def tagFits (s : Signatures) : Tag K → Bool
  | .f _ => s.f.two
  | .f1 => s.f.one
  | .fTrue _ => s.fTrue.two
  | .U _ => s.U.two
  | .U1 => s.U.one

theorem fits_tag (s : Signatures) (c : Call d N K) : s.fits c = tagFits s (tag c) := by cases c <;> rfl

theorem monitor_check (s : Signatures) (calls : List (Call d N K)) :
    monitor s.check calls () = if (calls.map tag).all (tagFits s) then .ok () else .error .typeError := by
  induction calls with
  | nil => rfl
  | cons c cs ih =>
    rw [monitor, Signatures.check, fits_tag]
    by_cases h : tagFits s (tag c) = true
    · simp only [h, if_true, ih, List.map_cons, List.all_cons, Bool.true_and]
    · simp only [h, if_false, List.map_cons, List.all_cons, Bool.false_and, Bool.false_eq_true]

section
variable [Sub K] [NumOps K]

theorem all_det (s : Signatures) (rw' bb : Bool) (grid : List K) (h : 2 ≤ grid.length) :
    (scheduleDet rw' bb grid).all (tagFits s) = true ↔
      s.f.two = true ∧ (rw' = true → s.U.two = true) ∧ (rw' = true → bb = true → s.fTrue.two = true) := by
  obtain ⟨a, b, l, rfl⟩ : ∃ a b l, grid = a :: b :: l := by
    match grid, h with
    | a :: b :: l, _ => exact ⟨a, b, l, rfl⟩
  rw [List.all_eq_true]
  constructor
  · intro H
    refine ⟨H (.f (b - lit 1 1000)) (by simp [scheduleDet]), fun h => H (.U b) (by simp [scheduleDet, h]),
      fun h h' => H (.fTrue (b - lit 1 1000)) (by simp [scheduleDet, h, h'])⟩
  · rintro ⟨h1, h2, h3⟩ t ht
    simp only [scheduleDet, List.mem_append, List.mem_flatMap, List.mem_cons, List.mem_map] at ht
    rcases ht with (⟨u, -, rfl | hu⟩ | ht) | ⟨u, -, rfl⟩
    · exact h1
    · by_cases hr : rw' = true
      · rw [if_pos hr, List.mem_singleton] at hu
        subst hu
        exact h2 hr
      · rw [if_neg hr] at hu
        cases hu
    · by_cases hr : (rw' && bb) = true
      · rw [if_pos hr, List.mem_map] at ht
        obtain ⟨u, -, rfl⟩ := ht
        rw [Bool.and_eq_true] at hr
        exact h3 hr.1 hr.2
      · rw [if_neg hr] at ht
        cases ht
    · exact h1

theorem all_stoch (s : Signatures) (hN : 0 < N) (rw' : Bool) (grid : List K) (h : 2 ≤ grid.length) :
    (scheduleStoch N rw' grid).all (tagFits s) = true ↔
      s.f.one = true ∧ (3 ≤ grid.length → s.f.two = true) ∧ (rw' = true → s.U.one = true) := by
  obtain ⟨a, b, l, rfl⟩ : ∃ a b l, grid = a :: b :: l := by
    match grid, h with
    | a :: b :: l, _ => exact ⟨a, b, l, rfl⟩
  rw [List.all_eq_true]
  constructor
  · intro H
    refine ⟨H .f1 (by simp [scheduleStoch, hN.ne']), fun h => ?_, fun h => H .U1 (by simp [scheduleStoch, h])⟩
    obtain ⟨c, l, rfl⟩ : ∃ c l', l = c :: l' := by
      match l, h with
      | c :: l, _ => exact ⟨c, l, rfl⟩
    exact H (.f c) (by simp [scheduleStoch])
  · rintro ⟨h1, h2, h3⟩ t ht
    simp only [scheduleStoch, List.mem_append, List.mem_flatMap, List.mem_map, List.mem_replicate] at ht
    rcases ht with ⟨u, -, ⟨-, rfl⟩ | hu⟩ | ⟨u, hu, rfl⟩
    · exact h1
    · by_cases hr : rw' = true
      · rw [if_pos hr, List.mem_singleton] at hu
        subst hu
        exact h3 hr
      · rw [if_neg hr] at hu
        cases hu
    · have hl : 0 < l.length := List.length_pos_of_mem (List.mem_reverse.1 hu)
      exact h2 (by simp only [List.length_cons]; omega)

theorem all_torchStoch (s : Signatures) (rw' : Bool) (grid : List K) (h : 2 ≤ grid.length) :
    (scheduleTorchStoch rw' grid).all (tagFits s) = true ↔
      s.f.two = true ∧ (rw' = true → s.U.one = true) := by
  obtain ⟨a, b, l, rfl⟩ : ∃ a b l, grid = a :: b :: l := by
    match grid, h with
    | a :: b :: l, _ => exact ⟨a, b, l, rfl⟩
  rw [List.all_eq_true]
  constructor
  · intro H
    exact ⟨H (.f (b - lit 1 1000)) (by simp [scheduleTorchStoch]), fun h => H .U1 (by simp [scheduleTorchStoch, h])⟩
  · rintro ⟨h1, h2⟩ t ht
    simp only [scheduleTorchStoch, List.mem_append, List.mem_flatMap, List.mem_cons, List.mem_map] at ht
    rcases ht with ⟨u, -, rfl | hu⟩ | ⟨u, -, rfl⟩
    · exact h1
    · by_cases hr : rw' = true
      · rw [if_pos hr, List.mem_singleton] at hu
        subst hu
        exact h2 hr
      · rw [if_neg hr] at hu
        cases hu
    · exact h1

end
end DPFC
