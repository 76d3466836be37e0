import Verif.Model.Cdist
import Verif.Inst.Real

/-! Invariants of the parallel distance routine. -/

namespace DPFC
variable {N M d : Nat}

/-- Sum of the first `k` squared differences. -/
noncomputable def partSq (r : Mat N d ℝ) (y : Mat M d ℝ) (i : Fin N) (j : Fin M) (k : Nat) : ℝ :=
  ∑ a : Fin d, if a.val < k then (r i a - y j a)^2 else 0

theorem partSq_zero (r : Mat N d ℝ) (y : Mat M d ℝ) (i : Fin N) (j : Fin M) : partSq r y i j 0 = 0 := by
  simp [partSq]

theorem partSq_succ (r : Mat N d ℝ) (y : Mat M d ℝ) (i : Fin N) (j : Fin M) (k : Nat) (h : k < d) :
    partSq r y i j (k+1) = partSq r y i j k + (r i ⟨k, h⟩ - y j ⟨k, h⟩)^2 := by
  have e : ∀ a : Fin d, (if a.val < k+1 then (r i a - y j a)^2 else 0)
      = (if a.val < k then (r i a - y j a)^2 else 0)
        + (if a = ⟨k, h⟩ then (r i a - y j a)^2 else 0) := by
    intro a
    by_cases h1 : a.val < k
    · have : a ≠ ⟨k, h⟩ := by rintro rfl; exact lt_irrefl _ h1
      rw [if_pos h1, if_pos (by omega), if_neg this, add_zero]
    · by_cases h2 : a = ⟨k, h⟩
      · subst h2; simp
      · have : ¬ a.val < k + 1 := by
          intro h3; exact h2 (Fin.ext (by simp; omega))
        rw [if_neg h1, if_neg this, if_neg h2, add_zero]
  simp only [partSq, e, Finset.sum_add_distrib]
  congr 1
  rw [Finset.sum_ite_eq' Finset.univ]; simp

theorem partSq_full (r : Mat N d ℝ) (y : Mat M d ℝ) (i : Fin N) (j : Fin M) :
    partSq r y i j d = ∑ a, (r i a - y j a)^2 := by
  simp [partSq]

/-- The invariant: a running task holds its partial sum and has not touched its cell; a finished task
has stored its final value. -/
def CdInv (r : Mat N d ℝ) (y : Mat M d ℝ) (dist : String) (out : Mat N M ℝ) (s : CdState N M ℝ) : Prop :=
  ∀ i j, match s.task i j with
    | .run k tmp => k ≤ d ∧ tmp = partSq r y i j k ∧ s.out i j = out i j
    | .done => s.out i j = cdFinish dist (partSq r y i j d)

theorem cdInv_init (r : Mat N d ℝ) (y : Mat M d ℝ) (dist : String) (out : Mat N M ℝ) :
    CdInv r y dist out (cdInit out) := by
  intro i j
  simp [cdInit, partSq_zero]

theorem cdInv_step {r : Mat N d ℝ} {y : Mat M d ℝ} {dist : String} {out : Mat N M ℝ}
    (c : Fin N × Fin M) {s : CdState N M ℝ} (h : CdInv r y dist out s) :
    CdInv r y dist out (cdStep r y dist c s) := by
  obtain ⟨ci, cj⟩ := c
  intro i j
  have hc := h ci cj
  have hij := h i j
  unfold cdStep
  cases ht : s.task ci cj with
  | done => simpa only [ht] using hij
  | run k tmp =>
    rw [ht] at hc
    simp only at hc
    by_cases hk : k < d
    · simp only [hk, dif_pos]
      by_cases e : i = ci ∧ j = cj
      · obtain ⟨rfl, rfl⟩ := e
        simp only [and_self, if_true]
        refine ⟨hk, ?_, hc.2.2⟩
        rw [partSq_succ r y i j k hk, hc.2.1, real_sq]
      · simp only [if_neg e]; exact hij
    · simp only [hk, dif_neg, not_false_iff]
      by_cases e : i = ci ∧ j = cj
      · obtain ⟨rfl, rfl⟩ := e
        simp only [and_self, if_true]
        have : k = d := le_antisymm hc.1 (not_lt.1 hk)
        rw [hc.2.1, this]
      · simp only [if_neg e]; exact hij

theorem cdInv_run {r : Mat N d ℝ} {y : Mat M d ℝ} {dist : String} {out : Mat N M ℝ} :
    ∀ (sched : List (Fin N × Fin M)) {s : CdState N M ℝ}, CdInv r y dist out s →
      CdInv r y dist out (sched.foldl (fun s c => cdStep r y dist c s) s)
  | [], _, h => h
  | c :: cs, _, h => cdInv_run cs (cdInv_step c h)

/-- Remaining micro-steps of a task. -/
def rem (d : Nat) {K : Type} : Task K → Nat
  | .run k _ => d + 1 - k
  | .done => 0

theorem rem_step (r : Mat N d ℝ) (y : Mat M d ℝ) (dist : String) (c : Fin N × Fin M)
    (s : CdState N M ℝ) (i : Fin N) (j : Fin M) :
    rem d ((cdStep r y dist c s).task i j)
      = if (i, j) = c then rem d (s.task i j) - 1 else rem d (s.task i j) := by
  obtain ⟨ci, cj⟩ := c
  by_cases e : i = ci ∧ j = cj
  · obtain ⟨rfl, rfl⟩ := e
    unfold cdStep
    cases ht : s.task i j with
    | done => simp [ht, rem]
    | run k tmp =>
      by_cases hk : k < d
      · simp [hk, rem]; omega
      · simp [hk, rem]; omega
  · have e' : ¬ ((i, j) = (ci, cj)) := by simpa using e
    rw [if_neg e']
    unfold cdStep
    cases ht : s.task ci cj with
    | done => rfl
    | run k tmp => by_cases hk : k < d <;> simp [hk, e]

theorem rem_run (r : Mat N d ℝ) (y : Mat M d ℝ) (dist : String) (i : Fin N) (j : Fin M) :
    ∀ (sched : List (Fin N × Fin M)) (s : CdState N M ℝ),
      rem d ((sched.foldl (fun s c => cdStep r y dist c s) s).task i j)
        = rem d (s.task i j) - sched.count (i, j)
  | [], s => by simp
  | c :: cs, s => by
    rw [List.foldl_cons, rem_run r y dist i j cs, rem_step, List.count_cons]
    by_cases e : (i, j) = c
    · subst e; simp; omega
    · have : (c == (i, j)) = false := by simpa using fun h => e h.symm
      rw [if_neg e, this]; simp

theorem rem_zero_done {d : Nat} {K : Type} {t : Task K} (h : rem d t = 0)
    (hk : ∀ k v, t = .run k v → k ≤ d) : t = .done := by
  cases t with
  | done => rfl
  | run k v => have := hk k v rfl; simp only [rem] at h; omega

end DPFC
