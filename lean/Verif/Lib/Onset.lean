import Verif.Model.Onset
import Verif.Spec.Onset
import Mathlib.Data.List.Range
import Mathlib.Tactic.Linarith

namespace DPFC.Sync

/-- indices of upward changes below `n` -/
def ups (b : ℕ → Bool) (n : ℕ) : List ℕ := (List.range n).filter fun i => decide (0 < i) && !b (i - 1) && b i
/-- indices of downward changes below `n` -/
def downs (b : ℕ → Bool) (n : ℕ) : List ℕ := (List.range n).filter fun i => decide (0 < i) && b (i - 1) && !b i

/-- episodes below `n`, indices from zero -/
def Ep (b : ℕ → Bool) (n : ℕ) (p : ℕ × ℕ) : Prop :=
  0 < p.1 ∧ p.1 < p.2 ∧ p.2 < n ∧ b (p.1 - 1) = false ∧ b p.2 = false ∧ ∀ i, p.1 ≤ i → i < p.2 → b i = true

/-- state after the first `n` entries -/
structure St (b : ℕ → Bool) (n : ℕ) (L : List (ℕ × ℕ)) (pre tail : List ℕ) : Prop where
  sorted : L.Pairwise fun p q => p.2 < q.1
  mem : ∀ p, p ∈ L ↔ Ep b n p
  hd : downs b n = pre ++ L.map Prod.snd
  hu : ups b n = L.map Prod.fst ++ tail
  ht : (tail = [] ∧ (b (n - 1) = false ∨ ∀ i < n, b i = true)) ∨
    ∃ a, tail = [a] ∧ 0 < a ∧ a < n ∧ b (a - 1) = false ∧ ∀ i, a ≤ i → i < n → b i = true
  hp : (pre = [] ∧ (b 0 = false ∨ ∀ i < n, b i = true)) ∨
    ∃ e, pre = [e] ∧ 0 < e ∧ e < n ∧ b e = false ∧ (∀ i < e, b i = true) 

theorem ups_succ (b : ℕ → Bool) (n : ℕ) :
    ups b (n + 1) = ups b n ++ if 0 < n ∧ b (n - 1) = false ∧ b n = true then [n] else [] := by
  unfold ups
  rw [List.range_succ, List.filter_append]
  congr 1
  by_cases h1 : 0 < n <;> cases h2 : b (n - 1) <;> cases h3 : b n <;> simp [h1, h2, h3]

theorem downs_succ (b : ℕ → Bool) (n : ℕ) :
    downs b (n + 1) = downs b n ++ if 0 < n ∧ b (n - 1) = true ∧ b n = false then [n] else [] := by
  unfold downs
  rw [List.range_succ, List.filter_append]
  congr 1
  by_cases h1 : 0 < n <;> cases h2 : b (n - 1) <;> cases h3 : b n <;> simp [h1, h2, h3]

theorem Ep.succ_iff {b : ℕ → Bool} {n : ℕ} {p : ℕ × ℕ} :
    Ep b (n + 1) p ↔ Ep b n p ∨ (p.2 = n ∧ Ep b (n + 1) p) := by
  unfold Ep
  constructor
  · intro h
    rcases Nat.lt_succ_iff_lt_or_eq.mp h.2.2.1 with h1 | h1
    · exact Or.inl ⟨h.1, h.2.1, h1, h.2.2.2⟩
    · exact Or.inr ⟨h1, h⟩
  · rintro (h | h)
    · exact ⟨h.1, h.2.1, Nat.lt_succ_of_lt h.2.2.1, h.2.2.2⟩
    · exact h.2

theorem st_zero (b : ℕ → Bool) : St b 0 [] [] [] where
  sorted := List.Pairwise.nil
  mem p := by simp [Ep]
  hd := by simp [downs]
  hu := by simp [ups]
  ht := Or.inl ⟨rfl, Or.inr (by simp)⟩
  hp := Or.inl ⟨rfl, Or.inr (by simp)⟩

theorem st_succ {b : ℕ → Bool} {n : ℕ} {L : List (ℕ × ℕ)} {pre tail : List ℕ} (h : St b n L pre tail) :
    ∃ L' pre' tail', St b (n + 1) L' pre' tail' := by
  obtain ⟨hs, hm, hd, hu, ht, hp⟩ := h
  cases hn : b n
  · -- not synchronised at n
    have hup : ups b (n + 1) = ups b n := by rw [ups_succ]; simp [hn]
    rcases ht with ⟨rfl, ht⟩ | ⟨a, rfl, ha0, han, hb, hall⟩
    · rcases ht with h0 | h0
      · -- already unsynchronised (or n = 0)
        refine ⟨L, pre, [], hs, ?_, ?_, ?_, ?_, ?_⟩
        · intro p
          rw [Ep.succ_iff, hm]
          constructor
          · exact Or.inl
          · rintro (h | ⟨h1, h⟩)
            · exact h
            · have := h.2.2.2.2.2 (n - 1) (by have := h.2.1; omega) (by have := h.1; have := h.2.1; omega)
              rw [h0] at this; exact absurd this (by simp)
        · rw [downs_succ, hd]; simp [h0]
        · rw [hup, hu]
        · exact Or.inl ⟨rfl, Or.inl (by simpa using hn)⟩
        · rcases hp with ⟨rfl, hp⟩ | ⟨e, rfl, h1, h2, h3, h4⟩
          · refine Or.inl ⟨rfl, Or.inl ?_⟩
            rcases hp with hp | hp
            · exact hp
            · by_cases hz : n = 0
              · subst hz; exact hn
              · have := hp (n - 1) (by omega); rw [h0] at this; exact absurd this (by simp)
          · exact Or.inr ⟨e, rfl, h1, by omega, h3, h4⟩
      · by_cases hz : n = 0
        · subst hz
          have hL : L = [] := by
            rw [List.eq_nil_iff_forall_not_mem]; intro p; rw [hm]; simp [Ep]
          subst hL
          refine ⟨[], [], [], List.Pairwise.nil, ?_, ?_, ?_, Or.inl ⟨rfl, Or.inl hn⟩, Or.inl ⟨rfl, Or.inl hn⟩⟩
          · intro p; simp only [List.not_mem_nil, Ep, false_iff]; omega
          · rw [downs_succ]; simp [downs]
          · rw [ups_succ]; simp [ups]
        · -- first drop
          have hprev : b (n - 1) = true := h0 _ (by omega)
          have hL : L = [] := by
            rw [List.eq_nil_iff_forall_not_mem]; intro p; rw [hm]
            intro h; have := h0 p.2 h.2.2.1; rw [h.2.2.2.2.1] at this; exact absurd this (by simp)
          subst hL
          have hpre : pre = [] := by
            rcases hp with ⟨rfl, -⟩ | ⟨e, rfl, -, h2, h3, -⟩
            · rfl
            · have := h0 e h2; rw [h3] at this; exact absurd this (by simp)
          subst hpre
          refine ⟨[], [n], [], List.Pairwise.nil, ?_, ?_, ?_, Or.inl ⟨rfl, Or.inl (by simpa using hn)⟩,
            Or.inr ⟨n, rfl, by omega, by omega, hn, h0⟩⟩
          · intro p
            simp only [List.not_mem_nil, false_iff]
            intro h
            have := h0 (p.1 - 1) (by have := h.2.1; have := h.2.2.1; have := h.1; omega)
            rw [h.2.2.2.1] at this; exact absurd this (by simp)
          · rw [downs_succ, hd]; simp [hprev, hn]; omega
          · rw [hup, hu]
    · -- an episode ends
      have hprev : b (n - 1) = true := hall _ (by omega) (by omega)
      refine ⟨L ++ [(a, n)], pre, [], ?_, ?_, ?_, ?_, Or.inl ⟨rfl, Or.inl (by simpa using hn)⟩, ?_⟩
      · rw [List.pairwise_append]
        refine ⟨hs, List.pairwise_singleton _ _, ?_⟩
        intro p hp' q hq
        simp only [List.mem_singleton] at hq
        subst hq
        have hE := (hm p).mp hp'
        show p.2 < a
        by_contra hc
        have := hall p.2 (by omega) hE.2.2.1
        rw [hE.2.2.2.2.1] at this; exact absurd this (by simp)
      · intro p
        rw [Ep.succ_iff, List.mem_append, hm, List.mem_singleton]
        constructor
        · rintro (h | rfl)
          · exact Or.inl h
          · exact Or.inr ⟨rfl, ha0, han, Nat.lt_succ_self n, hb, hn, hall⟩
        · rintro (h | ⟨h1, h⟩)
          · exact Or.inl h
          · refine Or.inr ?_
            have hle : p.1 ≤ a := by
              by_contra hc
              have := hall (p.1 - 1) (by omega) (by have := h.2.1; omega)
              rw [h.2.2.2.1] at this; exact absurd this (by simp)
            have hge : a ≤ p.1 := by
              by_contra hc
              have := h.2.2.2.2.2 (a - 1) (by omega) (by omega)
              rw [hb] at this; exact absurd this (by simp)
            exact Prod.ext (le_antisymm hle hge) h1
      · rw [downs_succ, hd]; simp [hprev, hn]; omega
      · rw [hup, hu]; simp
      · rcases hp with ⟨rfl, hp⟩ | ⟨e, rfl, h1, h2, h3, h4⟩
        · refine Or.inl ⟨rfl, Or.inl ?_⟩
          rcases hp with hp | hp
          · exact hp
          · have := hp (a - 1) (by omega); rw [hb] at this; exact absurd this (by simp)
        · exact Or.inr ⟨e, rfl, h1, by omega, h3, h4⟩
  · -- synchronised at n
    have hdn : downs b (n + 1) = downs b n := by rw [downs_succ]; simp [hn]
    have hmem : ∀ p, p ∈ L ↔ Ep b (n + 1) p := by
      intro p
      rw [Ep.succ_iff, hm]
      constructor
      · exact Or.inl
      · rintro (h | ⟨h1, h⟩)
        · exact h
        · have := h.2.2.2.2.1; rw [h1, hn] at this; exact absurd this (by simp)
    rcases ht with ⟨rfl, ht⟩ | ⟨a, rfl, ha0, han, hb, hall⟩
    · by_cases hz : n = 0
      · subst hz
        have hL : L = [] := by
          rw [List.eq_nil_iff_forall_not_mem]; intro p; rw [hm]; simp [Ep]
        subst hL
        refine ⟨[], [], [], List.Pairwise.nil, hmem, ?_, ?_, Or.inl ⟨rfl, Or.inr ?_⟩, Or.inl ⟨rfl, Or.inr ?_⟩⟩
        · rw [hdn]; simp [downs]
        · rw [ups_succ]; simp [ups]
        · intro i hi; rw [show i = 0 by omega]; exact hn
        · intro i hi; rw [show i = 0 by omega]; exact hn
      rcases ht with h0 | h0
      · -- begins
        refine ⟨L, pre, [n], hs, hmem, by rw [hdn, hd], ?_, Or.inr ⟨n, rfl, by omega, by omega, h0, ?_⟩, ?_⟩
        · rw [ups_succ, hu]; simp [h0, hn]; omega
        · intro i h1 h2; rw [show i = n by omega]; exact hn
        · rcases hp with ⟨rfl, hp⟩ | ⟨e, rfl, h1, h2, h3, h4⟩
          · refine Or.inl ⟨rfl, Or.inl ?_⟩
            rcases hp with hp | hp
            · exact hp
            · have := hp (n - 1) (by omega); rw [h0] at this; exact absurd this (by simp)
          · exact Or.inr ⟨e, rfl, h1, by omega, h3, h4⟩
      · -- always synchronised
        have hall : ∀ i < n + 1, b i = true := by
          intro i hi
          by_cases h : i = n
          · rw [h]; exact hn
          · exact h0 i (by omega)
        refine ⟨L, pre, [], hs, hmem, by rw [hdn, hd], ?_, Or.inl ⟨rfl, Or.inr hall⟩, ?_⟩
        · rw [ups_succ, hu]; simp [h0 (n - 1) (by omega)]
        · rcases hp with ⟨rfl, hp⟩ | ⟨e, rfl, h1, h2, h3, h4⟩
          · exact Or.inl ⟨rfl, Or.inr hall⟩
          · have := h0 e h2; rw [h3] at this; exact absurd this (by simp)
    · refine ⟨L, pre, [a], hs, hmem, by rw [hdn, hd], ?_, Or.inr ⟨a, rfl, ha0, by omega, hb, ?_⟩, ?_⟩
      · rw [ups_succ, hu]; simp [hall (n - 1) (by omega) (by omega)]
      · intro i h1 h2
        by_cases h : i = n
        · rw [h]; exact hn
        · exact hall i h1 (by omega)
      · rcases hp with ⟨rfl, hp⟩ | ⟨e, rfl, h1, h2, h3, h4⟩
        · refine Or.inl ⟨rfl, Or.inl ?_⟩
          rcases hp with hp | hp
          · exact hp
          · have := hp (a - 1) (by omega); rw [hb] at this; exact absurd this (by simp)
        · exact Or.inr ⟨e, rfl, h1, by omega, h3, h4⟩

theorem st_exists (b : ℕ → Bool) (n : ℕ) : ∃ L pre tail, St b n L pre tail := by
  induction n with
  | zero => exact ⟨[], [], [], st_zero b⟩
  | succ n ih => obtain ⟨L, pre, tail, h⟩ := ih; exact st_succ h

end DPFC.Sync
