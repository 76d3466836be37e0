import Mathlib.Data.Real.Basic

/-!
# Specification: episodes of synchronisation

`S i` says that the system is synchronised at the time with index `i`. Of `k` times, those with indices `1, ..., k - 3`
are looked at.
-/

namespace DPFC.Sync

/-- The order parameter at index `i` reaches the threshold. -/
def Reaches (thr : ℝ) (R : List ℝ) (i : ℕ) : Prop := ∃ r, R[i]? = some r ∧ thr ≤ r

/-- Index `i` is looked at. -/
def Seen (k i : ℕ) : Prop := 1 ≤ i ∧ i + 2 < k

/-- The system is seen to become synchronised at index `i`. -/
def Begins (S : ℕ → Prop) (k i : ℕ) : Prop := Seen k (i - 1) ∧ Seen k i ∧ ¬S (i - 1) ∧ S i

/-- The system is seen to lose synchronisation at index `i`. -/
def Ends (S : ℕ → Prop) (k i : ℕ) : Prop := Seen k (i - 1) ∧ Seen k i ∧ S (i - 1) ∧ ¬S i

/-- A synchronised episode whose beginning `p.1` and end `p.2` are both seen. -/
def Episode (S : ℕ → Prop) (k : ℕ) (p : ℕ × ℕ) : Prop :=
  Begins S k p.1 ∧ Ends S k p.2 ∧ p.1 < p.2 ∧ ∀ i, p.1 ≤ i → i < p.2 → S i

/-- `L` lists all episodes in the order of time. -/
def Listing (S : ℕ → Prop) (k : ℕ) (L : List (ℕ × ℕ)) : Prop :=
  L.Pairwise (fun p q => p.2 < q.1) ∧ ∀ p, p ∈ L ↔ Episode S k p

/-- Number of steps of an episode. -/
def steps (p : ℕ × ℕ) : ℕ := p.2 - p.1

end DPFC.Sync
