import Verif.Lib.Obj
import Verif.Spec.Object

/-! Dependence of the flows on slices and horizons, for any arithmetic. -/

set_option linter.unusedSectionVars false

namespace DPFC
section
variable {K ρ : Type} [Add K] [Sub K] [Mul K] [Div K] [Neg K] [NumOps K]
variable {N M d : Nat}

theorem zip_drop_eq {α β : Type} {Z Z' : List α} {g : List β} {j : Nat}
    (h : ∀ i, j < i → Z[i]? = Z'[i]?) : (Z.zip g).drop (j+1) = (Z'.zip g).drop (j+1) := by
  apply List.ext_getElem?
  intro i
  rw [List.getElem?_drop, List.getElem?_drop]
  unfold List.zip
  rw [List.getElem?_zipWith, List.getElem?_zipWith, h (j+1+i) (by omega)]

theorem visits_congr {Z Z' : Traj d N K} {g : List K} (h : ∀ i, 1 < i → Z[i]? = Z'[i]?) :
    visits Z g = visits Z' g := by
  unfold visits
  rw [zip_drop_eq h]

/-- The visits, split at time index `j`. -/
theorem visits_split (Z : Traj d N K) (g : List K) (j : Nat) (hj : 1 ≤ j) :
    visits Z g = ((Z.zip g).drop (j+1)).reverse ++ (((Z.zip g).drop 2).take (j-1)).reverse := by
  unfold visits
  rw [← List.reverse_append]
  congr 1
  have : (Z.zip g).drop (j+1) = ((Z.zip g).drop 2).drop (j-1) := by
    rw [List.drop_drop]; congr 1; omega
  rw [this, List.take_append_drop]

/-- The reversed chain results, stored between the pins, agree from index `j` on. -/
theorem pinned_agree {S : Type} {ys zs : List S} {p q : S} {n j : Nat} (hl : ys.length = n)
    (hl' : zs.length = n) (h : ys.take (n + 1 - j) = zs.take (n + 1 - j)) (i : Nat) (hi : j ≤ i) :
    (p :: (ys.reverse ++ [q]))[i]? = (p :: (zs.reverse ++ [q]))[i]? := by
  rcases i with _ | i
  · rfl
  rw [List.getElem?_cons_succ, List.getElem?_cons_succ]
  by_cases hn : i < n
  · rw [List.getElem?_append_left (by simp [hl, hn]), List.getElem?_append_left (by simp [hl', hn]),
      List.getElem?_reverse (by omega), List.getElem?_reverse (by omega), hl, hl']
    have := congrArg (fun l => l[n - 1 - i]?) h
    simpa [List.getElem?_take, show n - 1 - i < n + 1 - j by omega] using this
  · rw [List.getElem?_append_right (by simp [hl]; omega),
      List.getElem?_append_right (by simp [hl']; omega)]
    simp [hl, hl']

/-- Grids with the same start are comparable. -/
theorem mkGrid_comparable (t1 t2 t2' : K) :
    (∃ l, mkGrid t1 t2' = mkGrid t1 t2 ++ l) ∨ (∃ l, mkGrid t1 t2 = mkGrid t1 t2' ++ l) := by
  unfold mkGrid npArange
  generalize NumOps.ceilNat ((t2 + dtc / lit 2 1 - t1) / dtc) = n
  generalize NumOps.ceilNat ((t2' + dtc / lit 2 1 - t1) / dtc) = m
  have key : ∀ a b : Nat, a ≤ b → ∃ l : List Nat, List.range b = List.range a ++ l := by
    intro a b hab
    obtain ⟨e, rfl⟩ := Nat.exists_eq_add_of_le hab
    exact ⟨_, List.range_add⟩
  rcases Nat.le_total n m with h | h
  · obtain ⟨l, hl⟩ := key _ _ h
    left; rw [hl]; exact ⟨_, List.map_append⟩
  · obtain ⟨l, hl⟩ := key _ _ h
    right; rw [hl]; exact ⟨_, List.map_append⟩

theorem torchPoints_comparable (t1 t2 t2' : K) :
    (∃ l, torchPoints t1 t2' = torchPoints t1 t2 ++ l) ∨ (∃ l, torchPoints t1 t2 = torchPoints t1 t2' ++ l) := by
  unfold torchPoints arange
  generalize NumOps.ceilNat ((t2 + dtc / lit 2 1 - t1) / dtc) = n
  generalize NumOps.ceilNat ((t2' + dtc / lit 2 1 - t1) / dtc) = m
  have key : ∀ a b : Nat, a ≤ b → ∃ l : List Nat, List.range b = List.range a ++ l := by
    intro a b hab
    obtain ⟨e, rfl⟩ := Nat.exists_eq_add_of_le hab
    exact ⟨_, List.range_add⟩
  rcases Nat.le_total n m with h | h
  · obtain ⟨l, hl⟩ := key _ _ h
    left; rw [hl]; exact ⟨_, List.map_append⟩
  · obtain ⟨l, hl⟩ := key _ _ h
    right; rw [hl]; exact ⟨_, List.map_append⟩

/-- Chains along comparable grids agree on the common part. -/
theorem chain_comparable {S : Type} {step : Nat → K → S → RandM ρ S} {g g' : List K}
    (hg : (∃ l, g' = g ++ l) ∨ (∃ l, g = g' ++ l)) (h2 : 1 ≤ g.length) (h2' : 1 ≤ g'.length)
    {x : S} {r r1 r1' : ρ} {ys ys' : List S}
    (h : chain step 1 g.tail x r = .ok (ys, r1)) (h' : chain step 1 g'.tail x r = .ok (ys', r1'))
    (i : Nat) (hi : i < g.length) (hi' : i < g'.length) : (x :: ys)[i]? = (x :: ys')[i]? := by
  have key : ∀ {g g' : List K} (_ : ∃ l, g' = g ++ l) (_ : 1 ≤ g.length) {r1 r1'} {ys ys' : List S}
      (_ : chain step 1 g.tail x r = .ok (ys, r1)) (_ : chain step 1 g'.tail x r = .ok (ys', r1'))
      (i : Nat) (_ : i < g.length), (x :: ys)[i]? = (x :: ys')[i]? := by
    intro g g' ⟨l, hl⟩ h1 r1 r1' ys ys' h h' i hi
    rcases i with _ | i
    · rfl
    rw [hl, List.tail_append_of_ne_nil (by intro h; rw [h] at h1; simp at h1)] at h'
    have h0 : chain step 1 (g.tail ++ []) x r = .ok (ys, r1) := by rwa [List.append_nil]
    have := congrArg (fun l => l[i]?) (chain_prefix h0 h')
    simpa [List.getElem?_take, show i < g.length - 1 by omega] using this
  rcases hg with hg | hg
  · exact key hg h2 h h' i hi
  · exact (key hg h2' h' h i hi').symm

open Spec

theorem sameOutcome_bind {α : Type} (x : RandM ρ α) (f g : α → RandM ρ (Obj d N M K)) (r : ρ)
    (h : ∀ a r, SameOutcome (f a r) (g a r)) : SameOutcome ((x >>= f) r) ((x >>= g) r) := by
  rw [RandM.bind_app, RandM.bind_app]
  cases x r with
  | error e => rfl
  | ok p => exact h p.1 p.2

/-- Constructions with equal parts have the same outcome. -/
theorem construct_sameOutcome (env : Env ρ K) (c c' : Cfg d N M K)
    (h1 : mkGrid c.t1 c.t2 = mkGrid c'.t1 c'.t2) (hd : c.deterministic = c'.deterministic)
    (hb : (c.reweight && c.brownBridge) = (c'.reweight && c'.brownBridge))
    (hF : c.deterministic = true → forwardOtto env c = forwardOtto env c')
    (hS : c.deterministic = false → forwardStoch env c = forwardStoch env c')
    (hT : c.deterministic = true → (c.reweight && c.brownBridge) = true →
      forwardOttoTrue env c = forwardOttoTrue env c')
    (hB : backwardSim env c = backwardSim env c') (r : ρ) :
    SameOutcome (construct env c r) (construct env c' r) := by
  unfold construct
  rw [h1, hd, hb, hB]
  by_cases hdet : c'.deterministic = true
  · rw [if_pos hdet, if_pos hdet, hF (hd.trans hdet)]
    apply sameOutcome_bind; intro Z r
    by_cases hbb : (c'.reweight && c'.brownBridge) = true
    · rw [if_pos hbb, hT (hd.trans hdet) (hb.trans hbb)]
      apply sameOutcome_bind; intro T r
      apply sameOutcome_bind; intro B r
      apply sameOutcome_bind; intro B r
      exact ⟨⟨rfl, rfl, rfl, rfl⟩, rfl⟩
    · rw [if_neg hbb]
      apply sameOutcome_bind; intro T r
      apply sameOutcome_bind; intro B r
      exact ⟨⟨rfl, rfl, rfl, rfl⟩, rfl⟩
  · rw [if_neg hdet, if_neg hdet, hS (hd.trans (by simpa using hdet))]
    apply sameOutcome_bind; intro Z r
    apply sameOutcome_bind; intro B r
    exact ⟨⟨rfl, rfl, rfl, rfl⟩, rfl⟩

/-- Torch version. -/
theorem torchConstruct_sameOutcome (env : Env ρ K) (c c' : Cfg d N M K)
    (h1 : torchGrid c.t1 c.t2 = torchGrid c'.t1 c'.t2) (hd : c.deterministic = c'.deterministic)
    (hb : (c.reweight && c.brownBridge) = (c'.reweight && c'.brownBridge))
    (hF : c.deterministic = true → torchForwardOtto env c = torchForwardOtto env c')
    (hS : c.deterministic = false → torchForwardStoch env c = torchForwardStoch env c')
    (hT : c.deterministic = true → (c.reweight && c.brownBridge) = true →
      torchForwardOttoTrue env c = torchForwardOttoTrue env c')
    (hB : torchBackwardSim env c = torchBackwardSim env c') (r : ρ) :
    SameOutcome (torchConstruct env c r) (torchConstruct env c' r) := by
  unfold torchConstruct
  rw [h1, hd, hb, hB]
  apply sameOutcome_bind; intro grid r
  by_cases hdet : c'.deterministic = true
  · rw [if_pos hdet, if_pos hdet, hF (hd.trans hdet)]
    apply sameOutcome_bind; intro Z r
    by_cases hbb : (c'.reweight && c'.brownBridge) = true
    · rw [if_pos hbb, hT (hd.trans hdet) (hb.trans hbb)]
      apply sameOutcome_bind; intro T r
      apply sameOutcome_bind; intro B r
      apply sameOutcome_bind; intro B r
      exact ⟨⟨rfl, rfl, rfl, rfl⟩, rfl⟩
    · rw [if_neg hbb]
      apply sameOutcome_bind; intro T r
      apply sameOutcome_bind; intro B r
      exact ⟨⟨rfl, rfl, rfl, rfl⟩, rfl⟩
  · rw [if_neg hdet, if_neg hdet, hS (hd.trans (by simpa using hdet))]
    apply sameOutcome_bind; intro Z r
    apply sameOutcome_bind; intro B r
    exact ⟨⟨rfl, rfl, rfl, rfl⟩, rfl⟩

end
end DPFC
