import Verif.Lib.FanStoch
import Verif.Lib.Depend
import Verif.Lib.Examples

/-!
# C13, C14, C49, C50: what the flows depend on (any arithmetic)
-/

set_option linter.unusedSectionVars false

namespace DPFC
open Spec
section
variable {K ρ : Type} [Add K] [Sub K] [Mul K] [Div K] [Neg K] [NumOps K]
variable {N M d : Nat}

/-- **C13** (whole flow). Two forward flows that agree on the slices `2, 3, ...` give the same
backward simulation: same result, same exceptions, same random draws. Numpy and torch. -/
theorem C13_backward_ignores_first_slices (env : Env ρ K) (c : Cfg d N M K) (grid : List K)
    (Z Z' B : Traj d N K) (hZ : Z.length = grid.length) (hZ' : Z'.length = grid.length)
    (hB : B.length = grid.length) (h : ∀ i, 2 ≤ i → Z[i]? = Z'[i]?) :
    backwardSim env c grid Z B = backwardSim env c grid Z' B ∧
    torchBackwardSim env c grid Z B = torchBackwardSim env c grid Z' B := by
  rcases grid_cases grid with rfl | ⟨t0, rfl⟩ | h2
  · exact ⟨rfl, rfl⟩
  · exact ⟨rfl, rfl⟩
  · rw [backwardSim_eq env c grid Z B hZ hB h2, backwardSim_eq env c grid Z' B hZ' hB h2,
      torchBackwardSim_eq env c grid Z B hZ hB h2, torchBackwardSim_eq env c grid Z' B hZ' hB h2,
      visits_congr h]
    exact ⟨rfl, rfl⟩

/-- **C13** (slice by slice, numpy). If the forward flows agree after time index `j`, the backward flows
agree from time index `j` on. -/
theorem C13_backward_slice_needs_only_later (env : Env ρ K) (c : Cfg d N M K) (grid : List K)
    (Z Z' B : Traj d N K) (hZ : Z.length = grid.length) (hZ' : Z'.length = grid.length)
    (hB : B.length = grid.length) (j : Nat) (h : ∀ i, j < i → Z[i]? = Z'[i]?) (r r1 r2 : ρ)
    (b b' : Traj d N K) (hb : backwardSim env c grid Z B r = .ok (b, r1))
    (hb' : backwardSim env c grid Z' B r = .ok (b', r2)) : ∀ i, j ≤ i → b[i]? = b'[i]? := by
  rcases Nat.eq_zero_or_pos j with rfl | hj
  · rw [(C13_backward_ignores_first_slices env c grid Z Z' B hZ hZ' hB
      (fun i hi => h i (by omega))).1, hb'] at hb
    cases hb
    exact fun _ _ => rfl
  rcases Nat.lt_or_ge grid.length 2 with h2 | h2
  · have : backwardSim env c grid Z B = backwardSim env c grid Z' B := by
      rcases grid_cases grid with rfl | ⟨t0, rfl⟩ | h3
      · rfl
      · rfl
      · omega
    rw [this, hb'] at hb
    cases hb
    exact fun _ _ => rfl
  rw [backwardSim_eq env c grid Z B hZ hB h2, RandM.bind_ok] at hb
  rw [backwardSim_eq env c grid Z' B hZ' hB h2, RandM.bind_ok] at hb'
  obtain ⟨ys, q, hy, hp⟩ := hb
  obtain ⟨ys', q', hy', hp'⟩ := hb'
  obtain ⟨rfl, _⟩ := RandM.pure_ok.1 hp
  obtain ⟨rfl, _⟩ := RandM.pure_ok.1 hp'
  have l1 := chain_length hy
  have l2 := chain_length hy'
  rw [visits_split Z grid j hj] at hy
  rw [visits_split Z' grid j hj, ← zip_drop_eq h] at hy'
  have := chain_prefix hy hy'
  simp [visits, hZ, hZ'] at l1 l2
  have e : ((Z.zip grid).drop (j+1)).reverse.length = grid.length - 2 + 1 - j := by
    simp [hZ]; omega
  rw [e] at this
  exact pinned_agree l1 l2 this

/-- **C13** (slice by slice, torch). -/
theorem C13_torch_backward_slice_needs_only_later (env : Env ρ K) (c : Cfg d N M K) (grid : List K)
    (Z Z' B : Traj d N K) (hZ : Z.length = grid.length) (hZ' : Z'.length = grid.length)
    (hB : B.length = grid.length) (j : Nat) (h : ∀ i, j < i → Z[i]? = Z'[i]?) (r r1 r2 : ρ)
    (b b' : Traj d N K) (hb : torchBackwardSim env c grid Z B r = .ok (b, r1))
    (hb' : torchBackwardSim env c grid Z' B r = .ok (b', r2)) : ∀ i, j ≤ i → b[i]? = b'[i]? := by
  rcases Nat.eq_zero_or_pos j with rfl | hj
  · rw [(C13_backward_ignores_first_slices env c grid Z Z' B hZ hZ' hB
      (fun i hi => h i (by omega))).2, hb'] at hb
    cases hb
    exact fun _ _ => rfl
  rcases Nat.lt_or_ge grid.length 2 with h2 | h2
  · have : torchBackwardSim env c grid Z B = torchBackwardSim env c grid Z' B := by
      rcases grid_cases grid with rfl | ⟨t0, rfl⟩ | h3
      · rfl
      · rfl
      · omega
    rw [this, hb'] at hb
    cases hb
    exact fun _ _ => rfl
  rw [torchBackwardSim_eq env c grid Z B hZ hB h2, RandM.bind_ok] at hb
  rw [torchBackwardSim_eq env c grid Z' B hZ' hB h2, RandM.bind_ok] at hb'
  obtain ⟨ys, q, hy, hp⟩ := hb
  obtain ⟨ys', q', hy', hp'⟩ := hb'
  obtain ⟨rfl, _⟩ := RandM.pure_ok.1 hp
  obtain ⟨rfl, _⟩ := RandM.pure_ok.1 hp'
  have l1 := chain_length hy
  have l2 := chain_length hy'
  rw [visits_split Z grid j hj] at hy
  rw [visits_split Z' grid j hj, ← zip_drop_eq h] at hy'
  have := chain_prefix hy hy'
  simp [visits, hZ, hZ'] at l1 l2
  have e : ((Z.zip grid).drop (j+1)).reverse.length = grid.length - 2 + 1 - j := by
    simp [hZ]; omega
  rw [e] at this
  exact pinned_agree l1 l2 this

/-- **C14** (numpy, deterministic). Two constructions with the same random state that differ only in
`t2` and `y2` have the same forward slices at their common time indices. (With `brown_bridge` a grid of
a single point is excluded, see C05.) -/
theorem C14_horizon_prefix (env : Env ρ K) (c : Cfg d N M K) (hd : 0 < d) (t2' : K) (y2' : Fin d → K)
    (hdet : c.deterministic = true) (r r1 r1' : ρ) (o o' : Obj d N M K)
    (h : construct env c r = .ok (o, r1))
    (h' : construct env ({ c with t2 := t2', y2 := y2' } : Cfg d N M K) r = .ok (o', r1'))
    (hb : c.brownBridge = false ∨ 2 ≤ o.timegrid.length ∧ 2 ≤ o'.timegrid.length) :
    ∀ i, i < o.timegrid.length → i < o'.timegrid.length → o.Z[i]? = o'.Z[i]? := by
  obtain ⟨_, hg⟩ := construct_fields h
  obtain ⟨_, hg'⟩ := construct_fields h'
  have hs : ∀ {c : Cfg d N M K} {r r1 : ρ} {o : Obj d N M K}, c.deterministic = true →
      construct env c r = .ok (o, r1) → (c.brownBridge = false ∨ 2 ≤ o.timegrid.length) →
      ∃ ys r2, o.Z = pt N c.y1 :: ys ∧ chain (ottoSlice env c) 1 o.timegrid.tail (pt N c.y1) r
        = .ok (ys, r2) ∧ 1 ≤ o.timegrid.length := by
    intro c r r1 o hdet h hb
    obtain ⟨_, hg⟩ := construct_fields h
    rw [hg] at hb ⊢
    rcases grid_cases (mkGrid c.t1 c.t2) with he | ⟨t0, he⟩ | h2
    · exact absurd he (construct_grid_ne hd h)
    · rw [he] at hb
      have hb : c.brownBridge = false := by
        rcases hb with hb | hb
        · exact hb
        · simp at hb
      rw [construct_det_single env c hdet t0 he] at h
      obtain ⟨rfl, rfl⟩ := RandM.pure_ok.1 h
      rw [he]
      exact ⟨[], r, by simp [hb], rfl, by simp⟩
    · obtain ⟨ys, r2, zt, r3, bs, h1, _, _, rfl⟩ := (construct_det_iff env c hdet h2 r r1 o).1 h
      exact ⟨ys, r2, rfl, h1, by omega⟩
  obtain ⟨ys, r2, hZ, hc, hn⟩ := hs hdet h (hb.imp_right And.left)
  obtain ⟨ys', r2', hZ', hc', hn'⟩ := hs (c := { c with t2 := t2', y2 := y2' }) hdet h'
    (hb.imp_right And.right)
  rw [hZ, hZ']
  rw [hg] at hc hn ⊢
  rw [hg'] at hc' hn' ⊢
  exact chain_comparable (mkGrid_comparable c.t1 c.t2 t2') hn hn' hc hc'

/-- **C14** (torch, deterministic). -/
theorem C14_torch_horizon_prefix (env : Env ρ K) (c : Cfg d N M K) (hd : 0 < d) (t2' : K)
    (y2' : Fin d → K) (hdet : c.deterministic = true) (r r1 r1' : ρ) (o o' : Obj d N M K)
    (h : torchConstruct env c r = .ok (o, r1))
    (h' : torchConstruct env ({ c with t2 := t2', y2 := y2' } : Cfg d N M K) r = .ok (o', r1'))
    (hb : c.brownBridge = false ∨ 2 ≤ o.timegrid.length ∧ 2 ≤ o'.timegrid.length) :
    ∀ i, i < o.timegrid.length → i < o'.timegrid.length → o.Z[i]? = o'.Z[i]? := by
  have hs : ∀ {c : Cfg d N M K} {r r1 : ρ} {o : Obj d N M K}, c.deterministic = true →
      torchConstruct env c r = .ok (o, r1) → (c.brownBridge = false ∨ 2 ≤ o.timegrid.length) →
      ∃ ys r2, o.Z = pt N c.y1 :: ys ∧ chain (torchOttoSlice env c) 1 o.timegrid.tail (pt N c.y1) r
        = .ok (ys, r2) ∧ 1 ≤ o.timegrid.length := by
    intro c r r1 o hdet h hb
    obtain ⟨_, hg, _⟩ := torchConstruct_fields h
    rcases grid_cases o.timegrid with he | ⟨t0, he⟩ | h2
    · exact absurd he (torchConstruct_grid_ne hd h)
    · rw [he] at hb hg ⊢
      have hb : c.brownBridge = false := by
        rcases hb with hb | hb
        · exact hb
        · simp at hb
      rw [torchConstruct_det_single env c hdet t0 hg] at h
      obtain ⟨rfl, rfl⟩ := RandM.pure_ok.1 h
      exact ⟨[], r, by simp [hb], rfl, by simp⟩
    · obtain ⟨ys, r2, zt, r3, bs, h1, _, _, ho⟩ :=
        (torchConstruct_det_iff env c hdet _ hg h2 r r1 o).1 h
      exact ⟨ys, r2, by rw [ho], h1, by omega⟩
  obtain ⟨ys, r2, hZ, hc, hn⟩ := hs hdet h (hb.imp_right And.left)
  obtain ⟨ys', r2', hZ', hc', hn'⟩ := hs (c := { c with t2 := t2', y2 := y2' }) hdet h'
    (hb.imp_right And.right)
  have hcmp := torchPoints_comparable c.t1 c.t2 t2'
  rw [← (torchConstruct_fields h).2.2,
    ← show o'.timegrid = torchPoints c.t1 t2' from (torchConstruct_fields h').2.2] at hcmp
  rw [hZ, hZ']
  exact chain_comparable hcmp hn hn' hc hc'

/-- **C14** (numpy, stochastic). The same for `deterministic=False`, except that the last slice of either
flow is excluded (it is overwritten with `y2`). -/
theorem C14_stochastic_horizon_prefix (env : Env ρ K) (c : Cfg d N M K) (t2' : K)
    (y2' : Fin d → K) (hdet : c.deterministic = false) (r r1 r1' : ρ) (o o' : Obj d N M K)
    (h : construct env c r = .ok (o, r1))
    (h' : construct env ({ c with t2 := t2', y2 := y2' } : Cfg d N M K) r = .ok (o', r1')) :
    ∀ i, i + 1 < o.timegrid.length → i + 1 < o'.timegrid.length → o.Z[i]? = o'.Z[i]? := by
  intro i hi hi'
  obtain ⟨_, hg⟩ := construct_fields h
  obtain ⟨_, hg'⟩ := construct_fields h'
  have hs : ∀ {c : Cfg d N M K} {r r1 : ρ} {o : Obj d N M K}, c.deterministic = false →
      construct env c r = .ok (o, r1) → i + 1 < o.timegrid.length →
      ∃ ys r2, o.Z[i]? = (stochInit N c.y1 :: ys)[i]? ∧
        chain (stochSlice env c) 1 o.timegrid.tail (stochInit N c.y1) r = .ok (ys, r2) := by
    intro c r r1 o hdet h hi
    obtain ⟨_, hg⟩ := construct_fields h
    by_cases hd : 2 ≤ d
    · rw [hg] at hi ⊢
      obtain ⟨ys, r2, bs, h1, _, rfl⟩ := (construct_stoch_iff env c hdet (by omega) hd r r1 o).1 h
      refine ⟨ys, r2, ?_, h1⟩
      have hl := chain_length h1
      rw [List.length_tail] at hl
      rcases i with _ | i
      · rfl
      · rw [List.getElem?_cons_succ, List.getElem?_cons_succ,
          List.getElem?_append_left (by rw [List.length_dropLast]; omega), List.getElem?_dropLast,
          if_pos (by omega)]
    · rw [construct_stoch_dim1 env c hdet (by rw [hg] at hi; omega) (by omega)] at h
      cases h
  obtain ⟨ys, r2, hZ, hc⟩ := hs hdet h hi
  obtain ⟨ys', r2', hZ', hc'⟩ := hs (c := { c with t2 := t2', y2 := y2' }) hdet h' hi'
  rw [hZ, hZ']
  rw [hg] at hc hi
  rw [hg'] at hc' hi'
  change i + 1 < (mkGrid c.t1 t2').length at hi'
  exact chain_comparable (mkGrid_comparable c.t1 c.t2 t2') (by omega) (by omega) hc hc' i
    (by omega) (by omega)

/-- **C14** (torch, stochastic). In the torch class the last slice is not overwritten: all slices at common time indices
agree. -/
theorem C14_torch_stochastic_horizon_prefix (env : Env ρ K) (c : Cfg d N M K) (hd : 0 < d) (t2' : K)
    (y2' : Fin d → K) (hdet : c.deterministic = false) (r r1 r1' : ρ) (o o' : Obj d N M K)
    (h : torchConstruct env c r = .ok (o, r1))
    (h' : torchConstruct env ({ c with t2 := t2', y2 := y2' } : Cfg d N M K) r = .ok (o', r1')) :
    ∀ i, i < o.timegrid.length → i < o'.timegrid.length → o.Z[i]? = o'.Z[i]? := by
  have hs : ∀ {c : Cfg d N M K} {r r1 : ρ} {o : Obj d N M K}, c.deterministic = false →
      torchConstruct env c r = .ok (o, r1) →
      ∃ ys r2, o.Z = stochInit N c.y1 :: ys ∧
        chain (torchStochSlice env c) 1 o.timegrid.tail (stochInit N c.y1) r = .ok (ys, r2) ∧
        1 ≤ o.timegrid.length := by
    intro c r r1 o hdet h
    obtain ⟨_, hg, _⟩ := torchConstruct_fields h
    have hne := torchConstruct_grid_ne hd h
    by_cases hd2 : 2 ≤ d
    · rcases grid_cases o.timegrid with he | ⟨t0, he⟩ | h2
      · exact absurd he hne
      · rw [he] at hg ⊢
        rw [torchConstruct_stoch_single env c hdet hd2 t0 hg] at h
        obtain ⟨rfl, rfl⟩ := RandM.pure_ok.1 h
        exact ⟨[], r, rfl, rfl, by simp⟩
      · obtain ⟨ys, r2, bs, h1, _, ho⟩ := (torchConstruct_stoch_iff env c hdet _ hg h2 hd2 r r1 o).1 h
        exact ⟨ys, r2, by rw [ho], h1, by omega⟩
    · obtain ⟨t0, ts, ht⟩ := List.exists_cons_of_ne_nil hne
      rw [ht] at hg
      rw [torchConstruct_stoch_dim1 env c hdet t0 ts hg (by omega)] at h
      cases h
  obtain ⟨ys, r2, hZ, hc, hn⟩ := hs hdet h
  obtain ⟨ys', r2', hZ', hc', hn'⟩ := hs (c := { c with t2 := t2', y2 := y2' }) hdet h'
  have hcmp := torchPoints_comparable c.t1 c.t2 t2'
  rw [← (torchConstruct_fields h).2.2,
    ← show o'.timegrid = torchPoints c.t1 t2' from (torchConstruct_fields h').2.2] at hcmp
  rw [hZ, hZ']
  exact chain_comparable hcmp hn hn' hc hc'

/-- **C49**. With `reweight`, `brown_bridge` and `deterministic=False` the array `Ztr` of the
constructed object contains only zeros, numpy and torch. -/
theorem C49_true_flow_zero_in_stochastic_mode (env : Env ρ K) (c : Cfg d N M K)
    (hdet : c.deterministic = false) (hr : c.reweight = true) (hb : c.brownBridge = true)
    (r r' : ρ) (o : Obj d N M K)
    (h : construct env c r = .ok (o, r') ∨ torchConstruct env c r = .ok (o, r')) :
    ∃ T, o.Ztr = some T ∧ T.length = o.timegrid.length ∧
      ∀ (i : Nat) (S : Mat d N K), T[i]? = some S → ∀ a n, S a n = lit 0 1 := by
  have key : o.Ztr = some (zerosT d N o.timegrid.length) := by
    rcases h with h | h
    · unfold construct at h
      simp only [hdet, hr, hb, Bool.and_self, if_true, Bool.false_eq_true, if_false, RandM.bind_ok,
        RandM.pure_ok] at h
      obtain ⟨Z, r1, _, B, r3, _, rfl, _⟩ := h
      rfl
    · unfold torchConstruct at h
      simp only [hdet, hr, hb, Bool.and_self, if_true, Bool.false_eq_true, if_false, RandM.bind_ok,
        RandM.pure_ok] at h
      obtain ⟨g, _, _, Z, r1, _, B, r3, _, rfl, _⟩ := h
      rfl
  refine ⟨_, key, zerosT_length .., fun i S hS a n => ?_⟩
  unfold zerosT at hS
  rw [List.getElem?_replicate] at hS
  split at hS
  · cases hS; rfl
  · cases hS

/-- **C50** (`reject`, `dens_est`). These options never matter, numpy and torch. -/
theorem C50_reject_densest_ignored (env : Env ρ K) (c : Cfg d N M K) (rej : Bool) (dens : String)
    (r : ρ) :
    SameOutcome (construct env c r)
      (construct env ({ c with reject := rej, densEst := dens } : Cfg d N M K) r) ∧
    SameOutcome (torchConstruct env c r)
      (torchConstruct env ({ c with reject := rej, densEst := dens } : Cfg d N M K) r) :=
  ⟨construct_sameOutcome env c { c with reject := rej, densEst := dens } rfl rfl rfl
      (fun _ => rfl) (fun _ => rfl) (fun _ _ => rfl) rfl r,
   torchConstruct_sameOutcome env c { c with reject := rej, densEst := dens } rfl rfl rfl
      (fun _ => rfl) (fun _ => rfl) (fun _ _ => rfl) rfl r⟩

/-- **C50** (`f_true`). Unless reweighting, Brownian bridge and deterministic mode are all switched on,
`f_true` does not matter, numpy and torch. -/
theorem C50_true_drift_ignored (env : Env ρ K) (c : Cfg d N M K) (ft : Option (Drift d N K))
    (hc : ¬ (c.reweight = true ∧ c.brownBridge = true ∧ c.deterministic = true)) (r : ρ) :
    SameOutcome (construct env c r) (construct env ({ c with fTrue := ft } : Cfg d N M K) r) ∧
    SameOutcome (torchConstruct env c r)
      (torchConstruct env ({ c with fTrue := ft } : Cfg d N M K) r) := by
  have hno : c.deterministic = true → (c.reweight && c.brownBridge) = true → False := by
    intro h1 h2
    rw [Bool.and_eq_true] at h2
    exact hc ⟨h2.1, h2.2, h1⟩
  exact ⟨construct_sameOutcome env c { c with fTrue := ft } rfl rfl rfl (fun _ => rfl) (fun _ => rfl)
      (fun h1 h2 => (hno h1 h2).elim) rfl r,
   torchConstruct_sameOutcome env c { c with fTrue := ft } rfl rfl rfl (fun _ => rfl) (fun _ => rfl)
      (fun h1 h2 => (hno h1 h2).elim) rfl r⟩

/-- **C50** (`U`). Without reweighting the constraint does not matter, numpy and torch. -/
theorem C50_constraint_ignored (env : Env ρ K) (c : Cfg d N M K) (U : Option (Constraint d N K))
    (hr : c.reweight = false) (r : ρ) :
    SameOutcome (construct env c r) (construct env ({ c with U := U } : Cfg d N M K) r) ∧
    SameOutcome (torchConstruct env c r)
      (torchConstruct env ({ c with U := U } : Cfg d N M K) r) := by
  refine ⟨construct_sameOutcome env c { c with U := U } rfl rfl rfl (fun _ => ?_) (fun _ => ?_)
      (fun _ _ => rfl) rfl r,
   torchConstruct_sameOutcome env c { c with U := U } rfl rfl rfl (fun _ => ?_) (fun _ => ?_)
      (fun _ _ => rfl) rfl r⟩
  · have : ottoBody env c = ottoBody env ({ c with U := U } : Cfg d N M K) := by
      funext ti tt Z
      simp only [ottoBody, hr, Bool.false_and, Bool.false_eq_true, if_false]
    unfold forwardOtto
    rw [this]
  · have : stochBody env c = stochBody env ({ c with U := U } : Cfg d N M K) := by
      funext ti tt Z
      simp only [stochBody, hr, Bool.false_eq_true, if_false]
      first | done | rfl
    unfold forwardStoch
    rw [this]
  · have : torchOttoBody env c = torchOttoBody env ({ c with U := U } : Cfg d N M K) := by
      funext ti tt Z
      simp only [torchOttoBody, hr, Bool.false_and, Bool.false_eq_true, if_false]
    unfold torchForwardOtto
    rw [this]
  · have : torchStochBody env c = torchStochBody env ({ c with U := U } : Cfg d N M K) := by
      funext ti tt Z
      simp only [torchStochBody, hr, Bool.false_eq_true, if_false]
    unfold torchForwardStoch
    rw [this]

end

/-! ### The hypotheses can be met -/

/-- Two different horizons, 101 and 301 grid points, agree on the first 101 slices. -/
example : ∃ o o' r1 r2, construct exEnv (exCfg 3 5 4 100 true true false) 0 = .ok (o, r1) ∧
    construct exEnv (exCfg 3 5 4 300 true true false) 0 = .ok (o', r2) ∧
    ∀ i, i ≤ 100 → o.Z[i]? = o'.Z[i]? := by
  obtain ⟨o, r1, h, hl⟩ := ex_det 3 5 4 100 true false (by norm_num) (by norm_num) 0
  obtain ⟨o', r2, h', hl'⟩ := ex_det 3 5 4 300 true false (by norm_num) (by norm_num) 0
  refine ⟨o, o', r1, r2, h, h', fun i hi => ?_⟩
  exact C14_horizon_prefix exEnv (exCfg 3 5 4 100 true true false) (by norm_num)
    ((300 : ℕ) / 1000) (exCfg 3 5 4 300 true true false).y2 rfl 0 r1 r2 o o' h h' (.inl rfl) i
    (by omega) (by omega)

/-- Stochastic mode, 101 and 301 grid points. -/
example : ∃ o o' r1 r2, construct exEnv (exCfg 3 5 4 100 false false false) 0 = .ok (o, r1) ∧
    construct exEnv (exCfg 3 5 4 300 false false false) 0 = .ok (o', r2) ∧
    ∀ i, i ≤ 99 → o.Z[i]? = o'.Z[i]? := by
  obtain ⟨o, r1, h, hl⟩ := ex_stoch 3 5 4 100 false (by norm_num) (by norm_num) (by norm_num) 0
  obtain ⟨o', r2, h', hl'⟩ := ex_stoch 3 5 4 300 false (by norm_num) (by norm_num) (by norm_num) 0
  refine ⟨o, o', r1, r2, h, h', fun i hi => ?_⟩
  exact C14_stochastic_horizon_prefix exEnv (exCfg 3 5 4 100 false false false)
    ((300 : ℕ) / 1000) (exCfg 3 5 4 300 false false false).y2 rfl 0 r1 r2 o o' h h' i
    (by omega) (by omega)

/-- Torch, 101 and 301 grid points. -/
example : ∃ o o' r1 r2, torchConstruct exEnv (exFan 3 5 4 100) 0 = .ok (o, r1) ∧
    torchConstruct exEnv (exFan 3 5 4 300) 0 = .ok (o', r2) ∧
    ∀ i, i ≤ 100 → o.Z[i]? = o'.Z[i]? := by
  obtain ⟨o, r1, h, hl⟩ := ex_torch 3 5 4 100 (by norm_num) (by norm_num) (by norm_num) 0
  obtain ⟨o', r2, h', hl'⟩ := ex_torch 3 5 4 300 (by norm_num) (by norm_num) (by norm_num) 0
  refine ⟨o, o', r1, r2, h, h', fun i hi => ?_⟩
  exact C14_torch_horizon_prefix exEnv (exFan 3 5 4 100) (by norm_num)
    ((300 : ℕ) / 1000) (exFan 3 5 4 300).y2 rfl 0 r1 r2 o o' h h' (.inl rfl) i
    (by omega) (by omega)

/-- Torch, stochastic mode, 101 and 301 grid points. -/
example : ∃ o o' r1 r2, torchConstruct exEnv (exFanS 3 5 4 100) 0 = .ok (o, r1) ∧
    torchConstruct exEnv (exFanS 3 5 4 300) 0 = .ok (o', r2) ∧
    ∀ i, i ≤ 100 → o.Z[i]? = o'.Z[i]? := by
  obtain ⟨o, r1, h, hl⟩ := ex_torch_stoch exEnv 3 5 4 100 (by norm_num) (by norm_num) (by norm_num) 0
  obtain ⟨o', r2, h', hl'⟩ := ex_torch_stoch exEnv 3 5 4 300 (by norm_num) (by norm_num) (by norm_num) 0
  refine ⟨o, o', r1, r2, h, h', fun i hi => ?_⟩
  exact C14_torch_stochastic_horizon_prefix exEnv (exFanS 3 5 4 100) (by norm_num)
    ((300 : ℕ) / 1000) (exFanS 3 5 4 300).y2 rfl 0 r1 r2 o o' h h' i (by omega) (by omega)

/-- Overwriting forward slice 40 leaves the backward flow from slice 40 on unchanged (both runs succeed:
exact arithmetic, 3 dimensions, 5 particles, any grid with at least 2 points). -/
example (grid : List ℝ) (h2 : 2 ≤ grid.length) (Z B : Traj 3 5 ℝ) (hZ : Z.length = grid.length)
    (hB : B.length = grid.length) (S : Mat 3 5 ℝ) (r : ℕ) :
    ∃ b b' r1 r2, backwardSim exEnv (exCfg 3 5 4 100 true false false) grid Z B r = .ok (b, r1) ∧
      backwardSim exEnv (exCfg 3 5 4 100 true false false) grid (Z.set 40 S) B r = .ok (b', r2) ∧
      ∀ i, 40 ≤ i → b[i]? = b'[i]? := by
  have tot : ∀ Z : Traj 3 5 ℝ, Z.length = grid.length →
      Total (backwardSim exEnv (exCfg 3 5 4 100 true false false) grid Z B) := by
    intro Z hZ
    rw [backwardSim_eq _ _ grid Z B hZ hB h2]
    exact (Total.chain (npBack_total _ _ (by norm_num) rfl) _ _ _).bind fun _ => Total.pure _
  have hZ' : (Z.set 40 S).length = grid.length := by rw [List.length_set, hZ]
  obtain ⟨b, r1, h⟩ := tot Z hZ r
  obtain ⟨b', r2, h'⟩ := tot _ hZ' r
  refine ⟨b, b', r1, r2, h, h', ?_⟩
  refine C13_backward_slice_needs_only_later exEnv _ grid Z (Z.set 40 S) B hZ hZ' hB 40 ?_ r r1 r2 b b' h h'
  intro i hi
  rw [List.getElem?_set_ne (by omega)]

/-- A stochastic construction with `Ztr` all zero. -/
example : ∃ o r' T, construct exEnv (exCfg 3 5 4 100 false true true) 0 = .ok (o, r') ∧
    o.Ztr = some T ∧ T.length = 101 := by
  have hs : ∀ i t x, Total (stochSlice exEnv (exCfg 3 5 4 100 false true true) i t x) := by
    intro i t x
    unfold stochSlice stochRaw
    refine Total.bind (Total.bind (fun r => ?_) fun _ => Total.pure _) fun raw => ?_
    · have : ∀ (n : ℕ) (f : Fin n → RandM ℕ (Fin 3 → ℝ)), (∀ i, Total (f i)) → Total (seqM n f) := by
        intro n
        induction n with
        | zero => exact fun f _ => Total.pure _
        | succ n ih =>
          exact fun f h => (h 0).bind fun _ => (ih _ fun i => h i.succ).bind fun _ => Total.pure _
      refine this 5 _ (fun i => ?_) r
      exact Total.bind (x := normalVec exEnv _ 3) (fun r => ⟨_, _, rfl⟩) fun _ => Total.pure _
    · exact fun r => ⟨_, _, rfl⟩
  obtain ⟨ys, r1, h1⟩ := Total.chain hs (mkGrid (exCfg 3 5 4 100 false true true).t1
    (exCfg 3 5 4 100 false true true).t2).tail 1 (stochInit 5 (exCfg 3 5 4 100 false true true).y1) 0
  obtain ⟨bs, r3, h3⟩ := Total.chain (npBack_total exEnv (exCfg 3 5 4 100 false true true) (by norm_num) rfl)
    (visits (stochInit 5 (exCfg 3 5 4 100 false true true).y1 :: (ys.dropLast ++
      [pt 5 (exCfg 3 5 4 100 false true true).y2])) (mkGrid (exCfg 3 5 4 100 false true true).t1
    (exCfg 3 5 4 100 false true true).t2)) 1 (pt 5 (exCfg 3 5 4 100 false true true).y2) r1
  have hg := exCfg_grid 3 5 4 100 false true true
  have h := (construct_stoch_iff exEnv (exCfg 3 5 4 100 false true true) rfl (by omega)
    (by norm_num) 0 r3 _).2 ⟨ys, r1, bs, h1, h3, rfl⟩
  obtain ⟨T, hT, hl, _⟩ := C49_true_flow_zero_in_stochastic_mode exEnv _ rfl rfl rfl 0 r3 _ (.inl h)
  exact ⟨_, r3, T, h, hT, by rw [hl]; exact hg⟩

end DPFC
