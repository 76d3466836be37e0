import Verif.Lib.TorchFlow

/-! The constructors as sequences of chains, as equations between computations. -/

set_option linter.unusedSectionVars false

namespace DPFC
section
variable {K ρ : Type} [Add K] [Sub K] [Mul K] [Div K] [Neg K] [NumOps K]
variable {N M d : Nat}

theorem RandM.bind_congr_ok {α β : Type} {x : RandM ρ α} {f g : α → RandM ρ β} {r : ρ}
    (h : ∀ a r1, x r = .ok (a, r1) → f a r1 = g a r1) : (x >>= f) r = (x >>= g) r := by
  rw [RandM.bind_app, RandM.bind_app]
  cases hx : x r with
  | error e => rfl
  | ok p => exact h p.1 p.2 hx

theorem construct_det_eq (env : Env ρ K) (c : Cfg d N M K) (hdet : c.deterministic = true)
    (hk : 2 ≤ (mkGrid c.t1 c.t2).length) :
    construct env c = (do
      let ys ← chain (ottoSlice env c) 1 (mkGrid c.t1 c.t2).tail (pt N c.y1)
      let zt ← trueFlow env c (mkGrid c.t1 c.t2)
      let bs ← chain (npBack env c) 1 (visits (pt N c.y1 :: ys) (mkGrid c.t1 c.t2)) (pt N c.y2)
      pure ⟨c, mkGrid c.t1 c.t2, pt N c.y1 :: ys, pt N c.y1 :: (bs.reverse ++ [pt N c.y2]), zt⟩) := by
  unfold construct
  generalize mkGrid c.t1 c.t2 = grid at hk ⊢
  obtain ⟨t0, t1, ts, rfl⟩ : ∃ t0 t1 ts, grid = t0 :: t1 :: ts := by
    match grid, hk with
    | a :: b :: l, _ => exact ⟨a, b, l, rfl⟩
  simp only [if_pos hdet]
  rw [forwardOtto_eq env c t0 t1 ts _ (by simp [zerosT_length])]
  simp only [bind_assoc, pure_bind]
  funext r
  refine RandM.bind_congr_ok fun ys r1 h1 => ?_
  have hb := backwardSim_eq env c (t0 :: t1 :: ts) (pt N c.y1 :: ys)
    (zerosT d N (t0 :: t1 :: ts).length) (by simp [chain_length h1]) (by simp [zerosT_length]) hk
  by_cases h : (c.reweight && c.brownBridge) = true
  · simp only [if_pos h, trueFlow, List.tail_cons]
    rw [forwardOttoTrue_eq env c t0 (t1 :: ts) _ (by simp [zerosT_length])]
    simp only [bind_assoc, pure_bind, hb]
  · simp only [if_neg h, trueFlow, List.tail_cons, bind_assoc, pure_bind, hb]

theorem construct_stoch_eq (env : Env ρ K) (c : Cfg d N M K) (hdet : c.deterministic = false)
    (hk : 2 ≤ (mkGrid c.t1 c.t2).length) (hd : 2 ≤ d) :
    construct env c = (do
      let ys ← chain (stochSlice env c) 1 (mkGrid c.t1 c.t2).tail (stochInit N c.y1)
      let bs ← chain (npBack env c) 1
          (visits (stochInit N c.y1 :: (ys.dropLast ++ [pt N c.y2])) (mkGrid c.t1 c.t2)) (pt N c.y2)
      pure ⟨c, mkGrid c.t1 c.t2, stochInit N c.y1 :: (ys.dropLast ++ [pt N c.y2]),
          pt N c.y1 :: (bs.reverse ++ [pt N c.y2]),
          if c.reweight && c.brownBridge then some (zerosT d N (mkGrid c.t1 c.t2).length) else none⟩) := by
  unfold construct
  generalize mkGrid c.t1 c.t2 = grid at hk ⊢
  obtain ⟨t0, t1, ts, rfl⟩ : ∃ t0 t1 ts, grid = t0 :: t1 :: ts := by
    match grid, hk with
    | a :: b :: l, _ => exact ⟨a, b, l, rfl⟩
  simp only [hdet, Bool.false_eq_true, if_false, forwardStoch, bind_assoc, List.length_cons]
  rw [show ts.length + 1 + 1 = (t1 :: ts).length + 1 from rfl, enumStoch_eq env c t0 (t1 :: ts) hd]
  simp only [bind_assoc, pure_bind, List.tail_cons]
  funext r
  refine RandM.bind_congr_ok fun a r1 h1 => ?_
  have hl := chain_length h1
  have hp : pinRows (stochInit N c.y1 :: a) (-1) c.y2
        = .ok (stochInit N c.y1 :: (a.dropLast ++ [pt N c.y2])) := by
    rw [pinRows_ok _ _ _ (pyIdx_neg_one (by simp))]
    congr 1
    have ha : a ≠ [] := by intro e; simp [e] at hl
    obtain ⟨b, w, rfl⟩ : ∃ b w, a = b ++ [w] := ⟨_, _, (List.dropLast_concat_getLast ha).symm⟩
    simp
  have hb := backwardSim_eq env c (t0 :: t1 :: ts) (stochInit N c.y1 :: (a.dropLast ++ [pt N c.y2]))
    (zerosT d N ((t1 :: ts).length+1)) (by simp at hl ⊢; omega) (by simp [zerosT_length]) hk
  rw [hp, RandM.liftM_ok, pure_bind, hb]
  simp only [bind_assoc, pure_bind]

theorem torchConstruct_det_eq (env : Env ρ K) (c : Cfg d N M K) (hdet : c.deterministic = true)
    (grid : List K) (hg : torchGrid c.t1 c.t2 = .ok grid) (hk : 2 ≤ grid.length) :
    torchConstruct env c = (do
      let ys ← chain (torchOttoSlice env c) 1 grid.tail (pt N c.y1)
      let zt ← torchTrueFlow env c grid
      let bs ← chain (torchBack env c) 1 (visits (pt N c.y1 :: ys) grid) (pt N c.y2)
      pure ⟨c, grid, pt N c.y1 :: ys, pt N c.y1 :: (bs.reverse ++ [pt N c.y2]), zt⟩) := by
  unfold torchConstruct
  rw [hg, RandM.liftM_ok, pure_bind]
  obtain ⟨t0, t1, ts, rfl⟩ : ∃ t0 t1 ts, grid = t0 :: t1 :: ts := by
    match grid, hk with
    | a :: b :: l, _ => exact ⟨a, b, l, rfl⟩
  simp only [if_pos hdet]
  rw [torchForwardOtto_eq env c t0 t1 ts _ (by simp [zerosT_length])]
  simp only [bind_assoc, pure_bind]
  funext r
  refine RandM.bind_congr_ok fun ys r1 h1 => ?_
  have hb := torchBackwardSim_eq env c (t0 :: t1 :: ts) (pt N c.y1 :: ys)
    (zerosT d N (t0 :: t1 :: ts).length) (by simp [chain_length h1]) (by simp [zerosT_length]) hk
  by_cases h : (c.reweight && c.brownBridge) = true
  · simp only [if_pos h, torchTrueFlow, List.tail_cons]
    rw [torchForwardOttoTrue_eq env c t0 (t1 :: ts) _ (by simp [zerosT_length])]
    simp only [bind_assoc, pure_bind, hb]
  · simp only [if_neg h, torchTrueFlow, List.tail_cons, bind_assoc, pure_bind, hb]

theorem torchConstruct_stoch_eq (env : Env ρ K) (c : Cfg d N M K) (hdet : c.deterministic = false)
    (grid : List K) (hg : torchGrid c.t1 c.t2 = .ok grid) (hk : 2 ≤ grid.length) (hd : 2 ≤ d) :
    torchConstruct env c = (do
      let ys ← chain (torchStochSlice env c) 1 grid.tail (stochInit N c.y1)
      let bs ← chain (torchBack env c) 1 (visits (stochInit N c.y1 :: ys) grid) (pt N c.y2)
      pure ⟨c, grid, stochInit N c.y1 :: ys, pt N c.y1 :: (bs.reverse ++ [pt N c.y2]),
          if c.reweight && c.brownBridge then some (zerosT d N grid.length) else none⟩) := by
  unfold torchConstruct
  rw [hg, RandM.liftM_ok, pure_bind]
  obtain ⟨t0, t1, ts, rfl⟩ : ∃ t0 t1 ts, grid = t0 :: t1 :: ts := by
    match grid, hk with
    | a :: b :: l, _ => exact ⟨a, b, l, rfl⟩
  simp only [hdet, Bool.false_eq_true, if_false, List.length_cons]
  rw [show ts.length + 1 + 1 = (t1 :: ts).length + 1 from rfl,
    torchForwardStoch_eq env c t0 (t1 :: ts) hd]
  simp only [bind_assoc, pure_bind, List.tail_cons]
  funext r
  refine RandM.bind_congr_ok fun a r1 h1 => ?_
  have hl := chain_length h1
  have hb := torchBackwardSim_eq env c (t0 :: t1 :: ts) (stochInit N c.y1 :: a)
    (zerosT d N ((t1 :: ts).length+1)) (by simp at hl ⊢; omega) (by simp [zerosT_length]) hk
  rw [hb]
  simp only [bind_assoc, pure_bind]

/-- Equivariance of a chain. -/
theorem chain_map {τ τ' S S' : Type} {step : Nat → τ → S → RandM ρ S}
    {step' : Nat → τ' → S' → RandM ρ S'} (φ : τ → τ') (A : S → S')
    (h : ∀ i t x, step' i (φ t) (A x) = (do let y ← step i t x; pure (A y))) :
    ∀ (ts : List τ) (i : Nat) (x : S),
      chain step' i (ts.map φ) (A x) = (do let ys ← chain step i ts x; pure (ys.map A))
  | [], i, x => by simp [chain]
  | t :: ts, i, x => by
    simp only [List.map_cons, chain, h, bind_assoc, pure_bind, chain_map φ A h ts, List.map_cons]

theorem visits_map {τ : K → K} {N' d' : Nat} (A : Mat d N K → Mat d' N' K) (Z : Traj d N K) (grid : List K) :
    visits (Z.map A) (grid.map τ) = (visits Z grid).map (Prod.map A τ) := by
  unfold visits
  rw [List.zip_map, ← List.map_drop, ← List.map_reverse]

end
end DPFC
