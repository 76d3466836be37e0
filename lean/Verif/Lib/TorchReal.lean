import Verif.Lib.TorchFlow
import Verif.Lib.FlowReal

/-! The building blocks of the torch class over the reals. -/

namespace DPFC
open Spec

variable {ρ : Type} {N M d : Nat}

theorem torchMin_real (hN : 0 < N) (v : Fin N → ℝ) : torchMin v = .ok (lo v) := by
  cases N with
  | zero => omega
  | succ n => rw [torchMin, amin_real]

theorem torchMax_real (hN : 0 < N) (v : Fin N → ℝ) : torchMax v = .ok (hi v) := by
  cases N with
  | zero => omega
  | succ n => rw [torchMax, amax_real]

theorem torchBox_real (hN : 0 < N) (x : Mat d N ℝ) :
    torchBox x = .ok fun a => (lo (x a), hi (x a)) := by
  unfold torchBox
  rw [seqM_except_ok]
  intro i
  simp [torchMin_real hN, torchMax_real hN]

theorem hullBox_real (hN : 0 < N) (z b : Mat d N ℝ) :
    hullBox z b = .ok fun a => (min (lo (z a)) (lo (b a)), max (hi (z a)) (hi (b a))) := by
  unfold hullBox
  rw [seqM_except_ok]
  intro i
  simp [torchMin_real hN, torchMax_real hN, pyMax_real, pyMin_real]

open Classical in
theorem densityBox_real (hN : 0 < N) (z b : Mat d N ℝ) :
    densityBox z b = .ok fun a => if lo (b a) = hi (b a) then (lo (z a), hi (z a)) else
      (min (lo (z a)) (lo (b a)), max (hi (z a)) (hi (b a))) := by
  unfold densityBox
  rw [seqM_except_ok]
  intro i
  simp only [torchMin_real hN, torchMax_real hN, pyMax_real, pyMin_real, Except.ok_bind', real_eqB]
  by_cases h : lo (b i) = hi (b i)
  · rw [if_pos h, if_pos h]
  · rw [if_neg h, if_neg h]

theorem torchInducing_real (env : Env ρ ℝ) (bnds : Fin d → ℝ × ℝ) (r : ρ)
    (h : ∀ a, (bnds a).1 < (bnds a).2) :
    torchInducing env bnds M r
      = .ok (fun m a => (bnds a).1 + tunifs env d M r m a * ((bnds a).2 - (bnds a).1),
          tunifsNext env d M r) := by
  unfold torchInducing
  rw [if_pos]
  rw [List.all_eq_true]
  intro a _
  simpa using h a

theorem torchInducing_err (env : Env ρ ℝ) (bnds : Fin d → ℝ × ℝ) (r : ρ) (a : Fin d)
    (h : ¬ (bnds a).1 < (bnds a).2) : torchInducing env bnds M r = .error .valueError := by
  unfold torchInducing
  rw [if_neg]
  rw [List.all_eq_true]
  intro hall
  have := hall a (List.mem_finRange a)
  simp only [real_ltB] at this
  exact h this

theorem classify_tensor (hd : 2 ≤ d) (l : Fin d → ℝ) : (TLS.tensor l).classify = .ok (LS.vec l) := by
  simp only [TLS.classify]; rw [if_pos (by omega)]

theorem torchFSeperate_total (env : Env ρ ℝ) (hN : 0 < N) (hd : 2 ≤ d) (g : ℝ) (f : Drift d N ℝ)
    (x : Mat d N ℝ) (t : ℝ) (r : ρ) (hs : ∀ a, lo (x a) < hi (x a)) :
    ∃ s : Mat d N ℝ, torchFSeperate env M g f x t r
      = .ok (fun a n => f.call2 x t a n - 1/2 * g^2 * s a n, tunifsNext env d M r) := by
  unfold torchFSeperate
  rw [torchBox_real hN]
  change ∃ s : Mat d N ℝ, ((torchInducing env (fun a => (lo (x a), hi (x a))) M) >>= _) r = _
  rw [RandM.bind_app, torchInducing_real env _ r hs]
  simp only
  rw [torchScore_real _ _ _ _ (classify_tensor hd _)]
  refine ⟨fun a n => score (1 / 1000) (LS.vec (torchLengthScales x)).at (tr x)
                (fun m a => lo (x a) + tunifs env d M r m a * (hi (x a) - lo (x a))) a (tr x n), ?_⟩
  rw [RandM.liftM_ok, pure_bind, RandM.pure_app]
  simp only [real_lit_half, real_sq]

theorem torchDensityAt_total (env : Env ρ ℝ) (hN : 0 < N) (hd : 2 ≤ d) (z b : Mat d N ℝ) (r : ρ)
    (hs : ∀ a, lo (z a) < hi (z a)) : ∃ s r', torchDensityAt env M "RBF" z b r = .ok (s, r') := by
  unfold torchDensityAt
  rw [densityBox_real hN]
  rw [RandM.liftM_ok, pure_bind, RandM.bind_app, torchInducing_real env _ r]
  · simp only
    rw [torchScoreFn_real _ _ _ _ (classify_tensor hd _) (by intro w h; cases h)]
    exact ⟨_, _, rfl⟩
  · intro a
    by_cases h : lo (b a) = hi (b a)
    · simp only [if_pos h]; exact hs a
    · simp only [if_neg h]
      exact lt_of_le_of_lt (min_le_left _ _) (lt_of_lt_of_le (hs a) (le_max_left _ _))

theorem torchBwDensityAt_total (env : Env ρ ℝ) (hN : 0 < N) (hd : 2 ≤ d) (kern : String)
    (z b : Mat d N ℝ) (r : ρ)
    (hs : ∀ a, lo (z a) < hi (z a)) : ∃ s r', torchBwDensityAt env M kern z b r = .ok (s, r') := by
  unfold torchBwDensityAt
  rw [hullBox_real hN]
  rw [RandM.liftM_ok, pure_bind, RandM.bind_app, torchInducing_real env _ r]
  · simp only
    rw [torchScore_real _ _ _ _ (classify_tensor hd _)]
    exact ⟨_, _, rfl⟩
  · intro a
    exact lt_of_le_of_lt (min_le_left _ _) (lt_of_lt_of_le (hs a) (le_max_left _ _))

/-- A chain whose steps keep an invariant never fails. -/
theorem chain_total_inv {τ S : Type} {step : Nat → τ → S → RandM ρ S} (Inv : Nat → S → Prop)
    (T : τ → Prop)
    (h : ∀ i t x, T t → Inv i x → ∀ r, ∃ y r', step i t x r = .ok (y, r') ∧ Inv (i+1) y) :
    ∀ (ts : List τ) (i : Nat) (x : S) (r : ρ), (∀ t ∈ ts, T t) → Inv i x →
      ∃ ys r', chain step i ts x r = .ok (ys, r') ∧ ∀ y ∈ ys, ∃ j, i ≤ j ∧ Inv (j+1) y
  | [], i, x, r, _, _ => ⟨[], r, rfl, by simp⟩
  | t :: ts, i, x, r, hT, hx => by
    obtain ⟨y, r1, h1, hy⟩ := h i t x (hT t (by simp)) hx r
    obtain ⟨ys, r2, h2, hys⟩ := chain_total_inv Inv T h ts (i+1) y r1
      (fun t ht => hT t (by simp [ht])) hy
    refine ⟨y :: ys, r2, ?_, ?_⟩
    · rw [chain, RandM.bind_ok]
      exact ⟨y, r1, h1, RandM.bind_ok.2 ⟨ys, r2, h2, rfl⟩⟩
    · intro w hw
      rcases List.mem_cons.1 hw with rfl | hw
      · exact ⟨i, le_refl i, hy⟩
      · obtain ⟨j, hj, hI⟩ := hys w hw
        exact ⟨j, by omega, hI⟩

/-- A drift that pushes particle `n` with speed `n` in every coordinate. -/
noncomputable def fanDrift (d N : Nat) : Drift d N ℝ := ⟨fun _ _ _ n => (n.val : ℝ), some fun x => x⟩

/-- Spread of a cloud of at least two particles. -/
theorem lo_lt_hi (v : Fin N → ℝ) (i j : Fin N) (h : v i < v j) : lo v < hi v :=
  lt_of_le_of_lt (ciInf_le (Set.finite_range v).bddBelow i)
    (lt_of_lt_of_le h (le_ciSup (Set.finite_range v).bddAbove j))

/-- Without noise and with the fan drift the torch class constructs for every horizon, dimension at
least two and particle number at least two: the torch theorems are not vacuous. -/
theorem torch_fan_total (env : Env ρ ℝ) (c : Cfg d N M ℝ) (hd : 2 ≤ d) (hN : 2 ≤ N)
    (hg : c.g = 0) (hf : c.f = fanDrift d N) (hr : c.reweight = false) (hk : c.kern = "RBF")
    (hdet : c.deterministic = true) (grid : List ℝ) (hgrid : torchGrid c.t1 c.t2 = .ok grid)
    (h2 : 2 ≤ grid.length) : Total (torchConstruct env c) := by
  have hek : effKern c.kern = "RBF" := by rw [hk]; rfl
  intro r
  let Inv : Nat → Mat d N ℝ → Prop := fun i x =>
    (i = 1 → ∀ a n n', x a n = x a n') ∧
    (i ≠ 1 → ∀ a, ∃ n n', n.val < n'.val ∧ x a n < x a n') ∧
    (∀ a n n', n.val < n'.val → x a n ≤ x a n')
  have hi : Fin N := ⟨0, by omega⟩
  have hstep : ∀ (i : Nat) (t : ℝ) (x : Mat d N ℝ), 1 ≤ i → Inv i x → ∀ r, ∃ y r',
      torchOttoSlice env c i t x r = .ok (y, r') ∧ Inv (i+1) y := by
    intro i t x hi1 hx r
    have key : ∀ s : Mat d N ℝ, Inv (i+1) (fun a n => x a n + 1/1000 * (n.val : ℝ)) := by
      intro s
      refine ⟨fun h => by omega, fun _ a => ⟨⟨0, by omega⟩, ⟨1, by omega⟩, by simp, ?_⟩, ?_⟩
      · have := hx.2.2 a ⟨0, by omega⟩ ⟨1, by omega⟩ (by simp)
        norm_num
        linarith
      · intro a n n' hn
        have := hx.2.2 a n n' hn
        have hc : (n.val : ℝ) ≤ n'.val := by exact_mod_cast hn.le
        show x a n + 1/1000 * (n.val : ℝ) ≤ x a n' + 1/1000 * (n'.val : ℝ)
        linarith
    unfold torchOttoSlice
    by_cases h1 : i = 1
    · simp only [if_pos h1, hr, Bool.false_eq_true, if_false, bind_pure, noisyStep_real, hg, hf,
        fanDrift, zero_mul, add_zero]
      exact ⟨_, _, rfl, key x⟩
    · simp only [if_neg h1, hr, Bool.false_eq_true, if_false, bind_pure]
      obtain ⟨s, hs⟩ := torchFSeperate_total (M := M) env (by omega) hd c.g c.f x (t - dtc) r
        (fun a => by
          obtain ⟨n, n', _, h⟩ := hx.2.1 h1 a
          exact lo_lt_hi _ n n' h)
      refine ⟨_, tunifsNext env d M r, ?_, key s⟩
      · unfold torchOttoStep
        rw [RandM.bind_app, hs]
        simp only [RandM.pure_app, hg, hf, fanDrift, dtc_real]
        congr 2
        funext a n
        ring
  let Inv' : Nat → Mat d N ℝ → Prop := fun i x => 1 ≤ i ∧ Inv i x
  have hsub : 0 < grid.length := by omega
  obtain ⟨ys, r1, h1, hys⟩ := chain_total_inv (step := torchOttoSlice env c) Inv' (fun _ => True)
    (fun i t x _ hx r => by
      obtain ⟨y, r', h, hy⟩ := hstep i t x hx.1 hx.2 r
      exact ⟨y, r', h, by omega, hy⟩) grid.tail 1 (pt N c.y1) r (by simp)
    ⟨le_refl 1, fun _ _ _ _ => rfl, fun h => absurd rfl h, fun _ _ _ _ => le_refl _⟩
  have hback : ∀ (i : Nat) (zt : Mat d N ℝ × ℝ) (b : Mat d N ℝ),
      (∀ a, lo (zt.1 a) < Spec.hi (zt.1 a)) → True → ∀ r, ∃ y r',
        torchBack env c i zt b r = .ok (y, r') ∧ True := by
    intro i zt b hz _ r
    unfold torchBack backStep
    rw [hek]
    obtain ⟨s, r', h⟩ := torchDensityAt_total (M := M) env (by omega) hd zt.1 b r hz
    rw [RandM.bind_app, h]
    simp only
    split
    · rw [RandM.bind_app, normalMat_real]
      exact ⟨_, _, rfl, trivial⟩
    · obtain ⟨s', r'', h'⟩ := torchBwDensityAt_total (M := M) env (by omega) hd "RBF" zt.1 b r' hz
      rw [RandM.bind_app, h']
      exact ⟨_, _, rfl, trivial⟩
  have hlen := chain_length h1
  obtain ⟨bs, r2, h3, _⟩ := chain_total_inv (step := torchBack env c) (fun _ _ => True)
    (fun zt => ∀ a, lo (zt.1 a) < Spec.hi (zt.1 a)) hback (visits (pt N c.y1 :: ys) grid) 1
    (pt N c.y2) r1 (by
      intro zt hzt a
      obtain ⟨z, t⟩ := zt
      have hm : (z, t) ∈ ((pt N c.y1 :: ys).zip grid).drop 1 := by
        have : (z, t) ∈ (((pt N c.y1 :: ys).zip grid).drop 1).drop 1 := by
          rw [List.drop_drop]
          exact List.mem_reverse.1 hzt
        exact List.mem_of_mem_drop this
      obtain ⟨t0, ts, rfl⟩ : ∃ t0 ts, grid = t0 :: ts := by
        match grid, hsub with
        | a :: l, _ => exact ⟨a, l, rfl⟩
      have hz : z ∈ ys := by
        simp only [List.zip_cons_cons, List.drop_succ_cons, List.drop_zero] at hm
        exact (List.of_mem_zip hm).1
      obtain ⟨j, hj, hI⟩ := hys z hz
      obtain ⟨n, n', _, h⟩ := hI.2.2.1 (by omega) a
      exact lo_lt_hi _ n n' h) trivial
  refine ⟨_, r2, (torchConstruct_det_iff env c hdet grid hgrid h2 r r2 _).2
    ⟨ys, r1, none, r1, bs, h1, ?_, h3, rfl⟩⟩
  unfold torchTrueFlow
  rw [if_neg (by simp [hr])]
  rfl

end DPFC
