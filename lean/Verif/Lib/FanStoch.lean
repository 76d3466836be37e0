import Verif.Lib.Examples

/-! A stochastic torch construction that succeeds (for non-vacuity). -/

namespace DPFC
open Spec
variable {ρ : Type} {d N M : ℕ}

/-- Without noise and with the fan drift the stochastic mode of the torch class constructs, for every horizon, dimension
and particle number at least two. -/
theorem torch_fan_stoch_total (env : Env ρ ℝ) (c : Cfg d N M ℝ) (hd : 2 ≤ d) (hN : 2 ≤ N)
    (hg : c.g = 0) (hf : c.f = fanDrift d N) (hr : c.reweight = false) (hk : c.kern = "RBF")
    (hdet : c.deterministic = false) (grid : List ℝ) (hgrid : torchGrid c.t1 c.t2 = .ok grid)
    (h2 : 2 ≤ grid.length) : Total (torchConstruct env c) := by
  have hek : effKern c.kern = "RBF" := by rw [hk]; rfl
  intro r
  let Inv : Nat → Mat d N ℝ → Prop := fun i x => 1 ≤ i ∧
    (i ≠ 1 → ∀ a, ∃ n n', n.val < n'.val ∧ x a n < x a n') ∧
    (∀ a n n', n.val < n'.val → x a n ≤ x a n')
  have hstep : ∀ (i : Nat) (t : ℝ) (x : Mat d N ℝ), True → Inv i x → ∀ r, ∃ y r',
      torchStochSlice env c i t x r = .ok (y, r') ∧ Inv (i+1) y := by
    intro i t x _ hx r
    have key : Inv (i+1) (fun a n => x a n + 1/1000 * (n.val : ℝ)) := by
      refine ⟨by omega, fun _ a => ⟨⟨0, by omega⟩, ⟨1, by omega⟩, by simp, ?_⟩, ?_⟩
      · have := hx.2.2 a ⟨0, by omega⟩ ⟨1, by omega⟩ (by simp)
        norm_num
        linarith
      · intro a n n' hn
        have := hx.2.2 a n n' hn
        have hc : (n.val : ℝ) ≤ n'.val := by exact_mod_cast hn.le
        show x a n + 1/1000 * (n.val : ℝ) ≤ x a n' + 1/1000 * (n'.val : ℝ)
        linarith
    unfold torchStochSlice
    simp only [hr, Bool.false_eq_true, if_false, bind_pure, noisyStep_real, hg, hf,
        fanDrift, zero_mul, add_zero]
    exact ⟨_, _, rfl, key⟩
  have hsub : 0 < grid.length := by omega
  obtain ⟨ys, r1, h1, hys⟩ := chain_total_inv (step := torchStochSlice env c) Inv (fun _ => True)
    hstep grid.tail 1 (stochInit N c.y1) r (by simp)
    ⟨le_refl 1, fun h => absurd rfl h, fun _ _ _ _ => le_refl _⟩
  have hback : ∀ (i : Nat) (zt : Mat d N ℝ × ℝ) (b : Mat d N ℝ),
      (∀ a, lo (zt.1 a) < Spec.hi (zt.1 a)) → True → ∀ r, ∃ y r',
        torchBack env c i zt b r = .ok (y, r') ∧ True := by
    intro i zt b hz _ r
    unfold torchBack backStep
    rw [hek]
    obtain ⟨s, r', h⟩ := torchDensityAt_total (M := M) env (by omega) hd zt.1 b r hz
    rw [RandM.bind_app, h]
    simp only
    split
    · rw [RandM.bind_app, normalMat_real]
      exact ⟨_, _, rfl, trivial⟩
    · obtain ⟨s', r'', h'⟩ := torchBwDensityAt_total (M := M) env (by omega) hd "RBF" zt.1 b r' hz
      rw [RandM.bind_app, h']
      exact ⟨_, _, rfl, trivial⟩
  obtain ⟨bs, r2, h3, _⟩ := chain_total_inv (step := torchBack env c) (fun _ _ => True)
    (fun zt => ∀ a, lo (zt.1 a) < Spec.hi (zt.1 a)) hback (visits (stochInit N c.y1 :: ys) grid) 1
    (pt N c.y2) r1 (by
      intro zt hzt a
      obtain ⟨z, t⟩ := zt
      have hm : (z, t) ∈ ((stochInit N c.y1 :: ys).zip grid).drop 1 := by
        have : (z, t) ∈ (((stochInit N c.y1 :: ys).zip grid).drop 1).drop 1 := by
          rw [List.drop_drop]
          exact List.mem_reverse.1 hzt
        exact List.mem_of_mem_drop this
      obtain ⟨t0, ts, rfl⟩ : ∃ t0 ts, grid = t0 :: ts := by
        match grid, hsub with
        | a :: l, _ => exact ⟨a, l, rfl⟩
      have hz : z ∈ ys := by
        simp only [List.zip_cons_cons, List.drop_succ_cons, List.drop_zero] at hm
        exact (List.of_mem_zip hm).1
      obtain ⟨j, hj, hI⟩ := hys z hz
      obtain ⟨n, n', _, h⟩ := hI.2.1 (by omega) a
      exact lo_lt_hi _ n n' h) trivial
  exact ⟨_, r2, (torchConstruct_stoch_iff env c hdet grid hgrid h2 hd r r2 _).2 ⟨ys, r1, bs, h1, h3, rfl⟩⟩

/-- The stochastic torch example: no noise, particles fan out. -/
noncomputable def exFanS (d N M steps : ℕ) : Cfg d N M ℝ :=
  { exCfg d N M steps false false false with f := fanDrift d N, g := 0 }

/-- The stochastic torch example constructs. -/
theorem ex_torch_stoch (env : Env ρ ℝ) (d N M steps : ℕ) (hN : 2 ≤ N) (hd : 2 ≤ d) (hs : 0 < steps) (r : ρ) :
    ∃ o r', torchConstruct env (exFanS d N M steps) r = .ok (o, r')
      ∧ o.timegrid.length = steps + 1 := by
  have hg : torchGrid (exFanS d N M steps).t1 (exFanS d N M steps).t2
      = .ok (mkGrid (exFanS d N M steps).t1 (exFanS d N M steps).t2) :=
    exCfg_torchGrid d N M steps false false false
  have hl : (mkGrid (exFanS d N M steps).t1 (exFanS d N M steps).t2).length = steps + 1 :=
    exCfg_grid d N M steps false false false
  obtain ⟨o, r', h⟩ := torch_fan_stoch_total env (exFanS d N M steps) hd hN rfl rfl rfl rfl rfl _ hg
    (by rw [hl]; omega) r
  exact ⟨o, r', h, by rw [(torchConstruct_fields h).2.2, torchPoints_real, hl]⟩

end DPFC
