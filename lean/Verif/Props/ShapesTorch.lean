import Verif.Props.Shapes
import Verif.Lib.ShapeTorch
import Verif.Lib.FanStoch

/-!
# C53: array-valued diffusion coefficients, the runs of the torch class

`torchConstructG env g c` is the constructor with `g` an array of any shape; the recurrences are in
`Verif.Spec.ArraysTorch`.
-/

namespace DPFC
open NArr Spec

variable {ρ : Type} {d N M : ℕ}

private theorem grid_real {c : Cfg d N M ℝ} {grid : List ℝ} (hg : torchGrid c.t1 c.t2 = .ok grid) :
    grid = mkGrid c.t1 c.t2 := by
  unfold torchGrid at hg
  split at hg
  · cases hg
  · rw [torchPoints_real] at hg; exact (Except.ok.inj hg).symm

/-- **C53** (torch, deterministic, good shapes). If `g` broadcasts to `dim x N`, a successful run follows the
recurrences of C09, C10, C12 with the coefficient of each coordinate of each particle read off by broadcasting. -/
theorem C53_torch_good_shape_full_run (env : Env ρ ℝ) (g : NArr ℝ) (c : Cfg d N M ℝ) (hN : 0 < N)
    (hdet : c.deterministic = true) (hk : c.kern = "RBF" ∨ c.kern = "periodic")
    (hs : BroadcastsTo g.rshape [N, d]) (grid : List ℝ) (hg : torchGrid c.t1 c.t2 = .ok grid)
    (h2 : 2 ≤ grid.length) (hd : 3 ≤ grid.length → 2 ≤ d) (r r' : ρ)
    (o : Obj d N M ℝ) (h : torchConstructG env g c r = .ok (o, r')) :
    o.timegrid = grid ∧ o.Z.length = grid.length ∧ o.B.length = grid.length ∧
    ∃ rsF rsT rsB : ℕ → ρ,
      rsF 0 = r ∧
      TorchForwardRecA env c (coeff g d N) (fun i => o.Z[i]?) (fun i => grid[i]?) rsF ∧
      rsT 0 = rsF (grid.length - 1) ∧
      (∀ T, o.Ztr = some T → T.length = grid.length ∧ T[0]? = some (fun a _ => c.y1 a) ∧
        TorchTrueRecA env c (coeff g d N) (fun i => T[i]?) (fun i => grid[i]?) rsT) ∧
      (o.Ztr = none → rsT (grid.length - 1) = rsT 0) ∧
      rsB (grid.length - 2) = rsT (grid.length - 1) ∧
      TorchBackwardRecA env c (coeff g d N) grid.length (fun i => o.Z[i]?) (fun i => o.B[i]?)
        (fun i => grid[i]?) rsB ∧
      rsB 0 = r' := by
  rw [torchConstructG_lines env (isMat_coeff hs) c (fun _ => 0)] at h
  obtain ⟨ys, r1, zt, r2, bs, h1, hz, h3, rfl⟩ := (torchConstructA_det env _ _ c hdet grid hg h2 r r' o).1 h
  obtain rfl := grid_real hg
  obtain ⟨rsF, f0, f1, hF⟩ := torchOttoChainA_prefix env _ c hN _
    (fun h3 => hd (by rw [List.length_tail] at h3; omega)) (List.prefix_refl _) ys r r1 h1
  rw [List.length_tail] at f1
  have hZl : (pt N c.y1 :: ys).length = (mkGrid c.t1 c.t2).length := by
    have := chain_length h1
    rw [List.length_tail] at this
    rw [List.length_cons]; omega
  have hBl : bs.length = (mkGrid c.t1 c.t2).length - 2 := by
    rw [chain_length h3, visits_length hZl]
  obtain ⟨rsB, b0, b1, hB⟩ :=
    torchBackChainA_spec env _ c hN (effKern_rbf hk) (pt N c.y1 :: ys) bs _ hd r2 r' h2 hZl h3
  have hT : ∃ rsT : ℕ → ρ, rsT 0 = r1 ∧ rsT ((mkGrid c.t1 c.t2).length - 1) = r2 ∧
      (∀ T, zt = some T → T.length = (mkGrid c.t1 c.t2).length ∧ T[0]? = some (fun a _ => c.y1 a) ∧
        TorchTrueRecA env c (coeff g d N) (fun i => T[i]?) (fun i => (mkGrid c.t1 c.t2)[i]?) rsT) ∧
      (zt = none → r2 = r1) := by
    unfold torchTrueFlowA at hz
    split at hz
    · obtain ⟨us, ru, hu, hp⟩ := RandM.bind_ok.1 hz
      obtain ⟨rfl, rfl⟩ := RandM.pure_ok.1 hp
      obtain ⟨ft, hft⟩ : ∃ ft, c.fTrue = some ft := by
        cases hft : c.fTrue with
        | some ft => exact ⟨ft, rfl⟩
        | none =>
          exfalso
          obtain ⟨t1, ts, hts⟩ : ∃ t1 ts, (mkGrid c.t1 c.t2).tail = t1 :: ts :=
            List.exists_cons_of_ne_nil (by intro he; have := congrArg List.length he; simp at this; omega)
          rw [hts, chain] at hu
          obtain ⟨_, _, hu, _⟩ := RandM.bind_ok.1 hu
          unfold torchTrueSliceA at hu
          rw [hft] at hu
          cases hu
      have hul := chain_length hu
      obtain ⟨rsT, t0, t1, hT⟩ := torchTrueChainA_prefix env _ c hN hft _
        (fun h3 => hd (by rw [List.length_tail] at h3; omega)) (List.prefix_refl _) us r1 ru hu
      rw [List.length_tail] at t1 hul
      refine ⟨rsT, t0, t1, ?_, by intro h; cases h⟩
      rintro T hh; cases hh
      exact ⟨by rw [List.length_cons]; omega, rfl, hT⟩
    · obtain ⟨hz1, hz2⟩ := RandM.pure_ok.1 hz
      refine ⟨fun _ => r1, rfl, hz2, ?_, fun _ => hz2.symm⟩
      intro T hh; rw [← hz1] at hh; cases hh
  obtain ⟨rsT, t0, t1, hT1, hT2⟩ := hT
  refine ⟨rfl, hZl, by simp [hBl]; omega, rsF, rsT, rsB, f0, hF, by rw [t0]; exact f1.symm, hT1, ?_, ?_,
    hB, b1⟩
  · intro hn
    rw [t0]
    exact t1.trans (hT2 hn)
  · exact b0.trans t1.symm

/-- **C53** (torch, stochastic, good shapes). Unlike the numpy class, the torch class moves whole slices, so one
coefficient per coordinate is possible. -/
theorem C53_torch_stochastic_full_run (env : Env ρ ℝ) (g : NArr ℝ) (c : Cfg d N M ℝ) (hN : 0 < N) (hd : 2 ≤ d)
    (hdet : c.deterministic = false) (hk : c.kern = "RBF" ∨ c.kern = "periodic")
    (hs : BroadcastsTo g.rshape [N, d]) (grid : List ℝ) (hg : torchGrid c.t1 c.t2 = .ok grid)
    (h2 : 2 ≤ grid.length) (r r' : ρ)
    (o : Obj d N M ℝ) (h : torchConstructG env g c r = .ok (o, r')) :
    o.timegrid = grid ∧ o.Z.length = grid.length ∧ o.B.length = grid.length ∧
    ∃ rsF rsB : ℕ → ρ,
      rsF 0 = r ∧
      TorchStochRecA env c (coeff g d N) (fun i => o.Z[i]?) (fun i => grid[i]?) rsF ∧
      rsB (grid.length - 2) = rsF (grid.length - 1) ∧
      TorchBackwardRecA env c (coeff g d N) grid.length (fun i => o.Z[i]?) (fun i => o.B[i]?)
        (fun i => grid[i]?) rsB ∧
      rsB 0 = r' := by
  rw [torchConstructG_lines env (isMat_coeff hs) c (fun _ => 0)] at h
  obtain ⟨ys, r1, bs, h1, h3, rfl⟩ := (torchConstructA_stoch env _ _ c hdet grid hg h2 hd r r' o).1 h
  obtain rfl := grid_real hg
  have hZl : (stochInit N c.y1 :: ys).length = (mkGrid c.t1 c.t2).length := by
    have := chain_length h1
    rw [List.length_tail] at this
    rw [List.length_cons]; omega
  have hBl : bs.length = (mkGrid c.t1 c.t2).length - 2 := by
    rw [chain_length h3, visits_length hZl]
  obtain ⟨rsB, b0, b1, hB⟩ :=
    torchBackChainA_spec env _ c hN (effKern_rbf hk) (stochInit N c.y1 :: ys) bs _ (fun _ => hd) r1 r' h2 hZl h3
  obtain ⟨rsF, f0, f1, hF⟩ := torchStochChainA_spec env _ c hN ys r r1 h2 h1
  exact ⟨rfl, hZl, by simp [hBl]; omega, rsF, rsB, f0, hF, by rw [b0, f1], hB, b1⟩

/-- Non-vacuity: a constant `(2, 1)` array, both modes. -/
example (r : ℕ) :
    (∃ o r', torchConstructG exEnv ⟨[1, 2], fun _ => (exFan 2 5 3 10).g⟩ (exFan 2 5 3 10) r = .ok (o, r') ∧
      ∃ rs, TorchForwardRecA exEnv (exFan 2 5 3 10) (coeff ⟨[1, 2], fun _ => (exFan 2 5 3 10).g⟩ 2 5)
        (fun i => o.Z[i]?) (fun i => o.timegrid[i]?) rs) ∧
    (∃ o r', torchConstructG exEnv ⟨[1, 2], fun _ => (exFanS 2 5 3 10).g⟩ (exFanS 2 5 3 10) r = .ok (o, r') ∧
      ∃ rs, TorchStochRecA exEnv (exFanS 2 5 3 10) (coeff ⟨[1, 2], fun _ => (exFanS 2 5 3 10).g⟩ 2 5)
        (fun i => o.Z[i]?) (fun i => o.timegrid[i]?) rs) := by
  constructor
  · obtain ⟨o, r', h, hl⟩ := ex_torch 2 5 3 10 (by omega) (by omega) (by omega) r
    have hg := (torchConstruct_fields h).2.1
    rw [← (C53_constant_array exEnv [1, 2] (exFan 2 5 3 10) ((fits_iff _ _).1 rfl)).2] at h
    obtain ⟨_, _, _, rs, _, _, _, hF, _⟩ := C53_torch_good_shape_full_run exEnv _ (exFan 2 5 3 10) (by omega) rfl
      (.inl rfl) ((fits_iff _ _).1 rfl) _ hg (by omega) (fun _ => le_rfl) r r' o h
    exact ⟨o, r', h, rs, hF⟩
  · obtain ⟨o, r', h, hl⟩ := ex_torch_stoch exEnv 2 5 3 10 (by omega) (by omega) (by omega) r
    have hg := (torchConstruct_fields h).2.1
    rw [← (C53_constant_array exEnv [1, 2] (exFanS 2 5 3 10) ((fits_iff _ _).1 rfl)).2] at h
    obtain ⟨_, _, _, rs, _, _, hF, _⟩ := C53_torch_stochastic_full_run exEnv _ (exFanS 2 5 3 10) (by omega) le_rfl rfl
      (.inl rfl) ((fits_iff _ _).1 rfl) _ hg (by omega) r r' o h
    exact ⟨o, r', h, rs, hF⟩

end DPFC
