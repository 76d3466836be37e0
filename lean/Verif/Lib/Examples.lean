import Verif.Lib.GridReal
import Verif.Lib.FlowReal
import Verif.Lib.TorchReal
import Verif.Lib.Obj

/-! Concrete constructions that succeed, used to show that the hypotheses of the theorems can be
met. -/

namespace DPFC

theorem exEnv_total : EmdTotal exEnv := fun n _ _ _ => ⟨fun i j => if i = j then 1 / n else 0, rfl⟩

/-- The deterministic numpy example constructs, in all modes. -/
theorem ex_det (d N M steps : ℕ) (rw bb : Bool) (hN : 0 < N) (hs : 0 < steps) (r : ℕ) :
    ∃ o r', construct exEnv (exCfg d N M steps true rw bb) r = .ok (o, r')
      ∧ o.timegrid.length = steps + 1 := by
  obtain ⟨o, r', h⟩ := construct_det_total exEnv (exCfg d N M steps true rw bb) hN rfl
    (by rw [exCfg_grid]; omega) rfl (fun _ => ⟨by simp [exCfg], exEnv_total⟩)
    (fun _ _ => by simp [exCfg]) r
  exact ⟨o, r', h, by rw [(construct_fields h).2, exCfg_grid]⟩

/-- The stochastic numpy example constructs. -/
theorem ex_stoch (d N M steps : ℕ) (bb : Bool) (hN : 0 < N) (hd : 2 ≤ d) (hs : 0 < steps) (r : ℕ) :
    ∃ o r', construct exEnv (exCfg d N M steps false false bb) r = .ok (o, r')
      ∧ o.timegrid.length = steps + 1 := by
  obtain ⟨o, r', h⟩ := construct_stoch_total exEnv (exCfg d N M steps false false bb) hN hd rfl
    (by rw [exCfg_grid]; omega) rfl rfl (by simp [exCfg]) r
  exact ⟨o, r', h, by rw [(construct_fields h).2, exCfg_grid]⟩

/-- The torch example: no noise, particles fan out. -/
noncomputable def exFan (d N M steps : ℕ) : Cfg d N M ℝ :=
  { exCfg d N M steps true false false with f := fanDrift d N, g := 0 }

/-- The deterministic torch example constructs. -/
theorem ex_torch (d N M steps : ℕ) (hN : 2 ≤ N) (hd : 2 ≤ d) (hs : 0 < steps) (r : ℕ) :
    ∃ o r', torchConstruct exEnv (exFan d N M steps) r = .ok (o, r')
      ∧ o.timegrid.length = steps + 1 := by
  have hg : torchGrid (exFan d N M steps).t1 (exFan d N M steps).t2
      = .ok (mkGrid (exFan d N M steps).t1 (exFan d N M steps).t2) :=
    exCfg_torchGrid d N M steps true false false
  have hl : (mkGrid (exFan d N M steps).t1 (exFan d N M steps).t2).length = steps + 1 :=
    exCfg_grid d N M steps true false false
  obtain ⟨o, r', h⟩ := torch_fan_total exEnv (exFan d N M steps) hd hN rfl rfl rfl rfl rfl _ hg
    (by rw [hl]; omega) r
  exact ⟨o, r', h, by rw [(torchConstruct_fields h).2.2, torchPoints_real, hl]⟩

end DPFC
