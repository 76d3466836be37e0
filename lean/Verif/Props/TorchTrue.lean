import Verif.Lib.TorchTrue
import Verif.Props.TorchVerdict
import Verif.Props.Recurrence
import Verif.Props.Draws

/-!
# C12, C64: the true-drift flow of the torch class
-/

namespace DPFC
open Spec

section
variable {ρ : Type} {d N M : ℕ}

/-- **C12** (torch). In deterministic Brownian-bridge reweighting mode the additional flow follows the true drift,
starting where the forward flow left the random stream, and without reweighting; but the score that is subtracted has
coordinates and particles exchanged (`SwappedScore`). -/
theorem C12_torch_true_flow (env : Env ρ ℝ) (c : Cfg d N M ℝ) (hN : 0 < N) (hd : 0 < d)
    (hdet : c.deterministic = true) (r r' : ρ) (o : Obj d N M ℝ)
    (h : torchConstruct env c r = .ok (o, r')) (h2 : 2 ≤ o.timegrid.length) (T : Traj d N ℝ) (hT : o.Ztr = some T) :
    ∃ rsF rsT : ℕ → ρ, rsF 0 = r ∧ TorchForwardRec env c (fun i => o.Z[i]?) (fun i => o.timegrid[i]?) rsF ∧
      rsT 0 = rsF (o.timegrid.length - 1) ∧
      T.length = o.timegrid.length ∧ T[0]? = some (fun a _ => c.y1 a) ∧
      TorchTrueRec env c (fun i => T[i]?) (fun i => o.timegrid[i]?) rsT := by
  obtain ⟨_, hg, hg'⟩ := torchConstruct_fields h
  rw [torchPoints_real] at hg'
  obtain ⟨ys, r1, zt, r2, bs, h1, hz, h3, ho⟩ := (torchConstruct_det_iff env c hdet _ hg h2 r r' o).1 h
  have hzt : zt = some T := by rw [← hT, ho]
  have hd3 := torch_two_dims hd h
  rw [hg'] at h1 h2 hz hd3
  obtain ⟨rsF, f0, f1, hF⟩ := torchOttoChain_spec' env c hN hd3 ys r r1 h1
  unfold torchTrueFlow at hz
  split at hz
  · obtain ⟨us, ru, hu, hh⟩ := RandM.bind_ok.1 hz
    have hTe : pt N c.y1 :: us = T := Option.some.inj ((RandM.pure_ok.1 hh).1.trans hzt)
    have hlen := chain_length hu
    rw [List.length_tail] at hlen
    obtain ⟨ft, hft⟩ : ∃ ft, c.fTrue = some ft := by
      cases hft : c.fTrue with
      | some ft => exact ⟨ft, rfl⟩
      | none =>
        exfalso
        obtain ⟨t1, ts, hts⟩ : ∃ t1 ts, (mkGrid c.t1 c.t2).tail = t1 :: ts :=
          List.exists_cons_of_ne_nil (by intro he; have := congrArg List.length he; simp at this; omega)
        rw [hts, chain] at hu
        obtain ⟨_, _, hu, _⟩ := RandM.bind_ok.1 hu
        unfold torchTrueSlice at hu
        rw [hft] at hu
        cases hu
    obtain ⟨rsT, t0, _, hrec⟩ := torchTrueChain_prefix' env c hN hft _
      (fun h3 => hd3 (by rw [List.length_tail] at h3; omega)) (List.prefix_refl _) us r1 ru hu
    refine ⟨rsF, rsT, f0, ?_, ?_, ?_, ?_, ?_⟩
    · rw [show o.Z = pt N c.y1 :: ys by rw [ho], hg']; exact hF
    · rw [t0, hg', f1]
    · rw [← hTe, hg', List.length_cons]; omega
    · rw [← hTe]; rfl
    · rw [← hTe, hg']; exact hrec
  · exact absurd ((RandM.pure_ok.1 hz).1.trans hzt) (by simp)

/-- **C64** (meaning of the ValueError, deterministic mode). If construction fails although the table says that it
returns, then an initial part of the forward flow, or of the true-drift flow after a complete forward flow, ends in a
cloud without spread in some coordinate. -/
theorem C64_bridge_value_error (env : Env ρ ℝ) (c : Cfg d N M ℝ) (hN : 0 < N) (hd : 0 < d)
    (hE : c.reweight = true → EmdTotal env) (hdet : c.deterministic = true)
    (grid : List ℝ) (hg : torchGrid c.t1 c.t2 = .ok grid) (hv : torchVerdict grid.length c = none) (r : ρ)
    (e : PyErr) (h : torchConstruct env c r = .error e) :
    LosesSpread env c grid r ∨ ((c.reweight && c.brownBridge) = true ∧ LosesSpreadTrue env c grid r) := by
  by_cases hbb : (c.reweight && c.brownBridge) = false
  · exact .inl (C64_value_error_means_no_spread env c hN hd hE hdet hbb grid hg hv r e h)
  rw [Bool.not_eq_false] at hbb
  have hv0 := hv
  unfold torchVerdict at hv
  rw [if_pos hdet] at hv
  split at hv
  · cases hv
  split at hv
  · rename_i h0 h1
    obtain ⟨t0, ht⟩ := List.length_eq_one_iff.1 h1
    rw [torchConstruct_det_single env c hdet t0 (by rw [hg, ht])] at h
    cases h
  rename_i h0 h1
  have hk : 2 ≤ grid.length := by omega
  split at hv
  · cases hv
  rename_i hA
  have hU : c.reweight = true → c.U.isNone = false ∧ EmdTotal env := fun hr =>
    ⟨by
      cases hx : c.U.isNone with
      | false => rfl
      | true => exact absurd ⟨hr, hx⟩ hA, hE hr⟩
  split at hv
  · cases hv
  rename_i hB
  split at hv
  · cases hv
  rename_i hC
  split at hv
  · cases hv
  rename_i hD
  obtain rfl := tv_grid_eq hg
  have h3 : 3 ≤ (mkGrid c.t1 c.t2).length := by
    by_contra h3
    rcases C64_torch_verdict env c hN hd hE _ hg r with hh | hh
    · rw [hv0] at hh
      obtain ⟨_, _, hh⟩ := hh
      rw [hh] at h; cases h
    · exact h3 hh.1
  have hd' : 2 ≤ d := by
    by_contra hn
    exact hD ⟨h3, .inl (by omega)⟩
  have hkern : 3 ≤ (mkGrid c.t1 c.t2).length → KnownKernel c.kern := by
    intro h3
    by_contra hn
    exact hD ⟨h3, .inr hn⟩
  have hbb' := hbb
  rw [Bool.and_eq_true] at hbb'
  obtain ⟨ft, hft⟩ : ∃ ft, c.fTrue = some ft := by
    cases hft : c.fTrue with
    | some ft => exact ⟨ft, rfl⟩
    | none => exact absurd ⟨hbb'.1, hbb'.2, by rw [hft]; rfl⟩ hB
  have hsh : BridgeShapes d N M := by
    by_contra hn
    exact hC ⟨h3, hbb'.1, hbb'.2, hn⟩
  rw [torchConstruct_det_eq env c hdet _ hg hk, RandM.bind_app] at h
  have htail := List.length_tail (l := mkGrid c.t1 c.t2)
  rcases hF : chain (torchOttoSlice env c) 1 (mkGrid c.t1 c.t2).tail (pt N c.y1) r with e' | ⟨ys, r1⟩
  · left
    obtain ⟨pre, t, post, ys, r', y, hts, h2, hy, h4⟩ := chain_error _ _ _ _ hF
    obtain ⟨hne, a, ha⟩ := tv_slice_error env c hN hd' hU _ _ _ _ h4
    obtain ⟨rs, hr0, _, hrec⟩ := torchOttoChain_prefix env c hN hd' pre (by rw [hts]; exact List.prefix_append _ _)
      ys r r' h2
    have hlen := chain_length h2
    have hl : pre.length + 1 ≤ (mkGrid c.t1 c.t2).length - 1 := by
      rw [← htail, hts]; simp
    refine ⟨pre.length, _, rs, by omega, by omega, rfl, hr0, fun j hj => ?_, hrec, y, a, hy, ha⟩
    exact ⟨_, List.getElem?_eq_getElem (by simp; omega)⟩
  · rw [hF] at h
    have hlen := chain_length hF
    obtain ⟨rs, hr0, hr1, hrec⟩ := torchOttoChain_prefix env c hN hd' _ (List.prefix_refl _) ys r r1 hF
    simp only [torchTrueFlow, hbb, if_true, bind_assoc, pure_bind] at h
    rw [RandM.bind_app] at h
    rcases hT : chain (torchTrueSlice env c) 1 (mkGrid c.t1 c.t2).tail (pt N c.y1) r1 with e' | ⟨us, r2⟩
    · right
      refine ⟨hbb, ?_⟩
      obtain ⟨pre, t, post, us, r', y, hts, h2, hy, h4⟩ := chain_error _ _ _ _ hT
      have hl : pre.length + 1 ≤ (mkGrid c.t1 c.t2).length - 1 := by
        rw [← htail, hts]; simp
      have hlu := chain_length h2
      obtain ⟨rsT, ht0, _, hrecT⟩ := torchTrueChain_prefix env c hN hd' hft pre
        (by rw [hts]; exact List.prefix_append _ _) us r1 r' h2
      have hne : 1 + pre.length ≠ 1 := by
        intro he
        unfold torchTrueSlice at h4
        rw [hft] at h4
        simp only [if_pos he, noisyStep_real] at h4
        cases h4
      obtain ⟨a, ha⟩ : ∃ a, ∀ n n', y a n = y a n' := by
        rcases tv_flat_or_spread y with hs | hs
        · exfalso
          unfold torchTrueSlice at h4
          rw [hft] at h4
          simp only [if_neg hne] at h4
          unfold torchTrueStep torchFSeperateTrue at h4
          rw [torchBox_real hN] at h4
          simp only [RandM.liftM_ok, pure_bind, bind_assoc] at h4
          rw [RandM.bind_app] at h4
          have := torchInducing_real env (fun a => (lo (y a), hi (y a))) (M := M) r' hs
          rw [this] at h4
          simp only at h4
          obtain ⟨v, hv⟩ := torchTrueScore_tot hd hsh y (tinducing (fun a => lo (y a)) (fun a => hi (y a))
            (tunifs env d M r'))
          first
          | (rw [show torchTrueScore y _ = .ok v from hv] at h4; cases h4)
          | (erw [hv] at h4; cases h4)
        · exact hs
      refine ⟨pre.length, _, _, rs, rsT, by omega, by omega, rfl, hr0, fun j hj => ?_, hrec, rfl, ?_,
        fun j hj => ?_, hrecT, y, a, hy, ha⟩
      · exact ⟨_, List.getElem?_eq_getElem (by simp; omega)⟩
      · rw [ht0, ← hr1, htail]
      · exact ⟨_, List.getElem?_eq_getElem (by simp; omega)⟩
    · left
      rw [hT] at h
      simp only [RandM.bind_app] at h
      rcases hB : chain (torchBack env c) 1 (visits (pt N c.y1 :: ys) (mkGrid c.t1 c.t2)) (pt N c.y2) r2
        with e' | ⟨bs, r3⟩
      · obtain ⟨i, x, a, hi2, hil, hx, ha⟩ := tv_backChain_error env c hN hd' hkern (pt N c.y1 :: ys)
          (by simp only [List.length_cons]; omega) _ _ hB
        refine ⟨i, _, rs, by omega, hil, rfl, hr0, fun j hj => ?_, hrec, x, a, hx, ha⟩
        exact ⟨_, List.getElem?_eq_getElem (by simp; omega)⟩
      · rw [hB] at h; cases h

end

/-- A configuration on which the Brownian-bridge mode of the torch class runs: as many particles and inducing points as
dimensions, both drifts push particle `n` with speed `n`, no noise. -/
noncomputable def exFanBridge (d steps : ℕ) : Cfg d d d ℝ :=
  { exCfg d d d steps true true true with f := fanDrift d d, fTrue := some (fanDrift d d), g := 0 }

private theorem fan_step {ρ : Type} {d : ℕ} (env : Env ρ ℝ) (y1 : Fin d → ℝ) (i : ℕ) (x : Fin d → Fin d → ℝ)
    (hx : x = fun a n => y1 a + i / 1000 * n.val) (f : Drift d d ℝ) (hf : f = fanDrift d d) (t : ℝ) (r r' : ρ)
    (y : Fin d → Fin d → ℝ) :
    (TorchForwardStep env d f 0 i t x y r r' → y = fun a n => y1 a + (i + 1 : ℕ) / 1000 * n.val) ∧
    (TorchTrueStep env d f 0 i t x y r r' → y = fun a n => y1 a + (i + 1 : ℕ) / 1000 * n.val) := by
  subst hf
  constructor
  · rintro ⟨h0, h1⟩
    by_cases hi : i = 0
    · rw [(h0 hi).1, hx, hi]
      funext a n
      simp [noisy, fanDrift]
    · rw [(h1 hi).2.2, hx]
      funext a n
      simp [fanDrift]
      ring
  · rintro ⟨h0, h1⟩
    by_cases hi : i = 0
    · rw [(h0 hi).1, hx, hi]
      funext a n
      simp [noisy, fanDrift]
    · funext a n
      obtain ⟨w, _, hw⟩ := (h1 hi).2.2 a n
      rw [hw, hx]
      simp [fanDrift]
      ring

private theorem fan_flow {ρ : Type} {d : ℕ} (env : Env ρ ℝ)
    (he : ∀ n (a b : Fin n → ℝ) D, env.emd a b D = .ok fun i j => if i = j then 1 / n else 0) (hd : 2 ≤ d) (steps : ℕ) (grid : List ℝ) (Z : ℕ → Option (Fin d → Fin d → ℝ)) (rs : ℕ → ρ)
    (h0 : Z 0 = some (fun a _ => (exFanBridge d steps).y1 a)) (i : ℕ) (hi : i < grid.length)
    (hz : ∀ j ≤ i, ∃ x, Z j = some x)
    (hrec : TorchForwardRec env (exFanBridge d steps) Z (fun j => grid[j]?) rs ∨
      TorchTrueRec env (exFanBridge d steps) Z (fun j => grid[j]?) rs) :
    Z i = some fun a n => (exFanBridge d steps).y1 a + i / 1000 * n.val := by
  induction i with
  | zero => rw [h0]; simp
  | succ i ih =>
    have hx := ih (by omega) fun j hj => hz j (by omega)
    obtain ⟨y, hy⟩ := hz (i+1) le_rfl
    have ht : grid[i]? = some grid[i] := List.getElem?_eq_getElem _
    rcases hrec with hrec | ⟨f, hf, hrec⟩
    · obtain ⟨raw, hs, _, hw⟩ := hrec i _ y _ hx hy ht
      have hraw := (fan_step env _ i _ rfl _ rfl _ _ _ _).1 hs
      obtain ⟨U, _, htr⟩ := hw rfl
      have hsp : ∃ n m, sqdist raw n m ≠ 0 := by
        refine ⟨⟨0, by omega⟩, ⟨1, by omega⟩, ne_of_gt ?_⟩
        unfold sqdist
        refine Finset.sum_pos (fun a _ => ?_) ⟨⟨0, by omega⟩, Finset.mem_univ _⟩
        rw [hraw]
        have : ((i + 1 : ℕ) : ℝ) ≠ 0 := by positivity
        have : ((i + 1 : ℕ) : ℝ) / 1000 ≠ 0 := by positivity
        simp only [Nat.cast_zero, mul_zero, add_zero, Nat.cast_one, mul_one]
        rw [show ∀ p q : ℝ, p - (p + q) = -q from fun p q => by ring]
        exact (sq_pos_iff (a := _)).2 (neg_ne_zero.2 this)
      obtain ⟨T, hT, hy'⟩ := htr hsp
      have hT' : T = fun i j => if i = j then 1 / (d : ℝ) else 0 := by rw [he] at hT; exact (Except.ok.inj hT).symm
      rw [hy, ← hraw]
      congr 1
      funext a n
      rw [hy' a n, hT']
      have hdR : (d : ℝ) ≠ 0 := by positivity
      simp only [mul_ite, mul_zero, Finset.sum_ite_eq', Finset.mem_univ, if_true]
      field_simp
    · have hs := hrec i _ y _ hx hy ht
      have hf' : f = fanDrift d d := (Option.some.inj hf).symm
      rw [hy, (fan_step env _ i _ rfl f hf' _ _ _ _).2 hs]

/-- The Brownian-bridge mode of the torch class runs on this configuration, for every dimension from 2 on and every
horizon: the hypotheses of `C12_torch_true_flow` are met, and those of `C64_bridge_value_error` are not contradictory
with its conclusion being false. -/
theorem ex_torch_bridge {ρ : Type} (env : Env ρ ℝ)
    (he : ∀ n (a b : Fin n → ℝ) D, env.emd a b D = .ok fun i j => if i = j then 1 / n else 0)
    (d steps : ℕ) (hd : 2 ≤ d) (hs : 0 < steps) (r : ρ) :
    ∃ o r' T, torchConstruct env (exFanBridge d steps) r = .ok (o, r') ∧ o.timegrid.length = steps + 1 ∧
      o.Ztr = some T := by
  have hg : torchGrid (exFanBridge d steps).t1 (exFanBridge d steps).t2
      = .ok (mkGrid (exFanBridge d steps).t1 (exFanBridge d steps).t2) :=
    exCfg_torchGrid d d d steps true true true
  have hl : (mkGrid (exFanBridge d steps).t1 (exFanBridge d steps).t2).length = steps + 1 :=
    exCfg_grid d d d steps true true true
  have hv : torchVerdict (mkGrid (exFanBridge d steps).t1 (exFanBridge d steps).t2).length (exFanBridge d steps)
      = none := by
    unfold torchVerdict
    rw [hl, if_neg (by omega)]
    simp [exFanBridge, exCfg, KnownKernel, BridgeShapes]
    omega
  have key : ∀ (Z : ℕ → Option (Fin d → Fin d → ℝ)) (rs : ℕ → ρ) (i : ℕ), 1 ≤ i → i < steps + 1 →
      Z 0 = some (fun a _ => (exFanBridge d steps).y1 a) → (∀ j ≤ i, ∃ x, Z j = some x) →
      (TorchForwardRec env (exFanBridge d steps) Z
          (fun j => (mkGrid (exFanBridge d steps).t1 (exFanBridge d steps).t2)[j]?) rs ∨
        TorchTrueRec env (exFanBridge d steps) Z
          (fun j => (mkGrid (exFanBridge d steps).t1 (exFanBridge d steps).t2)[j]?) rs) →
      ¬ ∃ x a, Z i = some x ∧ ∀ n n', x a n = x a n' := by
    rintro Z rs i h1 h2 h0 hz hrec ⟨x, a, hx, hc⟩
    rw [fan_flow env he hd steps _ Z rs h0 i (by rw [hl]; exact h2) hz hrec] at hx
    rw [← Option.some.inj hx] at hc
    have := hc ⟨0, by omega⟩ ⟨1, by omega⟩
    have hi : (0:ℝ) < i := by exact_mod_cast h1
    simp at this
    omega
  rcases h : torchConstruct env (exFanBridge d steps) r with e | ⟨o, r'⟩
  · exfalso
    rcases C64_bridge_value_error env (exFanBridge d steps) (by omega) (by omega)
      (fun _ => by intro n a b M; exact ⟨_, he n a b M⟩) rfl _ hg hv r e h with hh | ⟨_, hh⟩
    · obtain ⟨i, Z, rs, h1, h2, h0, _, hz, hrec, hc⟩ := hh
      exact key Z rs i h1 (by rw [← hl]; exact h2) h0 hz (.inl hrec) hc
    · obtain ⟨i, _, Z, _, rs, h1, h2, _, _, _, _, h0, _, hz, hrec, hc⟩ := hh
      exact key Z rs i h1 (by rw [← hl]; exact h2) h0 hz (.inr hrec) hc
  · obtain ⟨_, hgo, hgo'⟩ := torchConstruct_fields h
    rw [torchPoints_real] at hgo'
    have hlo : o.timegrid.length = steps + 1 := by rw [hgo', hl]
    obtain ⟨ys, r1, zt, r2, bs, h1, hz, h3, ho⟩ :=
      (torchConstruct_det_iff env (exFanBridge d steps) rfl _ hgo (by omega) r r' o).1 h
    unfold torchTrueFlow at hz
    rw [if_pos (show ((exFanBridge d steps).reweight && (exFanBridge d steps).brownBridge) = true from rfl)] at hz
    obtain ⟨us, ru, hu, hh⟩ := RandM.bind_ok.1 hz
    exact ⟨o, r', _, rfl, hlo, by rw [ho]; exact (RandM.pure_ok.1 hh).1.symm⟩

example : ∃ o r' T rsT, torchConstruct exEnv (exFanBridge 3 50) 0 = .ok (o, r') ∧ o.Ztr = some T ∧
    TorchTrueRec exEnv (exFanBridge 3 50) (fun i => T[i]?) (fun i => o.timegrid[i]?) rsT := by
  obtain ⟨o, r', T, h, hl, hT⟩ := ex_torch_bridge exEnv (fun _ _ _ _ => rfl) 3 50 (by norm_num) (by norm_num) 0
  obtain ⟨_, rsT, _, _, _, _, _, hrec⟩ := C12_torch_true_flow exEnv _ (by norm_num) (by norm_num) rfl 0 r' o h
    (by omega) T hT
  exact ⟨o, r', T, rsT, h, hT, hrec⟩

/-- The hypotheses of `C15_torch_draw_budget_bridge` are met: 3 dimensions, particles and inducing points, 51 grid points
need 27 normals and 1755 uniforms. -/
example : ∃ o r', torchConstruct countEnv (exFanBridge 3 50) (0, 0) = .ok (o, r') ∧ r' = (27, 1755) := by
  obtain ⟨o, r', T, h, hl, hT⟩ := ex_torch_bridge countEnv (fun _ _ _ _ => rfl) 3 50 (by norm_num) (by norm_num) (0, 0)
  have := C15_torch_draw_budget_bridge countEnv_counters _ rfl rfl rfl _ r' o h 51 hl (by norm_num)
  exact ⟨o, r', h, Prod.ext this.1 this.2⟩

end DPFC
