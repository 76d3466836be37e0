import Verif.Lib.Comp
import Verif.Props.Reweight
import Verif.Props.TorchFail

/-!
# C34: whole runs with a constraint that does not distinguish particles
-/

namespace DPFC
open Spec

variable {ρ : Type} {d N M : ℕ}

theorem sameOutcome_bind_pure {α : Type} {K : Type} (m : RandM ρ α) (f g : α → Obj d N M K)
    (h : ∀ a, SameFlows (f a) (g a)) (r : ρ) :
    SameOutcome ((m >>= fun a => pure (f a)) r) ((m >>= fun a => pure (g a)) r) := by
  rw [RandM.bind_app, RandM.bind_app]
  cases m r with
  | error e => rfl
  | ok p => exact ⟨h p.1, rfl⟩

/-- **C34** (whole run, numpy, both modes). Without Brownian bridge, at least two grid points, an optimal solver and a
constraint that never distinguishes particles: `reweight=True` has exactly the outcome of `reweight=False` - the same
flows and random state, or the same exception. (In stochastic mode the constraint is called without time.) -/
theorem C34_same_outcome (env : Env ρ ℝ) (hs : SolverOptimal env) (hN : 0 < N) (c : Cfg d N M ℝ)
    (U : Constraint d N ℝ) (hU : c.deterministic = true → ∀ x t n m, U.call2 x t n = U.call2 x t m)
    (hU1 : c.deterministic = false → 2 ≤ d ∧ ∃ u, U.call1 = some u ∧ ∀ x n m, u x n = u x m)
    (hb : c.brownBridge = false) (hk : 2 ≤ (mkGrid c.t1 c.t2).length) (r : ρ) :
    SameOutcome (construct env ({ c with reweight := true, U := some U } : Cfg d N M ℝ) r)
      (construct env ({ c with reweight := false } : Cfg d N M ℝ) r) := by
  rcases Bool.eq_false_or_eq_true c.deterministic with hdet | hdet
  · have hslice : ottoSlice env ({ c with reweight := true, U := some U } : Cfg d N M ℝ)
        = ottoSlice env ({ c with reweight := false } : Cfg d N M ℝ) := by
      funext i t x
      rw [ottoSlice_bind, ottoSlice_bind]
      simp only [if_true, Bool.false_eq_true, if_false]
      congr 1
      funext raw
      rw [C34_constant_constraint env hs hN U raw t (hU hdet raw t)]
      rfl
    rw [construct_det_eq env ({ c with reweight := true, U := some U } : Cfg d N M ℝ) hdet hk,
      construct_det_eq env ({ c with reweight := false } : Cfg d N M ℝ) hdet hk, hslice]
    have ht : ∀ g, trueFlow env ({ c with reweight := true, U := some U } : Cfg d N M ℝ) g = pure none := by
      intro g; simp [trueFlow, hb]
    have ht' : ∀ g, trueFlow env ({ c with reweight := false } : Cfg d N M ℝ) g = pure none := by
      intro g; simp [trueFlow]
    simp only [ht, ht', pure_bind]
    rw [show (npBack env ({ c with reweight := true, U := some U } : Cfg d N M ℝ))
      = npBack env ({ c with reweight := false } : Cfg d N M ℝ) from rfl]
    have key : ∀ (m : RandM ρ (Traj d N ℝ)) (h : Traj d N ℝ → RandM ρ (Traj d N ℝ)) (f : Traj d N ℝ → Traj d N ℝ → Obj d N M ℝ),
        (m >>= fun ys => h ys >>= fun bs => pure (f ys bs))
          = ((m >>= fun ys => h ys >>= fun bs => pure (ys, bs)) >>= fun p => pure (f p.1 p.2)) := by
      intro m h f
      simp only [bind_assoc, pure_bind]
    rw [key, key]
    refine sameOutcome_bind_pure _ _ _ ?_ r
    intro p
    exact ⟨rfl, rfl, rfl, rfl⟩
  · obtain ⟨hd, u, hu, hc⟩ := hU1 hdet
    have hslice : stochSlice env ({ c with reweight := true, U := some U } : Cfg d N M ℝ)
        = stochSlice env ({ c with reweight := false } : Cfg d N M ℝ) := by
      funext i t x
      unfold stochSlice
      simp only [if_true, Bool.false_eq_true, if_false]
      refine congrArg _ (funext fun raw => ?_)
      rw [C34_constant_stochastic env hs hN U u hu raw (hc raw)]
      rfl
    rw [construct_stoch_eq env ({ c with reweight := true, U := some U } : Cfg d N M ℝ) hdet hk hd,
      construct_stoch_eq env ({ c with reweight := false } : Cfg d N M ℝ) hdet hk hd, hslice]
    rw [show (npBack env ({ c with reweight := true, U := some U } : Cfg d N M ℝ))
      = npBack env ({ c with reweight := false } : Cfg d N M ℝ) from rfl]
    have key : ∀ (m : RandM ρ (Traj d N ℝ)) (h : Traj d N ℝ → RandM ρ (Traj d N ℝ)) (f : Traj d N ℝ → Traj d N ℝ → Obj d N M ℝ),
        (m >>= fun ys => h ys >>= fun bs => pure (f ys bs))
          = ((m >>= fun ys => h ys >>= fun bs => pure (ys, bs)) >>= fun p => pure (f p.1 p.2)) := by
      intro m h f
      simp only [bind_assoc, pure_bind]
    rw [key, key]
    refine sameOutcome_bind_pure _ _ _ ?_ r
    intro p
    refine ⟨rfl, rfl, rfl, ?_⟩
    simp [hb]

/-- In exact arithmetic (`0/0 = 0`) equal weights fix every cloud. -/
theorem torchReweight_const (env : Env ρ ℝ) (hs : SolverOptimal env) (hN : 0 < N) (v : Fin N → ℝ) (x : Mat d N ℝ)
    (hv : ∀ n m, v n = v m) : torchReweight env x (fun n => NumOps.exp (v n)) = .ok x := by
  by_cases hne : ∃ i j, sqdist x i j ≠ 0
  · exact C34_constant_torch env hs hN v x hv hne
  · push Not at hne
    haveI : Nonempty (Fin N) := ⟨⟨0, hN⟩⟩
    obtain ⟨T, hT, ho⟩ := hs N (fun _ => 1 / (N:ℝ)) (fun _ => 1 / (N:ℝ)) (fun _ _ => 0) (uniform_prob hN) (uniform_prob hN)
      (fun _ _ => le_rfl)
    obtain ⟨n, rfl⟩ : ∃ n, N = n + 1 := ⟨N - 1, by omega⟩
    have hb : (fun _ : Fin (n+1) => (lit 1 1 : ℝ) / lit ((n+1 : ℕ) : ℤ) 1) = fun _ => 1 / ((n+1 : ℕ) : ℝ) := by
      funext _; simp
    have hz : ∀ i j, ∑ k, (x k i - x k j) ^ 2 = 0 := hne
    simp only [torchReweight, softmax_real, torchMatMax, Except.ok_bind', real_sum, real_sq, amax_real, hb,
      softmax_const hN v hv, hz, zero_div]
    rw [hT, Except.ok_bind']
    congr 1
    funext a m
    simp only [mm, real_sum, real_lit_int]
    have hx : ∀ k, x a k = x a m := fun k => congrFun (sqdist_eq_zero (hne k m)) a
    have hc := ho.1.2.2 m
    calc ∑ k, (((n+1 : ℕ) : ℤ) : ℝ) * x a k * T k m = ∑ k, (((n+1 : ℕ) : ℝ) * x a m) * T k m := by
          refine Finset.sum_congr rfl fun k _ => ?_
          rw [hx k]; push_cast; ring
      _ = x a m := by
          rw [← Finset.mul_sum, hc]
          have : (((n+1 : ℕ) : ℝ)) ≠ 0 := by positivity
          field_simp

/-- **C34** (whole run, torch, deterministic). Without Brownian bridge, at least three grid points, an optimal solver and a
constraint that never distinguishes particles: every object returned with `reweight=True` has the flows and random state
of the run with `reweight=False`. (Its clouds have spread by C45, so that no cost is `0/0`.) -/
theorem C34_torch_whole_run (env : Env ρ ℝ) (hs : SolverOptimal env) (hN : 0 < N) (c : Cfg d N M ℝ)
    (U : Constraint d N ℝ) (hU : ∀ x t n m, U.call2 x t n = U.call2 x t m)
    (hdet : c.deterministic = true) (hb : c.brownBridge = false) (r r' : ρ) (o : Obj d N M ℝ)
    (h : torchConstruct env ({ c with reweight := true, U := some U } : Cfg d N M ℝ) r = .ok (o, r'))
    (hk : 3 ≤ o.timegrid.length) :
    ∃ o', torchConstruct env ({ c with reweight := false } : Cfg d N M ℝ) r = .ok (o', r') ∧ SameFlows o o' ∧
      ∀ i x, 1 ≤ i → o.Z[i]? = some x → ∀ a, ∃ n n', x a n < x a n' := by
  obtain ⟨-, hg, -⟩ := torchConstruct_fields h
  have hslice : torchOttoSlice env ({ c with reweight := true, U := some U } : Cfg d N M ℝ)
      = torchOttoSlice env ({ c with reweight := false } : Cfg d N M ℝ) := by
    funext i t x
    unfold torchOttoSlice
    simp only [if_true, Bool.false_eq_true, if_false]
    have : ∀ raw, torchOttoRw env (some U) raw t = .ok raw := fun raw =>
      torchReweight_const env hs hN _ raw fun n m => by rw [hU raw t n m]
    simp only [this]
    rfl
  obtain ⟨ys, r1, zt, r2, bs, h1, h2, h3, ho⟩ := (torchConstruct_det_iff env
    ({ c with reweight := true, U := some U } : Cfg d N M ℝ) hdet _ hg (by omega) r r' o).1 h
  rw [hslice] at h1
  simp only [torchTrueFlow, hb, Bool.and_false, Bool.false_eq_true, if_false, RandM.pure_ok] at h2
  obtain ⟨rfl, rfl⟩ := h2
  refine ⟨_, (torchConstruct_det_iff env ({ c with reweight := false } : Cfg d N M ℝ) hdet _ hg (by omega) r r' _).2
    ⟨ys, r1, none, r1, bs, h1, ?_, h3, rfl⟩, ?_, fun i x hi hx a =>
      C45_object_has_spread env ({ c with reweight := true, U := some U } : Cfg d N M ℝ) hdet r r' o h hk i hi x hx a⟩
  · simp [torchTrueFlow]
  · rw [ho]
    exact ⟨rfl, rfl, rfl, rfl⟩

/-- The hypotheses of `C34_same_outcome` in stochastic mode: three dimensions, a constraint that depends on nothing. -/
example (r : ℕ) : SameOutcome
    (construct optEnv ({ exCfg 3 4 5 10 false true false with
      reweight := true, U := some ⟨fun _ t _ => t, some fun _ _ => 7⟩ } : Cfg 3 4 5 ℝ) r)
    (construct optEnv ({ exCfg 3 4 5 10 false true false with reweight := false } : Cfg 3 4 5 ℝ) r) :=
  C34_same_outcome optEnv optEnv_optimal (by norm_num) _ _ (fun h => by cases h)
    (fun _ => ⟨by norm_num, _, rfl, fun _ _ _ => rfl⟩) rfl
    (by show 2 ≤ (mkGrid (exCfg 3 4 5 10 false true false).t1 (exCfg 3 4 5 10 false true false).t2).length
        rw [exCfg_grid]; norm_num) r

end DPFC
