import Verif.Lib.RecReal2
import Verif.Props.TorchFail
import Verif.Props.Pins

/-!
# C09 - C12: the particle recurrences

The relations `ForwardRec`, `TrueRec`, `BackwardRec`, `StochRec` and their torch versions are in
`Verif.Spec.Recurrence`. `rs` are the states of the random stream between the steps.
-/

namespace DPFC
open Spec

variable {ρ : Type} {d N M : ℕ}

/-- **C09, C10, C12** (the whole deterministic numpy run). A successful construction runs the forward
recurrence from the given random state, then (only with reweighting and Brownian bridge) the
true-drift recurrence, then the backward recurrence, each continuing the random stream where the
previous one stopped. -/
theorem C10_full_run (env : Env ρ ℝ) (c : Cfg d N M ℝ) (hN : 0 < N) (hdet : c.deterministic = true)
    (hk : c.kern = "RBF" ∨ c.kern = "periodic") (r r' : ρ) (o : Obj d N M ℝ)
    (h : construct env c r = .ok (o, r')) (h2 : 2 ≤ o.timegrid.length) :
    ∃ rsF rsT rsB : ℕ → ρ,
      rsF 0 = r ∧
      ForwardRec env c (fun i => o.Z[i]?) (fun i => o.timegrid[i]?) rsF ∧
      rsT 0 = rsF (o.timegrid.length - 1) ∧
      (∀ T, o.Ztr = some T → TrueRec env c (fun i => T[i]?) (fun i => o.timegrid[i]?) rsT) ∧
      (o.Ztr = none → rsT (o.timegrid.length - 1) = rsT 0) ∧
      rsB (o.timegrid.length - 2) = rsT (o.timegrid.length - 1) ∧
      BackwardRec env c o.timegrid.length (fun i => o.Z[i]?) (fun i => o.B[i]?)
        (fun i => o.timegrid[i]?) rsB ∧
      rsB 0 = r' := by
  have hk := effKern_rbf hk
  rw [(construct_fields h).2] at h2
  obtain ⟨ys, r1, zt, r2, bs, h1, hz, h3, rfl⟩ := (construct_det_iff env c hdet h2 r r' o).1 h
  obtain ⟨rsF, f0, f1, hF⟩ := ottoChain_spec env c hN hk ys r r1 h2 h1
  have hZl : (pt N c.y1 :: ys).length = (mkGrid c.t1 c.t2).length := by
    have := chain_length h1
    rw [List.length_tail] at this
    rw [List.length_cons]; omega
  obtain ⟨rsB, b0, b1, hB⟩ := backChain_spec env c hN hk (pt N c.y1 :: ys) bs _ r2 r' h2 hZl h3
  have hT : ∃ rsT : ℕ → ρ, rsT 0 = r1 ∧ rsT ((mkGrid c.t1 c.t2).length - 1) = r2 ∧
      (∀ T, zt = some T → TrueRec env c (fun i => T[i]?) (fun i => (mkGrid c.t1 c.t2)[i]?) rsT) ∧
      (zt = none → r2 = r1) := by
    unfold trueFlow at hz
    split at hz
    · obtain ⟨us, ru, hu, hp⟩ := RandM.bind_ok.1 hz
      obtain ⟨rfl, rfl⟩ := RandM.pure_ok.1 hp
      obtain ⟨rsT, t0, t1, hT⟩ := trueChain_spec env c hN hk us r1 ru h2 hu
      refine ⟨rsT, t0, t1, ?_, by intro h; cases h⟩
      rintro T hh; cases hh; exact hT
    · obtain ⟨hz1, hz2⟩ := RandM.pure_ok.1 hz
      refine ⟨fun _ => r1, rfl, hz2, ?_, fun _ => hz2.symm⟩
      intro T hh; rw [← hz1] at hh; cases hh
  obtain ⟨rsT, t0, t1, hT1, hT2⟩ := hT
  refine ⟨rsF, rsT, rsB, f0, hF, by rw [t0]; exact f1.symm, hT1, ?_, ?_, hB, b1⟩
  · intro hn
    rw [t0]
    exact t1.trans (hT2 hn)
  · exact b0.trans t1.symm

/-- **C09** (numpy). In deterministic mode the forward flow satisfies the forward recurrence, starting
from the given random state. -/
theorem C09_forward_recurrence (env : Env ρ ℝ) (c : Cfg d N M ℝ) (hN : 0 < N)
    (hdet : c.deterministic = true) (hk : c.kern = "RBF" ∨ c.kern = "periodic") (r r' : ρ)
    (o : Obj d N M ℝ) (h : construct env c r = .ok (o, r')) (h2 : 2 ≤ o.timegrid.length) :
    ∃ rs : ℕ → ρ, rs 0 = r ∧
      ForwardRec env c (fun i => o.Z[i]?) (fun i => o.timegrid[i]?) rs := by
  obtain ⟨rsF, _, _, h0, hF, _⟩ := C10_full_run env c hN hdet hk r r' o h h2
  exact ⟨rsF, h0, hF⟩

/-- **C10** (numpy, both modes). The backward flow satisfies the backward recurrence, ending in the
final random state of the construction. -/
theorem C10_backward_recurrence (env : Env ρ ℝ) (c : Cfg d N M ℝ) (hN : 0 < N)
    (hk : c.kern = "RBF" ∨ c.kern = "periodic") (r r' : ρ)
    (o : Obj d N M ℝ) (h : construct env c r = .ok (o, r')) (h2 : 2 ≤ o.timegrid.length) :
    ∃ rs : ℕ → ρ, rs 0 = r' ∧ BackwardRec env c o.timegrid.length (fun i => o.Z[i]?)
      (fun i => o.B[i]?) (fun i => o.timegrid[i]?) rs := by
  cases hdet : c.deterministic with
  | true =>
    obtain ⟨_, _, rsB, _, _, _, _, _, _, hB, h0⟩ := C10_full_run env c hN hdet hk r r' o h h2
    exact ⟨rsB, h0, hB⟩
  | false =>
    rw [(construct_fields h).2] at h2
    by_cases hd : 2 ≤ d
    · obtain ⟨ys, r1, bs, h1, h3, rfl⟩ := (construct_stoch_iff env c hdet h2 hd r r' o).1 h
      have hl : (stochInit N c.y1 :: (ys.dropLast ++ [pt N c.y2])).length
          = (mkGrid c.t1 c.t2).length := by
        have := chain_length h1
        simp at this ⊢; omega
      obtain ⟨rsB, _, b1, hB⟩ := backChain_spec env c hN (effKern_rbf hk) _ bs _ r1 r' h2 hl h3
      exact ⟨rsB, b1, hB⟩
    · rw [construct_stoch_dim1 env c hdet (by omega) (by omega)] at h
      cases h

/-- **C11** (numpy). With `deterministic=False` the forward flow satisfies the stochastic recurrence
up to the slice before the last one, starting from the given random state; the backward
recurrence continues the random stream after all `k-1` forward steps. -/
theorem C11_stochastic_recurrence (env : Env ρ ℝ) (c : Cfg d N M ℝ) (hN : 0 < N)
    (hk : c.kern = "RBF" ∨ c.kern = "periodic") (hdet : c.deterministic = false) (r r' : ρ)
    (o : Obj d N M ℝ) (h : construct env c r = .ok (o, r')) (h2 : 2 ≤ o.timegrid.length) :
    ∃ rsF rsB : ℕ → ρ, rsF 0 = r ∧ StochRec env c o.timegrid.length (fun i => o.Z[i]?) rsF ∧
      rsB (o.timegrid.length - 2) = rsF (o.timegrid.length - 1) ∧
      BackwardRec env c o.timegrid.length (fun i => o.Z[i]?)
        (fun i => o.B[i]?) (fun i => o.timegrid[i]?) rsB ∧ rsB 0 = r' := by
  rw [(construct_fields h).2] at h2
  by_cases hd : 2 ≤ d
  · obtain ⟨ys, r1, bs, h1, h3, rfl⟩ := (construct_stoch_iff env c hdet h2 hd r r' o).1 h
    have hl : (stochInit N c.y1 :: (ys.dropLast ++ [pt N c.y2])).length
        = (mkGrid c.t1 c.t2).length := by
      have := chain_length h1
      simp at this ⊢; omega
    obtain ⟨rsB, b0, b1, hB⟩ := backChain_spec env c hN (effKern_rbf hk) _ bs _ r1 r' h2 hl h3
    obtain ⟨rsF, f0, f1, hF⟩ := stochChain_spec env c ys r r1 _ h2 h1
    exact ⟨rsF, rsB, f0, hF, b0.trans f1.symm, hB, b1⟩
  · rw [construct_stoch_dim1 env c hdet (by omega) (by omega)] at h
    cases h

section
variable {K : Type} [Add K] [Sub K] [Mul K] [Div K] [Neg K] [NumOps K]

/-- **C11** (TypeError for drifts). If the drift cannot be called without a time argument, stochastic
numpy construction raises TypeError (any arithmetic, `dim >= 2`, at least one particle, at least
two grid points). -/
theorem C11_drift_needs_time_raises (env : Env ρ K) (c : Cfg d N M K) (hd : 2 ≤ d) (hN : 0 < N)
    (hdet : c.deterministic = false) (h2 : 2 ≤ (mkGrid c.t1 c.t2).length)
    (hf : c.f.call1 = none) (r : ρ) : construct env c r = .error .typeError := by
  obtain ⟨t0, t1, ts, hg⟩ : ∃ t0 t1 ts, mkGrid c.t1 c.t2 = t0 :: t1 :: ts := by
    rcases h : mkGrid c.t1 c.t2 with _ | ⟨a, _ | ⟨b, l⟩⟩
    · rw [h] at h2; simp at h2
    · rw [h] at h2; simp at h2
    · exact ⟨a, b, l, rfl⟩
  have hs : stochSlice env c 1 t1 (stochInit N c.y1) r = .error .typeError := by
    obtain ⟨n, rfl⟩ : ∃ n, N = n + 1 := ⟨N - 1, by omega⟩
    simp only [stochSlice, stochRaw, seqM, stochCol, hf, RandM.raise_bind, RandM.raise_app]
  unfold construct
  simp only [hdet, Bool.false_eq_true, if_false, hg]
  rw [RandM.bind_app, forwardStoch_first_error env c hd t0 t1 ts r _ hs]

/-- **C11** (TypeError for constraints). If reweighting is on and the constraint is missing or cannot be
called with one argument, stochastic numpy construction raises TypeError. -/
theorem C11_constraint_needs_time_raises (env : Env ρ K) (c : Cfg d N M K) (hd : 2 ≤ d)
    (hdet : c.deterministic = false) (h2 : 2 ≤ (mkGrid c.t1 c.t2).length)
    (hr : c.reweight = true) (hU : ∀ U, c.U = some U → U.call1 = none) (r : ρ) :
    construct env c r = .error .typeError := by
  by_cases hN : 0 < N
  swap
  · obtain rfl : N = 0 := by omega
    obtain ⟨t0, t1, ts, hg⟩ : ∃ t0 t1 ts, mkGrid c.t1 c.t2 = t0 :: t1 :: ts := by
      rcases h : mkGrid c.t1 c.t2 with _ | ⟨a, _ | ⟨b, l⟩⟩
      · rw [h] at h2; simp at h2
      · rw [h] at h2; simp at h2
      · exact ⟨a, b, l, rfl⟩
    have hs : stochSlice env c 1 t1 (stochInit 0 c.y1) r = .error .typeError := by
      simp only [stochSlice, stochRaw, seqM, pure_bind, hr, if_true, stochReweight]
      cases hu : c.U with
      | none => rfl
      | some U => simp only [hU U hu]; rfl
    unfold construct
    simp only [hdet, Bool.false_eq_true, if_false, hg]
    rw [RandM.bind_app, forwardStoch_first_error env c hd t0 t1 ts r _ hs]
  cases hf : c.f.call1 with
  | none => exact C11_drift_needs_time_raises env c hd hN hdet h2 hf r
  | some f1 =>
    obtain ⟨t0, t1, ts, hg⟩ : ∃ t0 t1 ts, mkGrid c.t1 c.t2 = t0 :: t1 :: ts := by
      rcases h : mkGrid c.t1 c.t2 with _ | ⟨a, _ | ⟨b, l⟩⟩
      · rw [h] at h2; simp at h2
      · rw [h] at h2; simp at h2
      · exact ⟨a, b, l, rfl⟩
    have ht : Total (stochRaw env c (stochInit N c.y1)) := by
      unfold stochRaw
      refine Total.bind (seqM_total (n := N) fun i => ?_) fun _ => Total.pure _
      simp only [stochCol, hf]
      exact (normalVec_total env _ d).bind fun _ => Total.pure _
    have hs : stochSlice env c 1 t1 (stochInit N c.y1) r = .error .typeError := by
      obtain ⟨raw, r1, hraw⟩ := ht r
      unfold stochSlice
      rw [RandM.bind_app, hraw]
      simp only [hr, if_true, stochReweight]
      cases hu : c.U with
      | none => rfl
      | some U => simp only [hU U hu]; rfl
    unfold construct
    simp only [hdet, Bool.false_eq_true, if_false, hg]
    rw [RandM.bind_app, forwardStoch_first_error env c hd t0 t1 ts r _ hs]

/-- **C12** (no influence of the constraint). The true-drift sampler gives the same slices, exceptions
and final random state for every `U`, `f`, `reweight`, `brown_bridge` and `y2`: the constraint can act
on `Ztr` only through the random state in which the sampler is started. Numpy and torch, any
arithmetic. -/
theorem C12_true_flow_ignores_constraint (env : Env ρ K) (c : Cfg d N M K)
    (U' : Option (Constraint d N K)) (f' : Drift d N K) (rew' bri' : Bool) (y2' : Fin d → K)
    (grid : List K) (Z0 : Traj d N K) (hl : Z0.length = grid.length) :
    forwardOttoTrue env ({ c with U := U', f := f', reweight := rew', brownBridge := bri', y2 := y2' } :
        Cfg d N M K) grid Z0 = forwardOttoTrue env c grid Z0 ∧
    torchForwardOttoTrue env
      ({ c with U := U', f := f', reweight := rew', brownBridge := bri', y2 := y2' } : Cfg d N M K)
      grid Z0 = torchForwardOttoTrue env c grid Z0 := by
  rcases grid with _ | ⟨t0, ts⟩
  · exact ⟨rfl, rfl⟩
  · rw [List.length_cons] at hl
    constructor
    · rw [forwardOttoTrue_eq env _ t0 ts Z0 hl, forwardOttoTrue_eq env c t0 ts Z0 hl]
      rfl
    · rw [torchForwardOttoTrue_eq env _ t0 ts Z0 hl, torchForwardOttoTrue_eq env c t0 ts Z0 hl]
      rfl

end

/-- **C12** (recurrence). In deterministic Brownian-bridge reweighting mode `Ztr` follows the true drift
with the recurrence of C09 without any transport step, on the random stream left by the forward
flow. -/
theorem C12_true_flow_recurrence (env : Env ρ ℝ) (c : Cfg d N M ℝ) (hN : 0 < N)
    (hdet : c.deterministic = true) (hk : c.kern = "RBF" ∨ c.kern = "periodic") (r r' : ρ)
    (o : Obj d N M ℝ) (h : construct env c r = .ok (o, r')) (h2 : 2 ≤ o.timegrid.length)
    (T : Traj d N ℝ) (hT : o.Ztr = some T) :
    ∃ rsF rsT : ℕ → ρ, ForwardRec env c (fun i => o.Z[i]?) (fun i => o.timegrid[i]?) rsF ∧
      rsT 0 = rsF (o.timegrid.length - 1) ∧
      TrueRec env c (fun i => T[i]?) (fun i => o.timegrid[i]?) rsT := by
  obtain ⟨rsF, rsT, _, _, hF, h0, hT', _⟩ := C10_full_run env c hN hdet hk r r' o h h2
  exact ⟨rsF, rsT, hF, h0, hT' T hT⟩

/-- The hypotheses are met: an object with 101 slices, reweighting and Brownian bridge. The first
forward step is spelled out: before the transport the particles are at
`y1 + dt*f(y1,0) + sqrt(dt)*xi`. -/
example : ∃ o r' T, construct exEnv (exCfg 3 5 4 100 true true true) 0 = .ok (o, r')
    ∧ o.Ztr = some T ∧ ∃ x, T[1]? = some x ∧ ∀ a n, ∃ rT, x a n =
      (1 + (a.val : ℝ)) + 1/1000 * (-(1 + (a.val : ℝ)))
        + 1 * (Real.sqrt (1/1000) * normals exEnv 3 5 rT a n) := by
  obtain ⟨o, r', h, hl⟩ := ex_det 3 5 4 100 true true (by norm_num) (by norm_num) 0
  obtain ⟨ys, r1, zt, r2, bs, h1, hz, h3, ho⟩ :=
    (construct_det_iff exEnv _ rfl (by rw [exCfg_grid]; norm_num) 0 r' o).1 h
  obtain ⟨us, ru, hu, hh⟩ := RandM.bind_ok.1 hz
  have hzt := (RandM.pure_ok.1 hh).1
  have hT : o.Ztr = some (pt 5 (exCfg 3 5 4 100 true true true).y1 :: us) := by rw [ho]; exact hzt.symm
  obtain ⟨rsF, rsT, _, _, f, hf, hrec⟩ := C12_true_flow_recurrence exEnv _ (by norm_num) rfl (.inl rfl)
    0 r' o h (by rw [hl]; norm_num) _ hT
  have hul := chain_length hu
  rw [List.length_tail, exCfg_grid] at hul
  have hx : (pt 5 (exCfg 3 5 4 100 true true true).y1 :: us)[0+1]? = some us[0] := by simp
  obtain ⟨t, ht⟩ : ∃ t, o.timegrid[0]? = some t := ⟨_, List.getElem?_eq_getElem (by omega)⟩
  refine ⟨o, r', _, h, hT, us[0], hx, fun a n => ⟨rsT 0, ?_⟩⟩
  have := ((hrec 0 _ _ t rfl hx ht).1 rfl).1
  rw [this]
  simp only [exCfg, Option.some.injEq] at hf
  subst hf
  rfl

example : ∃ o r', construct exEnv (exCfg 3 5 4 100 false false true) 0 = .ok (o, r') ∧
    ∃ rs : ℕ → ℕ, rs 0 = 0 ∧
      StochRec exEnv (exCfg 3 5 4 100 false false true) 101 (fun i => o.Z[i]?) rs := by
  obtain ⟨o, r', h, hl⟩ := ex_stoch 3 5 4 100 true (by norm_num) (by norm_num) (by norm_num) 0
  obtain ⟨rsF, _, h0, hF, _⟩ := C11_stochastic_recurrence exEnv _ (by norm_num) (.inl rfl) rfl 0 r' o h
    (by rw [hl]; norm_num)
  rw [hl] at hF
  exact ⟨o, r', h, rsF, h0, hF⟩

example (r : ℕ) : construct exEnv ({ exCfg 3 5 4 100 false false true with
    f := ⟨fun x t a n => x a n + t, none⟩ } : Cfg 3 5 4 ℝ) r = .error .typeError :=
  C11_drift_needs_time_raises exEnv _ (by norm_num) (by norm_num) rfl
    (by have := exCfg_grid 3 5 4 100 false false true; simp only at this ⊢; omega) rfl r

/-! ### torch -/

/-- An object of the torch class with three or more grid points has at least two coordinates (C46). -/
theorem torch_two_dims {env : Env ρ ℝ} {c : Cfg d N M ℝ} (hd : 0 < d) {r r' : ρ} {o : Obj d N M ℝ}
    (h : torchConstruct env c r = .ok (o, r')) (h3 : 3 ≤ o.timegrid.length) : 2 ≤ d := by
  by_contra hc
  obtain rfl : d = 1 := by omega
  obtain ⟨_, _, hg'⟩ := torchConstruct_fields h
  rw [torchPoints_real] at hg'
  obtain ⟨e, he⟩ := C46_one_dimension_never_constructs env c (by rw [← hg']; exact h3) r
  rw [he] at h
  cases h

/-- So has every object of stochastic mode (C06). -/
theorem torch_stoch_two_dims {env : Env ρ ℝ} {c : Cfg d N M ℝ} (hd : 0 < d) (hdet : c.deterministic = false) {r r' : ρ}
    {o : Obj d N M ℝ} (h : torchConstruct env c r = .ok (o, r')) : 2 ≤ d := by
  by_contra hc
  obtain ⟨_, hg, _⟩ := torchConstruct_fields h
  have hne := torchConstruct_grid_ne hd h
  obtain ⟨t0, ts, ht⟩ := List.exists_cons_of_ne_nil hne
  rw [ht] at hg
  rw [(C06_stochastic_one_dim_raises env c hdet (by omega) r).2 t0 ts hg] at h
  cases h

/-- **C09, C10** (torch, deterministic). -/
theorem C10_torch_full_run (env : Env ρ ℝ) (c : Cfg d N M ℝ) (hN : 0 < N) (hd : 0 < d)
    (hdet : c.deterministic = true)
    (hk : c.kern = "RBF" ∨ c.kern = "periodic") (r r' : ρ) (o : Obj d N M ℝ)
    (h : torchConstruct env c r = .ok (o, r')) (h2 : 2 ≤ o.timegrid.length) :
    ∃ rsF rsB : ℕ → ρ,
      rsF 0 = r ∧
      TorchForwardRec env c (fun i => o.Z[i]?) (fun i => o.timegrid[i]?) rsF ∧
      ((c.reweight && c.brownBridge) = false →
        rsB (o.timegrid.length - 2) = rsF (o.timegrid.length - 1)) ∧
      TorchBackwardRec env c o.timegrid.length (fun i => o.Z[i]?) (fun i => o.B[i]?)
        (fun i => o.timegrid[i]?) rsB ∧
      rsB 0 = r' := by
  obtain ⟨_, hg, hg'⟩ := torchConstruct_fields h
  rw [torchPoints_real] at hg'
  obtain ⟨ys, r1, zt, r2, bs, h1, hz, h3, ho⟩ := (torchConstruct_det_iff env c hdet _ hg h2 r r' o).1 h
  have hZl : (pt N c.y1 :: ys).length = o.timegrid.length := by
    have := chain_length h1
    rw [List.length_tail] at this
    rw [List.length_cons]; omega
  obtain ⟨rsB, b0, b1, hB⟩ := torchBackChain_spec' env c hN (effKern_rbf hk)
    (pt N c.y1 :: ys) bs _ (torch_two_dims hd h) r2 r' h2 hZl h3
  have hd3 := torch_two_dims hd h
  rw [hg'] at h1 h2 hd3
  obtain ⟨rsF, f0, f1, hF⟩ := torchOttoChain_spec' env c hN hd3 ys r r1 h1
  rw [← hg'] at f1 hF
  refine ⟨rsF, rsB, f0, ?_, ?_, ?_, b1⟩
  · rw [show o.Z = pt N c.y1 :: ys by rw [ho]]; exact hF
  · intro hb
    rw [b0, f1]
    unfold torchTrueFlow at hz
    rw [hb] at hz
    exact (RandM.pure_ok.1 hz).2.symm
  · rw [show o.Z = pt N c.y1 :: ys by rw [ho],
      show o.B = pt N c.y1 :: (bs.reverse ++ [pt N c.y2]) by rw [ho]]
    exact hB

/-- **C09** (torch). -/
theorem C09_torch_forward_recurrence (env : Env ρ ℝ) (c : Cfg d N M ℝ) (hN : 0 < N) (hd : 0 < d)
    (hdet : c.deterministic = true)
    (hk : c.kern = "RBF" ∨ c.kern = "periodic") (r r' : ρ) (o : Obj d N M ℝ)
    (h : torchConstruct env c r = .ok (o, r')) (h2 : 2 ≤ o.timegrid.length) :
    ∃ rs : ℕ → ρ, rs 0 = r ∧
      TorchForwardRec env c (fun i => o.Z[i]?) (fun i => o.timegrid[i]?) rs := by
  obtain ⟨rsF, _, h0, hF, _⟩ := C10_torch_full_run env c hN hd hdet hk r r' o h h2
  exact ⟨rsF, h0, hF⟩

/-- **C11** (torch). In stochastic mode the torch class calls the drift with time, the whole cloud
moves at once, and all slices including the last one are simulated; the backward flow uses the noisy
form throughout. -/
theorem C11_torch_stochastic_recurrence (env : Env ρ ℝ) (c : Cfg d N M ℝ) (hN : 0 < N) (hd : 0 < d)
    (hdet : c.deterministic = false)
    (hk : c.kern = "RBF" ∨ c.kern = "periodic") (r r' : ρ) (o : Obj d N M ℝ)
    (h : torchConstruct env c r = .ok (o, r')) (h2 : 2 ≤ o.timegrid.length) :
    ∃ rsF rsB : ℕ → ρ,
      rsF 0 = r ∧
      TorchStochRec env c (fun i => o.Z[i]?) (fun i => o.timegrid[i]?) rsF ∧
      rsB (o.timegrid.length - 2) = rsF (o.timegrid.length - 1) ∧
      TorchBackwardRec env c o.timegrid.length (fun i => o.Z[i]?) (fun i => o.B[i]?)
        (fun i => o.timegrid[i]?) rsB ∧
      rsB 0 = r' := by
  have hd := torch_stoch_two_dims hd hdet h
  obtain ⟨_, hg, hg'⟩ := torchConstruct_fields h
  rw [torchPoints_real] at hg'
  obtain ⟨ys, r1, bs, h1, h3, ho⟩ := (torchConstruct_stoch_iff env c hdet _ hg h2 hd r r' o).1 h
  have hZl : (stochInit N c.y1 :: ys).length = o.timegrid.length := by
    have := chain_length h1
    rw [List.length_tail] at this
    rw [List.length_cons]; omega
  obtain ⟨rsB, b0, b1, hB⟩ := torchBackChain_spec env c hN hd (effKern_rbf hk)
    (stochInit N c.y1 :: ys) bs _ r1 r' h2 hZl h3
  rw [hg'] at h1 h2
  obtain ⟨rsF, f0, f1, hF⟩ := torchStochChain_spec env c hN ys r r1 h2 h1
  rw [← hg'] at f1 hF
  refine ⟨rsF, rsB, f0, ?_, by rw [b0, f1], ?_, b1⟩
  · rw [show o.Z = stochInit N c.y1 :: ys by rw [ho]]; exact hF
  · rw [show o.Z = stochInit N c.y1 :: ys by rw [ho],
      show o.B = pt N c.y1 :: (bs.reverse ++ [pt N c.y2]) by rw [ho]]
    exact hB

example : ∃ o r', torchConstruct exEnv (exFan 3 5 4 100) 0 = .ok (o, r') ∧ ∃ rs : ℕ → ℕ, rs 0 = 0 ∧
    TorchForwardRec exEnv (exFan 3 5 4 100) (fun i => o.Z[i]?) (fun i => o.timegrid[i]?) rs := by
  obtain ⟨o, r', h, hl⟩ := ex_torch 3 5 4 100 (by norm_num) (by norm_num) (by norm_num) 0
  exact ⟨o, r', h, C09_torch_forward_recurrence exEnv _ (by norm_num) (by norm_num) rfl (.inl rfl) 0 r' o h
    (by rw [hl]; norm_num)⟩

end DPFC
