import Verif.Lib.TorchFail

/-!
# C45 - C47: configurations for which `torched_DPFC` cannot be constructed

`3 <= grid.length` is "at least three grid points"; `torchGrid c.t1 c.t2 = .ok grid` says that the time
grid could be built.
-/

namespace DPFC
open Spec

section
variable {ρ : Type} {N M d : ℕ}

/-- A coordinate of a cloud in which all particles agree. -/
def Spec.Flat (v : Fin N → ℝ) : Prop := ∀ n n', v n = v n'

/-- The drift acts particle by particle. -/
def Spec.Pointwise (f : Drift d N ℝ) : Prop :=
  ∃ φ : (Fin d → ℝ) → ℝ → Fin d → ℝ, ∀ x t a n, f.call2 x t a n = φ (particle x n) t a

/-- **C45** (main form). If a torch object with at least three grid points was constructed in
deterministic mode, then in every forward slice after the first one every coordinate has spread. -/
theorem C45_object_has_spread (env : Env ρ ℝ) (c : Cfg d N M ℝ) (hdet : c.deterministic = true)
    (r r' : ρ) (o : Obj d N M ℝ) (h : torchConstruct env c r = .ok (o, r'))
    (hk : 3 ≤ o.timegrid.length) (i : ℕ) (hi : 1 ≤ i) (x : Mat d N ℝ) (hx : o.Z[i]? = some x)
    (a : Fin d) : ∃ n n', x a n < x a n' :=
  torch_slices_spread hdet h hk i hi x hx a

/-- **C45** (exact error). Without reweighting, if after the first step
`Z_1 = y1 + dt f(y1, t1) + g sqrt(dt) xi` some coordinate has no spread, the constructor raises
ValueError, for every random stream. -/
theorem C45_flat_first_step_raises (env : Env ρ ℝ) (c : Cfg d N M ℝ) (hN : 0 < N)
    (hdet : c.deterministic = true) (hr : c.reweight = false) (t0 : ℝ) (grid : List ℝ)
    (hg : torchGrid c.t1 c.t2 = .ok (t0 :: grid)) (hk : 2 ≤ grid.length) (r : ρ) (a : Fin d)
    (hflat : Flat (noisy c.f c.g (fun a _ => c.y1 a) t0 (normals env d N r) a)) :
    torchConstruct env c r = .error .valueError := by
  obtain ⟨t1, t2, ts, rfl⟩ : ∃ t1 t2 ts, grid = t1 :: t2 :: ts := by
    rcases hh : grid with _ | ⟨b, _ | ⟨e, l⟩⟩
    · rw [hh] at hk; simp at hk
    · rw [hh] at hk; simp at hk
    · exact ⟨b, e, l, rfl⟩
  have hg' : t0 :: t1 :: t2 :: ts = mkGrid c.t1 c.t2 := by
    unfold torchGrid at hg
    split at hg
    · exact absurd hg (by simp)
    · exact (Except.ok.inj hg).symm.trans (torchPoints_real _ _)
  have htt : t1 = t0 + 1/1000 := by
    have e0 := (mkGrid_getElem_real c.t1 c.t2 0 t0).1 (by rw [← hg']; rfl)
    have e1 := (mkGrid_getElem_real c.t1 c.t2 1 t1).1 (by rw [← hg']; rfl)
    rw [e0.1, e1.1]; norm_num
  have herr : ∀ (x : Mat d N ℝ) (t : ℝ) (r : ρ), Flat (x a) →
      torchFSeperate env M c.g c.f x t r = .error .valueError := by
    intro x t r hx
    unfold torchFSeperate
    rw [torchBox_real hN, RandM.liftM_ok, pure_bind, RandM.bind_app]
    rw [torchInducing_err env _ r a]
    intro hlt
    obtain ⟨n, n', hnn⟩ := spread_of_lo_lt_hi hN hlt
    exact hnn.ne (hx _ _)
  have hchain : chain (torchOttoSlice env c) 1 (t1 :: t2 :: ts) (pt N c.y1) r
      = .error .valueError := by
    rw [chain, RandM.bind_app]
    have h1 : torchOttoSlice env c 1 t1 (pt N c.y1) r
        = .ok (noisy c.f c.g (pt N c.y1) t0 (normals env d N r), normalsNext env d N r) := by
      unfold torchOttoSlice
      rw [if_pos rfl, RandM.bind_app, noisyStep_real, hr, htt, dtc_real, add_sub_cancel_right]
      rfl
    rw [h1]
    simp only [chain]
    rw [RandM.bind_app]
    have h2 : torchOttoSlice env c (1+1) t2 (noisy c.f c.g (pt N c.y1) t0 (normals env d N r))
        (normalsNext env d N r) = .error .valueError := by
      unfold torchOttoSlice torchOttoStep
      have := herr (noisy c.f c.g (pt N c.y1) t0 (normals env d N r)) (t2 - dtc)
        (normalsNext env d N r) hflat
      rw [if_neg (by omega), RandM.bind_app, RandM.bind_app, this]
    rw [RandM.bind_app, h2]
  unfold torchConstruct
  rw [hg, RandM.liftM_ok, pure_bind, if_pos hdet,
    torchForwardOtto_eq env c t0 t1 (t2 :: ts) _ (by simp [zerosT]), bind_assoc, RandM.bind_app, hchain]

/-- **C45** (one particle). With `N = 1`, at least three grid points and `dim >= 1` the torch class never
constructs, in either mode, whatever the random stream, drift, constraint and transport solver. -/
theorem C45_single_particle (env : Env ρ ℝ) (c : Cfg d 1 M ℝ) (hd : 0 < d)
    (hk : 3 ≤ (mkGrid c.t1 c.t2).length) (r : ρ) : ∃ e, torchConstruct env c r = .error e := by
  cases h : torchConstruct env c r with
  | error e => exact ⟨e, rfl⟩
  | ok p =>
    obtain ⟨o, r'⟩ := p
    exfalso
    obtain ⟨x, _, n, n', hlt⟩ := torch_last_spread h (by rw [(torchConstruct_fields h).2.2, torchPoints_length]; exact hk)
      ⟨0, hd⟩
    rw [Subsingleton.elim n n'] at hlt
    exact lt_irrefl _ hlt

/-- A constant cloud stays constant under transport. -/
theorem torchReweight_flat {env : Env ρ ℝ} (hN : 0 < N) (hs : SolverCouples env) {x y : Mat d N ℝ}
    {v : Fin N → ℝ} (h : torchReweight env x (fun n => NumOps.exp (v n)) = .ok y) (a : Fin d)
    (hx : Flat (x a)) : Flat (y a) := by
  have key : ∃ T, env.emd (normWeights fun n => NumOps.exp (v n)) (fun _ => 1 / (N:ℝ))
      (fun i j => (∑ k, (x k i - x k j)^2) / hi fun i => hi fun j => ∑ k, (x k i - x k j)^2) = .ok T ∧
      y = fun a n => ∑ m, (N * x a m) * T m n := by
    unfold torchReweight at h
    obtain ⟨mx, h1, h2⟩ := Except.bind_ok.1 h
    obtain ⟨T, h3, h4⟩ := Except.bind_ok.1 h2
    refine ⟨T, ?_, ?_⟩
    · have hm : mx = hi fun i => hi fun j => ∑ k, (x k i - x k j)^2 := by
        cases N with
        | zero => omega
        | succ n =>
          simp only [torchMatMax, amax_real, real_sum, real_sq] at h1
          exact (Except.ok.inj h1).symm
      rw [← hm]
      simpa using h3
    · cases h4
      funext a n
      simp [mm]
  obtain ⟨T, hT, rfl⟩ := key
  have hw : (normWeights fun n => NumOps.exp (v n) : Fin N → ℝ) = softmax v := by
    funext n; simp [normWeights, softmax]
  rw [hw] at hT
  have hc := hs N _ _ _ T (softmax_prob hN v) (uniform_prob hN) hT
  have hN' : (N:ℝ) ≠ 0 := by positivity
  have hval : ∀ n, ∑ m, (N * x a m) * T m n = x a ⟨0, hN⟩ := by
    intro n
    have : ∀ m, (N * x a m) * T m n = (N * x a ⟨0, hN⟩) * T m n := fun m => by rw [hx m ⟨0, hN⟩]
    simp only [this]
    rw [← Finset.mul_sum, hc.2.2 n]
    field_simp
  intro n n'
  change ∑ m, _ = ∑ m, _
  rw [hval n, hval n']

/-- **C45** (no noise). With `g = 0` and a drift that acts particle by particle the torch class never
constructs in deterministic mode with at least three grid points and `dim >= 1`; with reweighting this
needs a transport solver that returns transport plans. -/
theorem C45_no_noise (env : Env ρ ℝ) (c : Cfg d N M ℝ) (hd : 0 < d)
    (hdet : c.deterministic = true) (hg : c.g = 0) (hf : Pointwise c.f)
    (hs : c.reweight = true → SolverCouples env)
    (hk : 3 ≤ (mkGrid c.t1 c.t2).length) (r : ρ) : ∃ e, torchConstruct env c r = .error e := by
  cases h : torchConstruct env c r with
  | error e => exact ⟨e, rfl⟩
  | ok p =>
    obtain ⟨o, r'⟩ := p
    exfalso
    have hk' : 3 ≤ o.timegrid.length := by rw [(torchConstruct_fields h).2.2, torchPoints_length]; exact hk
    obtain ⟨x, t0, hx, _, h1, h2⟩ := torch_first_slice hdet h (by omega)
    obtain ⟨φ, hφ⟩ := hf
    have hflat : ∀ a, Flat (noisy c.f c.g (pt N c.y1) t0 (normals env d N r) a) := by
      intro a n n'
      simp only [noisy, hg, hφ, pt, zero_mul, add_zero]
      rfl
    obtain ⟨n, n', hlt⟩ := torch_slices_spread hdet h hk' 1 (by omega) x hx ⟨0, hd⟩
    have hN : 0 < N := by have := n.2; omega
    have hxf : Flat (x ⟨0, hd⟩) := by
      cases hr : c.reweight with
      | false => rw [h1 hr]; exact hflat _
      | true =>
        obtain ⟨U, _, hU⟩ := h2 hr
        exact torchReweight_flat hN (hs hr) hU _ (hflat _)
    exact hlt.ne (hxf _ _)

end

section
variable {K ρ : Type} [Add K] [Sub K] [Mul K] [Div K] [Neg K] [NumOps K]
variable {N M d : Nat}

/-- **C46**. With `dim = 1` and at least three grid points the torch class never constructs, in either
mode, for any arithmetic, random stream, kernel name, drift and constraint. -/
theorem C46_one_dimension_never_constructs (env : Env ρ K) (c : Cfg 1 N M K)
    (hk : 3 ≤ (mkGrid c.t1 c.t2).length) (r : ρ) : ∃ e, torchConstruct env c r = .error e := by
  cases h : torchConstruct env c r with
  | error e => exact ⟨e, rfl⟩
  | ok p =>
    obtain ⟨o, r'⟩ := p
    exfalso
    have hg := (torchConstruct_fields h).2.2
    have hgl := torchPoints_length c.t1 c.t2
    obtain ⟨_, _, _, rs, _, hs⟩ := torchConstruct_back_steps h (by rw [hg]; omega)
    obtain ⟨z, tj, b, y, _, _, _, _, hst⟩ := hs 1 (by omega) (by rw [hg]; omega)
    simp only [torchBack, backStep] at hst
    obtain ⟨a, r1, h3, _⟩ := RandM.bind_ok.1 hst
    unfold torchDensityAt at h3
    obtain ⟨bn, r2, _, h4⟩ := RandM.bind_ok.1 h3
    obtain ⟨S, r3, _, h5⟩ := RandM.bind_ok.1 h4
    obtain ⟨s, r4, h6, _⟩ := RandM.bind_ok.1 h5
    obtain ⟨h7, _⟩ := RandM.lift_ok.1 h6
    unfold torchScoreFn at h7
    obtain ⟨⟨ls, p, g⟩, h10, h8⟩ := Except.bind_ok.1 h7
    obtain ⟨ksz, h9, _⟩ := Except.bind_ok.1 h8
    unfold torchCommon at h10
    obtain ⟨ls', h11, h12⟩ := Except.bind_ok.1 h10
    have e1 : ls' = .scalar (torchLengthScales z ⟨0, by omega⟩) := by
      simp only [TLS.classify] at h11
      rw [if_neg (by omega), dif_pos trivial] at h11
      exact (Except.ok.inj h11).symm
    have e2 : ls = ls' := by
      obtain ⟨Ki, _, h13⟩ := Except.bind_ok.1 h12
      obtain ⟨G, _, h14⟩ := Except.bind_ok.1 h13
      have := Except.ok.inj h14
      exact (congrArg Prod.fst this).symm
    rw [e2, e1] at h9
    unfold torchKsz at h9
    split at h9 <;> cases h9

/-- The Brownian-bridge shape condition: what a successful score evaluation for the true drift needs. -/
theorem torchTrueScore_shapes {x v : Mat d N K} {S : Mat M d K} (h : torchTrueScore x S = .ok v) :
    (M = d ∧ N = d) ∨ (M = 1 ∧ (N = d ∨ N = 1)) := by
  unfold torchTrueScore at h
  split at h
  · obtain ⟨g, _, h2⟩ := Except.bind_ok.1 h
    split at h2
    · left; exact ⟨by assumption, by assumption⟩
    · cases h2
  · split at h
    · obtain ⟨g, _, h2⟩ := Except.bind_ok.1 h
      right
      refine ⟨by assumption, ?_⟩
      split at h2
      · left; assumption
      · split at h2
        · right; assumption
        · cases h2
    · cases h

/-- **C47** (which shapes survive). If the torch class constructs in deterministic mode with reweighting
and Brownian bridge on at least three grid points, then `N = M = dim`, or `M = 1` and `N` is `dim` or
1. Any arithmetic. -/
theorem C47_bridge_shapes (env : Env ρ K) (c : Cfg d N M K)
    (hdet : c.deterministic = true) (hr : c.reweight = true) (hb : c.brownBridge = true)
    (hk : 3 ≤ (mkGrid c.t1 c.t2).length) (r r' : ρ) (o : Obj d N M K)
    (h : torchConstruct env c r = .ok (o, r')) :
    (M = d ∧ N = d) ∨ (M = 1 ∧ (N = d ∨ N = 1)) := by
  obtain ⟨_, hg, hg'⟩ := torchConstruct_fields h
  rw [← torchPoints_length, ← hg'] at hk
  obtain ⟨ys, r1, zt, r2, bs, _, h2, _, _⟩ :=
    (torchConstruct_det_iff env c hdet _ hg (by omega) r r' o).1 h
  unfold torchTrueFlow at h2
  rw [hr, hb] at h2
  obtain ⟨us, r3, h3, _⟩ := RandM.bind_ok.1 h2
  obtain ⟨hl, rs, _, _, hs⟩ := chain_ok_iff.1 h3
  obtain ⟨t, ht⟩ := get_of_lt (l := o.timegrid.tail) (i := 1) (by simp; omega)
  obtain ⟨x, hx⟩ := get_of_lt (l := pt N c.y1 :: us) (i := 1) (by simp at hl ⊢; omega)
  obtain ⟨y, hy⟩ := get_of_lt (l := pt N c.y1 :: us) (i := 2) (by simp at hl ⊢; omega)
  have hst := hs 1 t x y ht hx hy
  unfold torchTrueSlice at hst
  cases hf : c.fTrue with
  | none => rw [hf] at hst; cases hst
  | some ft =>
    rw [hf] at hst
    simp only at hst
    rw [if_neg (by omega)] at hst
    unfold torchTrueStep torchFSeperateTrue at hst
    obtain ⟨v, r4, h4, _⟩ := RandM.bind_ok.1 hst
    obtain ⟨bn, r5, _, h5⟩ := RandM.bind_ok.1 h4
    obtain ⟨S, r6, _, h6⟩ := RandM.bind_ok.1 h5
    obtain ⟨gp, r7, h7, _⟩ := RandM.bind_ok.1 h6
    exact torchTrueScore_shapes (RandM.lift_ok.1 h7).1

/-- **C47**. With reweighting and Brownian bridge, deterministic, at least three grid points, at least two
particles and `N != dim`, the torch class never constructs. Any arithmetic. -/
theorem C47_bridge_never_constructs (env : Env ρ K) (c : Cfg d N M K)
    (hdet : c.deterministic = true) (hr : c.reweight = true) (hb : c.brownBridge = true)
    (hN : 2 ≤ N) (hNd : N ≠ d) (hk : 3 ≤ (mkGrid c.t1 c.t2).length) (r : ρ) :
    ∃ e, torchConstruct env c r = .error e := by
  cases h : torchConstruct env c r with
  | error e => exact ⟨e, rfl⟩
  | ok p =>
    obtain ⟨o, r'⟩ := p
    exfalso
    rcases C47_bridge_shapes env c hdet hr hb hk r r' o h with ⟨_, h2⟩ | ⟨_, h2 | h2⟩ <;> omega

end

/-! ### The hypotheses are met -/

/-- Objects to which `C45_object_has_spread` applies exist for all sizes. -/
example (d N M steps : ℕ) (hN : 2 ≤ N) (hd : 2 ≤ d) (hs : 2 ≤ steps) (r : ℕ) :
    ∃ o r', torchConstruct exEnv (exFan d N M steps) r = .ok (o, r') ∧
      (exFan d N M steps).deterministic = true ∧ 3 ≤ o.timegrid.length := by
  obtain ⟨o, r', h, hl⟩ := ex_torch d N M steps hN hd (by omega) r
  exact ⟨o, r', h, rfl, by omega⟩

/-- A noise-free configuration with linear drift `f(x,t) = x + t`. -/
noncomputable def exQuiet (d N M steps : ℕ) (rw : Bool) : Cfg d N M ℝ :=
  { exCfg d N M steps true rw false with g := 0 }

/-- `C45_flat_first_step_raises` applies to the noise-free configuration: it raises ValueError. -/
example (d N M steps : ℕ) (hN : 0 < N) (hd : 0 < d) (hs : 2 ≤ steps) (r : ℕ) :
    torchConstruct exEnv (exQuiet d N M steps false) r = .error .valueError := by
  have hg : torchGrid (exQuiet d N M steps false).t1 (exQuiet d N M steps false).t2
      = .ok (mkGrid (exQuiet d N M steps false).t1 (exQuiet d N M steps false).t2) :=
    exCfg_torchGrid d N M steps true false false
  have hl : (mkGrid (exQuiet d N M steps false).t1 (exQuiet d N M steps false).t2).length = steps + 1 :=
    exCfg_grid d N M steps true false false
  rcases hh : mkGrid (exQuiet d N M steps false).t1 (exQuiet d N M steps false).t2 with _ | ⟨t0, ts⟩
  · rw [hh] at hl; simp at hl
  · rw [hh] at hg hl
    refine C45_flat_first_step_raises exEnv _ hN rfl rfl t0 ts hg
      (by simp at hl; omega) r ⟨0, hd⟩ ?_
    intro n n'
    simp [noisy, exQuiet, exCfg]

/-- `C45_no_noise` applies with and without reweighting. -/
example (d N M steps : ℕ) (hd : 0 < d) (hs : 2 ≤ steps) (rw : Bool) (r : ℕ) :
    ∃ e, torchConstruct optEnv (exQuiet d N M steps rw) r = .error e :=
  C45_no_noise optEnv _ hd rfl rfl ⟨fun p t a => p a + t, fun _ _ _ _ => rfl⟩
    (fun _ => optEnv_couples)
    (by have := exCfg_grid d N M steps true rw false
        change 3 ≤ (mkGrid (exCfg d N M steps true rw false).t1
          (exCfg d N M steps true rw false).t2).length
        rw [this]; omega) r

/-- `C45_single_particle` and `C46_one_dimension_never_constructs` apply to ordinary configurations with
noise. -/
example (M N d steps : ℕ) (hd : 0 < d) (hs : 2 ≤ steps) (det rw bb : Bool) (r : ℕ) :
    (∃ e, torchConstruct exEnv (exCfg d 1 M steps det rw bb) r = .error e) ∧
    (∃ e, torchConstruct exEnv (exCfg 1 N M steps det rw bb) r = .error e) :=
  ⟨C45_single_particle _ _ hd (by rw [exCfg_grid]; omega) r,
   C46_one_dimension_never_constructs _ _ (by rw [exCfg_grid]; omega) r⟩

/-- `C47_bridge_never_constructs` applies to an ordinary configuration. -/
example (M steps : ℕ) (hs : 2 ≤ steps) (r : ℕ) :
    ∃ e, torchConstruct exEnv (exCfg 2 100 M steps true true true) r = .error e :=
  C47_bridge_never_constructs _ _ rfl rfl rfl (by norm_num) (by norm_num)
    (by rw [exCfg_grid]; omega) r

end DPFC
