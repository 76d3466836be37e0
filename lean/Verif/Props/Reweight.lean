import Verif.Lib.Transport
import Verif.Lib.Depend

/-!
# Properties C32 - C34: reweighting by optimal transport

`ottoReweight env (some U) x t` is the reweighting of a slice `x` at time `t` in deterministic mode,
`stochReweight` the one in stochastic mode, `torchReweight env x (exp v)` the one of the torch class with
log-weights `v`. `Spec.TransportedTo`, the relation used in the recurrences of C09 - C12, says what the
first two do; the theorems below hold for it as well.
-/

set_option linter.unusedVariables false

namespace DPFC
open Spec
variable {ρ : Type} {N M d : ℕ}

/-! ## C32 -/

/-- The reweighting step as a function of the plan returned by the solver. -/
def applyPlan (x : Fin d → Fin N → ℝ) (T : Fin N → Fin N → ℝ) : Fin d → Fin N → ℝ :=
  fun a n => ∑ m, x a m * (T m n * N)

theorem reweightOT_plan (env : Env ρ ℝ) (x : Mat d N ℝ) (W : Fin N → ℝ) :
    (reweightOT env (tr x) W >>= fun T => Except.ok (mm x T))
      = (env.emd W (fun _ => 1 / (N:ℝ)) (pdist x) >>= fun T => .ok (applyPlan x T)) := by
  have hD : (fun i j => if i = j then (lit 0 1 : ℝ) else
      NumOps.sqrt (NumOps.sum fun k => sq (tr x i k - tr x j k))) = pdist x := by
    funext i j
    by_cases h : i = j
    · subst h; simp [pdist]
    · rw [if_neg h]; simp only [pdist, real_sqrt, real_sum, real_sq, tr]
  have hb : (fun _ : Fin N => (lit 1 1 : ℝ) / lit N 1) = fun _ => 1 / (N : ℝ) := by
    funext _; simp
  unfold reweightOT
  simp only [hD, hb]
  cases env.emd W (fun _ => 1 / (N:ℝ)) (pdist x) with
  | error e => rfl
  | ok T =>
    simp only [Except.ok_bind']
    congr 1
    funext a n
    simp [mm, applyPlan]

/-- **C32** (deterministic numpy mode). The solver is called with weights `W` that are strictly positive, sum
to one, have ratios `exp((U_n - U_m) dt)` and are strictly increasing in `U`; the target is uniform. -/
theorem C32_weights (hN : 0 < N) (U : Constraint d N ℝ) (x : Mat d N ℝ) (t : ℝ) :
    ∃ W : Fin N → ℝ,
      (∀ (ρ : Type) (env : Env ρ ℝ), ottoReweight env (some U) x t
        = (env.emd W (fun _ => 1 / (N:ℝ)) (pdist x) >>= fun T => .ok (applyPlan x T))) ∧
      (∀ n, 0 < W n) ∧ ∑ n, W n = 1 ∧
      (∀ n m, W n / W m = Real.exp ((U.call2 x t n - U.call2 x t m) * (1/1000))) ∧
      (∀ n m, W n < W m ↔ U.call2 x t n < U.call2 x t m) := by
  refine ⟨softmax fun n => U.call2 x t n * (1/1000), fun ρ env => ?_, softmax_pos hN _,
    (softmax_prob hN _).2, fun n m => ?_, fun n m => ?_⟩
  · simp only [ottoReweight, dtc_real]
    exact reweightOT_plan env x _
  · rw [softmax_ratio hN, sub_mul]
  · rw [softmax_lt_iff hN]
    exact mul_lt_mul_iff_left₀ (by norm_num)

/-- **C32** (constants). Adding a constant to the constraint changes nothing, numpy and torch. -/
theorem C32_shift_invariant (env : Env ρ ℝ) (U U' : Constraint d N ℝ) (x : Mat d N ℝ) (t s : ℝ)
    (h : ∀ n, U'.call2 x t n = U.call2 x t n + s) :
    ottoReweight env (some U') x t = ottoReweight env (some U) x t ∧
    torchReweight env x (fun n => NumOps.exp (U'.call2 x t n * dtc))
      = torchReweight env x (fun n => NumOps.exp (U.call2 x t n * dtc)) := by
  have e : normWeights (fun n => NumOps.exp (U'.call2 x t n * (dtc:ℝ)))
      = normWeights (fun n => NumOps.exp (U.call2 x t n * (dtc:ℝ))) := by
    rw [softmax_real, softmax_real]
    simp only [h, add_mul]
    exact softmax_shift _ _
  constructor
  · simp only [ottoReweight, e]
  · simp only [torchReweight, e]

/-- **C32** (stochastic mode). There the weights are proportional to `exp(U)`, without `dt`. -/
theorem C32_stochastic_weights (hN : 0 < N) (U : Constraint d N ℝ) (u : Mat d N ℝ → Fin N → ℝ)
    (hu : U.call1 = some u) (x : Mat d N ℝ) :
    ∃ W : Fin N → ℝ,
      (∀ (ρ : Type) (env : Env ρ ℝ), stochReweight env (some U) x
        = (env.emd W (fun _ => 1 / (N:ℝ)) (pdist x) >>= fun T => .ok (applyPlan x T))) ∧
      (∀ n, 0 < W n) ∧ ∑ n, W n = 1 ∧ (∀ n m, W n / W m = Real.exp (u x n - u x m)) ∧
      (∀ n m, W n < W m ↔ u x n < u x m) := by
  refine ⟨softmax (u x), fun ρ env => ?_, softmax_pos hN _, (softmax_prob hN _).2,
    fun n m => softmax_ratio hN _ _ _, fun n m => softmax_lt_iff hN _ _ _⟩
  simp only [stochReweight, hu]
  exact reweightOT_plan env x _

/-- **C32** (torch). The torch class calls its solver with the same weights `W` and the uniform target; the
cost is the squared distance divided by its largest value. -/
theorem C32_torch_weights (hN : 0 < N) (v : Fin N → ℝ) (x : Mat d N ℝ) :
    ∃ W : Fin N → ℝ,
      (∀ (ρ : Type) (env : Env ρ ℝ), torchReweight env x (fun n => NumOps.exp (v n))
        = (env.emd W (fun _ => 1 / (N:ℝ))
            (fun i j => sqdist x i j / hi fun i => hi fun j => sqdist x i j) >>= fun T =>
              .ok (applyPlan x T))) ∧
      (∀ n, 0 < W n) ∧ ∑ n, W n = 1 ∧ (∀ n m, W n / W m = Real.exp (v n - v m)) ∧
      (∀ n m, W n < W m ↔ v n < v m) := by
  refine ⟨softmax v, fun ρ env => ?_, softmax_pos hN _, (softmax_prob hN _).2,
    fun n m => softmax_ratio hN _ _ _, fun n m => softmax_lt_iff hN _ _ _⟩
  obtain ⟨n, rfl⟩ : ∃ n, N = n + 1 := ⟨N - 1, by omega⟩
  have hb : (fun _ : Fin (n+1) => (lit 1 1 : ℝ) / lit ((n+1 : ℕ) : ℤ) 1)
      = fun _ => 1 / ((n+1 : ℕ) : ℝ) := by
    funext _; simp
  simp only [torchReweight, softmax_real, torchMatMax, Except.ok_bind', real_sum, real_sq, amax_real, hb]
  congr 1
  funext T
  congr 1
  funext a m
  simp only [mm, real_sum, real_lit_int, applyPlan]
  refine Finset.sum_congr rfl fun k _ => ?_
  push_cast
  ring

/-- Two particles, the second with the larger constraint value, gets the larger weight. -/
example : ∃ W : Fin 2 → ℝ,
    (∀ (ρ : Type) (env : Env ρ ℝ),
      ottoReweight env (some ⟨fun _ _ n => n.val, none⟩) (fun (_ : Fin 1) n => (n.val : ℝ)) 0
        = (env.emd W (fun _ => 1 / ((2:ℕ):ℝ)) (pdist fun (_ : Fin 1) n => (n.val : ℝ)) >>= fun T =>
            .ok (applyPlan (fun (_ : Fin 1) n => (n.val : ℝ)) T))) ∧ W 0 < W 1 := by
  obtain ⟨W, h1, _, _, _, h5⟩ := C32_weights (N := 2) (d := 1) (by norm_num)
    ⟨fun _ _ n => n.val, none⟩ (fun (_ : Fin 1) n => (n.val : ℝ)) 0
  exact ⟨W, h1, (h5 0 1).2 (by simp)⟩

/-! ## C33 -/

/-- **C33** (numpy, deterministic). If the solver returns couplings, the plain mean of the reweighted
particles is the weighted mean of the particles before, the weights being the normalised
`exp(U dt)`, and every convex set containing the particles before contains the particles after. -/
theorem C33_deterministic (env : Env ρ ℝ) (hs : SolverCouples env) (hN : 0 < N) (U : Constraint d N ℝ)
    (x y : Mat d N ℝ) (t : ℝ) (h : ottoReweight env (some U) x t = .ok y) :
    (∀ a, (∑ n, y a n) / N = (∑ n, Real.exp (U.call2 x t n * (1/1000)) * x a n)
      / ∑ n, Real.exp (U.call2 x t n * (1/1000))) ∧
    ∀ S : Set (Fin d → ℝ), Convex ℝ S → (∀ m, particle x m ∈ S) → ∀ n, particle y n ∈ S := by
  obtain ⟨u, hu, T, hT, hy⟩ := (ottoReweight_ok env _ x y t).1 h
  obtain rfl := Option.some.inj hu
  have hc := hs N _ _ _ T (softmax_prob hN _) (uniform_prob hN) hT
  refine ⟨fun a => ?_, fun S hS hx n => coupling_convex hN hc hy hS hx n⟩
  rw [coupling_mean hN hc hy a, Finset.sum_div]
  refine Finset.sum_congr rfl fun m _ => ?_
  simp only [softmax]; ring

/-- **C33** (numpy, stochastic). The same with weights `exp(U)`. -/
theorem C33_stochastic (env : Env ρ ℝ) (hs : SolverCouples env) (hN : 0 < N) (U : Constraint d N ℝ)
    (u : Mat d N ℝ → Fin N → ℝ) (hu : U.call1 = some u) (x y : Mat d N ℝ)
    (h : stochReweight env (some U) x = .ok y) :
    (∀ a, (∑ n, y a n) / N = (∑ n, Real.exp (u x n) * x a n) / ∑ n, Real.exp (u x n)) ∧
    ∀ S : Set (Fin d → ℝ), Convex ℝ S → (∀ m, particle x m ∈ S) → ∀ n, particle y n ∈ S := by
  obtain ⟨U', v, hU', hv, T, hT, hy⟩ := (stochReweight_ok env _ x y).1 h
  obtain rfl := Option.some.inj hU'
  obtain rfl := Option.some.inj (hu.symm.trans hv)
  have hc := hs N _ _ _ T (softmax_prob hN _) (uniform_prob hN) hT
  refine ⟨fun a => ?_, fun S hS hx n => coupling_convex hN hc hy hS hx n⟩
  rw [coupling_mean hN hc hy a, Finset.sum_div]
  refine Finset.sum_congr rfl fun m _ => ?_
  simp only [softmax]; ring

/-- **C33** (torch). The same for the torch class, if not all particles coincide (otherwise its cost is
`0/0`). -/
theorem C33_torch (env : Env ρ ℝ) (hs : SolverCouples env) (hN : 0 < N) (v : Fin N → ℝ)
    (x y : Mat d N ℝ) (hne : ∃ i j, sqdist x i j ≠ 0)
    (h : torchReweight env x (fun n => NumOps.exp (v n)) = .ok y) :
    (∀ a, (∑ n, y a n) / N = (∑ n, Real.exp (v n) * x a n) / ∑ n, Real.exp (v n)) ∧
    ∀ S : Set (Fin d → ℝ), Convex ℝ S → (∀ m, particle x m ∈ S) → ∀ n, particle y n ∈ S := by
  obtain ⟨T, hT, hy'⟩ := torchReweight_ok env hN v x y h hne
  have hy : ∀ a n, y a n = ∑ m, x a m * (T m n * N) := by
    intro a n
    rw [hy']
    exact Finset.sum_congr rfl fun m _ => by ring
  have hc := hs N _ _ _ T (softmax_prob hN _) (uniform_prob hN) hT
  refine ⟨fun a => ?_, fun S hS hx n => coupling_convex hN hc hy hS hx n⟩
  rw [coupling_mean hN hc hy a, Finset.sum_div]
  refine Finset.sum_congr rfl fun m _ => ?_
  simp only [softmax]; ring

/-- The hypotheses are met: `optEnv` has an optimal solver, reweighting with it succeeds for every
cloud and constraint. -/
example (U : Constraint 2 3 ℝ) (x : Mat 2 3 ℝ) (t : ℝ) :
    SolverCouples optEnv ∧ ∃ y, ottoReweight optEnv (some U) x t = .ok y := by
  refine ⟨optEnv_couples, ?_⟩
  obtain ⟨T, hT, _⟩ := optEnv_optimal 3 (softmax fun n => U.call2 x t n * (1/1000))
    (fun _ => 1 / ((3:ℕ):ℝ)) (pdist x) (softmax_prob (by norm_num) _) (uniform_prob (by norm_num))
    (pdist_nonneg x)
  exact ⟨_, (ottoReweight_ok optEnv _ x _ t).2 ⟨U, rfl, T, hT, fun a n => rfl⟩⟩

/-! ## C34 -/

/-- **C34** (numpy). If the constraint has the same value at all particles and the solver is optimal,
reweighting returns every particle unchanged. -/
theorem C34_constant_constraint (env : Env ρ ℝ) (hs : SolverOptimal env) (hN : 0 < N)
    (U : Constraint d N ℝ) (x : Mat d N ℝ) (t : ℝ) (hU : ∀ n m, U.call2 x t n = U.call2 x t m) :
    ottoReweight env (some U) x t = .ok x := by
  have hw : softmax (fun n => U.call2 x t n * (1/1000)) = fun _ : Fin N => 1 / (N:ℝ) :=
    softmax_const hN _ fun i j => by rw [hU i j]
  obtain ⟨T, hT, ho⟩ := hs N (fun _ => 1 / (N:ℝ)) (fun _ => 1 / (N:ℝ)) (pdist x) (uniform_prob hN)
    (uniform_prob hN) (pdist_nonneg x)
  refine (ottoReweight_ok env _ x x t).2 ⟨U, rfl, T, by rw [hw]; exact hT, ?_⟩
  have := optimal_uniform_fixes hN (pdist_self x) (pdist_nonneg x) (fun i j => pdist_eq_zero) ho
    (y := fun a n => ∑ m, x a m * (T m n * N)) (x := x) (fun a n => rfl)
  intro a n
  exact (congrFun (congrFun this a) n).symm

/-- **C34** (numpy, stochastic mode). The same for the one-argument constraint. -/
theorem C34_constant_stochastic (env : Env ρ ℝ) (hs : SolverOptimal env) (hN : 0 < N)
    (U : Constraint d N ℝ) (u : Mat d N ℝ → Fin N → ℝ) (hu : U.call1 = some u) (x : Mat d N ℝ)
    (hU : ∀ n m, u x n = u x m) : stochReweight env (some U) x = .ok x := by
  have hw : softmax (u x) = fun _ : Fin N => 1 / (N:ℝ) := softmax_const hN _ hU
  obtain ⟨T, hT, ho⟩ := hs N (fun _ => 1 / (N:ℝ)) (fun _ => 1 / (N:ℝ)) (pdist x) (uniform_prob hN)
    (uniform_prob hN) (pdist_nonneg x)
  refine (stochReweight_ok env _ x x).2 ⟨U, u, rfl, hu, T, by rw [hw]; exact hT, ?_⟩
  have := optimal_uniform_fixes hN (pdist_self x) (pdist_nonneg x) (fun i j => pdist_eq_zero) ho
    (y := fun a n => ∑ m, x a m * (T m n * N)) (x := x) (fun a n => rfl)
  intro a n
  exact (congrFun (congrFun this a) n).symm

/-- **C34** (torch). The same for the torch class and its squared-distance cost, if not all particles
coincide. -/
theorem C34_constant_torch (env : Env ρ ℝ) (hs : SolverOptimal env) (hN : 0 < N) (v : Fin N → ℝ)
    (x : Mat d N ℝ) (hv : ∀ n m, v n = v m) (hne : ∃ i j, sqdist x i j ≠ 0) :
    torchReweight env x (fun n => NumOps.exp (v n)) = .ok x := by
  obtain ⟨i0, j0, h0⟩ := hne
  haveI : Nonempty (Fin N) := ⟨⟨0, hN⟩⟩
  set mx := hi fun i => hi fun j => sqdist x i j with hmx
  have hle : ∀ i j, sqdist x i j ≤ mx := by
    intro i j
    have h1 : sqdist x i j ≤ hi fun j => sqdist x i j :=
      le_ciSup (f := fun j => sqdist x i j) (Set.finite_range _).bddAbove j
    have h2 : (hi fun j => sqdist x i j) ≤ mx :=
      le_ciSup (f := fun i => hi fun j => sqdist x i j) (Set.finite_range _).bddAbove i
    linarith
  have hpos : 0 < mx := lt_of_lt_of_le (lt_of_le_of_ne (sqdist_nonneg x i0 j0) h0.symm) (hle i0 j0)
  have hCp : ∀ i j, 0 ≤ sqdist x i j / mx := fun i j => div_nonneg (sqdist_nonneg x i j) hpos.le
  obtain ⟨W, hW, _⟩ := C32_torch_weights hN v x
  obtain ⟨T, hT, ho⟩ := hs N (fun _ => 1 / (N:ℝ)) (fun _ => 1 / (N:ℝ))
    (fun i j => sqdist x i j / mx) (uniform_prob hN) (uniform_prob hN) hCp
  obtain ⟨n, rfl⟩ : ∃ n, N = n + 1 := ⟨N - 1, by omega⟩
  have hb : (fun _ : Fin (n+1) => (lit 1 1 : ℝ) / lit ((n+1 : ℕ) : ℤ) 1)
      = fun _ => 1 / ((n+1 : ℕ) : ℝ) := by
    funext _; simp
  simp only [torchReweight, softmax_real, torchMatMax, Except.ok_bind', real_sum, real_sq, amax_real, hb,
    softmax_const hN v hv]
  have hT' : env.emd (fun _ => 1 / ((n+1 : ℕ) : ℝ)) (fun _ => 1 / ((n+1 : ℕ) : ℝ))
      (fun i j => (∑ k, (x k i - x k j) ^ 2) / hi fun i => hi fun j => ∑ k, (x k i - x k j) ^ 2)
      = .ok T := hT
  rw [hT', Except.ok_bind']
  congr 1
  have := optimal_uniform_fixes hN (C := fun i j => sqdist x i j / mx) (fun i => by simp [sqdist]) hCp
    (fun i j h => sqdist_eq_zero (by
      rcases div_eq_zero_iff.1 h with h | h
      · exact h
      · exact absurd h hpos.ne')) ho
    (y := fun a m => ∑ k, x a k * (T k m * ((n+1 : ℕ) : ℝ))) (x := x) (fun a m => rfl)
  refine Eq.trans ?_ this
  funext a m
  simp only [mm, real_sum, real_lit_int]
  refine Finset.sum_congr rfl fun k _ => ?_
  push_cast
  ring

/-- **C34** (whole run). Deterministic numpy mode without Brownian bridge: with a constraint that never
distinguishes particles and an optimal solver, `reweight=True` produces exactly the flows of
`reweight=False`, with the same random draws. -/
theorem C34_whole_run (env : Env ρ ℝ) (hs : SolverOptimal env) (hN : 0 < N) (c : Cfg d N M ℝ)
    (U : Constraint d N ℝ) (hU : ∀ x t n m, U.call2 x t n = U.call2 x t m)
    (hdet : c.deterministic = true) (hb : c.brownBridge = false)
    (hk : 2 ≤ (mkGrid c.t1 c.t2).length) (r r' : ρ) (o : Obj d N M ℝ)
    (h : construct env ({ c with reweight := true, U := some U } : Cfg d N M ℝ) r = .ok (o, r')) :
    ∃ o', construct env ({ c with reweight := false } : Cfg d N M ℝ) r = .ok (o', r') ∧
      SameFlows o o' := by
  have hslice : ottoSlice env ({ c with reweight := true, U := some U } : Cfg d N M ℝ)
      = ottoSlice env ({ c with reweight := false } : Cfg d N M ℝ) := by
    funext i t x
    rw [ottoSlice_bind, ottoSlice_bind]
    simp only [if_true, Bool.false_eq_true, if_false]
    congr 1
    funext raw
    rw [C34_constant_constraint env hs hN U raw t (hU raw t)]
    rfl
  obtain ⟨ys, r1, zt, r2, bs, h1, h2, h3, ho⟩ := (construct_det_iff env
    ({ c with reweight := true, U := some U } : Cfg d N M ℝ) hdet hk r r' o).1 h
  rw [hslice] at h1
  simp only [trueFlow, hb, Bool.and_false, Bool.false_eq_true, if_false, RandM.pure_ok] at h2
  obtain ⟨rfl, rfl⟩ := h2
  refine ⟨_, (construct_det_iff env ({ c with reweight := false } : Cfg d N M ℝ) hdet hk r r' _).2
    ⟨ys, r1, none, r1, bs, h1, ?_, h3, rfl⟩, ?_⟩
  · simp [trueFlow]
  · subst ho
    exact ⟨rfl, rfl, rfl, rfl⟩

/-- The hypotheses of C34 are met by `optEnv`, any cloud and any constraint depending on time only; the
runs with it succeed. -/
example : SolverOptimal optEnv ∧ ∃ o r', construct optEnv
    ({ exCfg 2 3 4 10 true true false with
        reweight := true, U := some ⟨fun _ t _ => t, none⟩ } : Cfg 2 3 4 ℝ) 0 = .ok (o, r') := by
  refine ⟨optEnv_optimal, ?_⟩
  let c' : Cfg 2 3 4 ℝ := { exCfg 2 3 4 10 true false false with reweight := false }
  obtain ⟨o, r', h⟩ := construct_det_total optEnv c' (by norm_num) rfl
    (by show 2 ≤ (mkGrid (exCfg 2 3 4 10 true false false).t1 (exCfg 2 3 4 10 true false false).t2).length
        rw [exCfg_grid]; norm_num) rfl (by intro h; cases h) (by intro h; cases h) 0
  have hk : 2 ≤ (mkGrid (exCfg 2 3 4 10 true true false).t1 (exCfg 2 3 4 10 true true false).t2).length := by
    rw [exCfg_grid]; norm_num
  obtain ⟨ys, r1, zt, r2, bs, h1, h2, h3, ho⟩ := (construct_det_iff optEnv c' rfl hk 0 r' o).1 h
  refine ⟨_, r', (construct_det_iff optEnv ({ exCfg 2 3 4 10 true true false with
    reweight := true, U := some ⟨fun _ t _ => t, none⟩ } : Cfg 2 3 4 ℝ) rfl hk 0 r' _).2 ⟨ys, r1, none, r1, bs, ?_, rfl, ?_, rfl⟩⟩
  · have hslice : ottoSlice optEnv ({ exCfg 2 3 4 10 true true false with
          reweight := true, U := some ⟨fun _ t _ => t, none⟩ } : Cfg 2 3 4 ℝ)
        = ottoSlice optEnv c' := by
      funext i t x
      rw [ottoSlice_bind, ottoSlice_bind]
      simp only [if_true, c', Bool.false_eq_true, if_false]
      congr 1
      funext raw
      rw [C34_constant_constraint optEnv optEnv_optimal (by norm_num) _ raw t (fun _ _ => rfl)]
      rfl
    rw [hslice]; exact h1
  · have : r1 = r2 := by
      simp only [trueFlow, c', Bool.false_and, Bool.false_eq_true, if_false, RandM.pure_ok] at h2
      exact h2.2
    rw [this]; exact h3

end DPFC
