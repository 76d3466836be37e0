import Verif.Lib.Equiv
import Verif.Lib.Affine
import Verif.Lib.Examples

/-!
# C51, C52, C55: the result does not depend on the choice of coordinates, time origin or length unit

`Spec.OutcomeRel R x y`: both constructions raise the same exception, or both succeed with the same
final random state and objects related by `R`.
-/

namespace DPFC
open Spec

section
variable {ρ : Type} {N M d : ℕ}

/-! ### C52: time shift -/

/-- **C52** (numpy). Posing the problem `h` later leaves all flows unchanged and shifts the grid, for
every configuration, kernel and random stream. -/
theorem C52_time_shift (env : Env ρ ℝ) (c : Cfg d N M ℝ) (hd : 0 < d) (h : ℝ) (r : ρ) :
    OutcomeRel (FlowsMapped id (· + h)) (construct env c r) (construct env (delay h c) r) := by
  refine construct_equiv env c (delay h c) id (· + h) hd (mkGrid_delay _ _ _) rfl rfl rfl rfl rfl
    (fun _ => rfl) ?_ ?_ ?_ ?_ r
  · intro i t x
    simp only [id, bind_pure]
    simp only [ottoSlice, delay, noisyStep_delay, ottoStep_delay, ottoReweight_delay]
  · intro i t x
    simp only [id, bind_pure]
    unfold trueSlice
    cases hf : c.fTrue with
    | none => simp [delay, hf]
    | some ft => simp only [delay, hf, Option.map_some, noisyStep_delay, ottoStep_delay]
  · intro i t x
    simp only [id, bind_pure]
    have hrw : ∀ y : Mat d N ℝ, stochReweight env (c.U.map (Constraint.delay h)) y
        = stochReweight env c.U y := by
      intro y
      cases hU : c.U with
      | none => rfl
      | some U => rfl
    have hraw : stochRaw env (delay h c) = stochRaw env c := rfl
    simp only [stochSlice, hraw]
    simp only [delay, hrw]
  · intro i zt b
    simp only [id, bind_pure]
    exact backStep_delay env _ _ c.f c.g h c.deterministic i zt b

/-- **C52** (torch). -/
theorem C52_time_shift_torch (env : Env ρ ℝ) (c : Cfg d N M ℝ) (hd : 0 < d) (h : ℝ) (r : ρ) :
    OutcomeRel (FlowsMapped id (· + h)) (torchConstruct env c r) (torchConstruct env (delay h c) r) := by
  refine torchConstruct_equiv env c (delay h c) id (· + h) hd (torchGrid_delay _ _ _) rfl rfl rfl rfl rfl
    (fun _ => rfl) ?_ ?_ ?_ ?_ r
  · intro i t x
    simp only [id, bind_pure]
    simp only [torchOttoSlice, delay, noisyStep_delay, torchOttoStep_delay, torchOttoRw_delay]
  · intro _ _ i t x
    simp only [id, bind_pure]
    unfold torchTrueSlice
    cases hf : c.fTrue with
    | none => simp [delay, hf]
    | some ft => simp only [delay, hf, Option.map_some, noisyStep_delay, torchTrueStep_delay]
  · intro i t x
    simp only [id, bind_pure]
    have hrw : ∀ y : Mat d N ℝ, torchStochRw env (c.U.map (Constraint.delay h)) y
        = torchStochRw env c.U y := by
      intro y
      cases hU : c.U with
      | none => rfl
      | some U => rfl
    simp only [torchStochSlice, delay, noisyStep_delay, hrw]
  · intro i zt b
    simp only [id, bind_pure]
    exact backStep_delay env _ _ c.f c.g h c.deterministic i zt b

/-! ### C51, C55: affine coordinates -/

/-- **C55** (numpy). In the coordinates `s x + v`, `s > 0`, the flows are the transformed flows, with the
same random stream, for every configuration. Reweighting needs a solver that returns transport plans
(unless `v = 0`) and that does not depend on the unit of the costs (unless `s = 1`); the stochastic sampler
starts coordinates 2, 3, ... at 0 whatever `y1` is, so that `v` must vanish there. -/
theorem C55_affine (env : Env ρ ℝ) (c : Cfg d N M ℝ) (s : ℝ) (v : Fin d → ℝ) (hd : 0 < d) (hN : 0 < N)
    (hs : 0 < s) (hkern : c.kern = "RBF" ∨ c.kern = "periodic")
    (hrw : c.reweight = true →
      (v = 0 ∨ SolverCouples env) ∧ (s = 1 ∨ SolverScaleFree env))
    (hst : c.deterministic = false → ∀ a : Fin d, 2 ≤ a.val → v a = 0) (r : ρ) :
    OutcomeRel (FlowsMapped (moved s v) id) (construct env c r) (construct env (move s v c) r) := by
  have hk := effKern_rbf hkern
  have hk' : effKern (move s v c).kern = "RBF" := hk
  refine construct_equiv env c (move s v c) (moved s v) id hd (by simp [move]) rfl rfl rfl rfl rfl
    ?_ ?_ ?_ ?_ ?_ r
  · intro hdet
    funext a n
    simp only [stochInit, moved, move]
    by_cases ha : a.val ≤ 1
    · simp [ha]
    · have := hst hdet a (by omega)
      simp [ha, this]
  · intro i t x
    unfold ottoSlice
    rw [hk, hk']
    cases hr : c.reweight with
    | false =>
      have hr' : (move s v c).reweight = false := hr
      simp only [hr', Bool.false_eq_true, if_false, bind_pure, id]
      split
      · exact noisyStep_moved env hs c.g c.f x _
      · exact ottoStep_moved _ env hs hN c.g c.f x _
    | true =>
      have hr' : (move s v c).reweight = true := hr
      simp only [hr', if_true, id]
      have hR : ∀ y, (liftM (ottoReweight env (move s v c).U (moved s v y) t) : RandM ρ (Mat d N ℝ))
          = (do let w ← (liftM (ottoReweight env c.U y t) : RandM ρ (Mat d N ℝ)); pure (moved s v w)) := by
        intro y
        rw [← liftM_map]
        exact congrArg liftM (ottoReweight_moved env hs hN (hrw hr).1 (hrw hr).2 c.U y t)
      split
      · have := noisyStep_moved (v := v) env hs c.g c.f x (t - dtc)
        change (noisyStep env (s * c.g) (Drift.move s v c.f) _ _ >>= _) = _
        rw [this]
        simp only [bind_assoc, pure_bind, hR]
      · have := ottoStep_moved true (M := M) (v := v) env hs hN c.g c.f x (t - dtc)
        change (ottoStep true env M "RBF" (s * c.g) (Drift.move s v c.f) _ _ >>= _) = _
        rw [this]
        simp only [bind_assoc, pure_bind, hR]
  · intro i t x
    unfold trueSlice
    rw [hk, hk']
    cases hf : c.fTrue with
    | none => simp only [move, hf, Option.map_none]; rfl
    | some ft =>
      simp only [move, hf, Option.map_some, id]
      split
      · exact noisyStep_moved env hs c.g ft x _
      · exact ottoStep_moved _ env hs hN c.g ft x _
  · intro i t x
    unfold stochSlice
    rw [stochRaw_moved env hs c x]
    cases hr : c.reweight with
    | false =>
      have hr' : (move s v c).reweight = false := hr
      simp only [hr', Bool.false_eq_true, if_false, bind_pure]
    | true =>
      have hr' : (move s v c).reweight = true := hr
      simp only [hr', if_true]
      have hR : ∀ y, (liftM (stochReweight env (move s v c).U (moved s v y)) : RandM ρ (Mat d N ℝ))
          = (do let w ← (liftM (stochReweight env c.U y) : RandM ρ (Mat d N ℝ)); pure (moved s v w)) := by
        intro y
        rw [← liftM_map]
        exact congrArg liftM (stochReweight_moved env hs hN (hrw hr).1 (hrw hr).2 c.U y)
      simp only [bind_assoc, pure_bind, hR]
  · intro i zt b
    unfold npBack
    rw [hk, hk']
    exact backStep_moved env hs _ _ (fun z b => densityAt_moved env hs hN z b)
      (fun z b => bwDensityAt_moved env hs hN z b) c.f c.g c.deterministic i zt b

/-- **C51** (numpy). Shifting all positions by a vector shifts the flows by that vector. -/
theorem C51_translation (env : Env ρ ℝ) (c : Cfg d N M ℝ) (v : Fin d → ℝ) (hd : 0 < d) (hN : 0 < N)
    (hkern : c.kern = "RBF" ∨ c.kern = "periodic") (hrw : c.reweight = true → SolverCouples env)
    (hst : c.deterministic = false → ∀ a : Fin d, 2 ≤ a.val → v a = 0) (r : ρ) :
    OutcomeRel (FlowsMapped (fun x a n => x a n + v a) id) (construct env c r)
      (construct env (move 1 v c) r) := by
  have h := C55_affine env c 1 v hd hN one_pos hkern (fun h => ⟨Or.inr (hrw h), Or.inl rfl⟩) hst r
  have e : (moved (N := N) 1 v) = fun x a n => x a n + v a := by
    funext x a n; simp [moved]
  rwa [e] at h

/-- **C55** (torch), for `d >= 2`. The cost matrix is divided by its maximum, so that no assumption on the
unit of the costs is needed. Deterministic Brownian-bridge mode is left out (C47: it constructs only for
special shapes, and its inducing points are transposed). -/
theorem C55_affine_torch (env : Env ρ ℝ) (c : Cfg d N M ℝ) (s : ℝ) (v : Fin d → ℝ) (hd : 2 ≤ d)
    (hN : 0 < N) (hs : 0 < s) (hkern : c.kern = "RBF" ∨ c.kern = "periodic")
    (hrw : c.reweight = true → v = 0 ∨ SolverCouples env)
    (hbb : c.deterministic = true → (c.reweight && c.brownBridge) = false)
    (hst : c.deterministic = false → ∀ a : Fin d, 2 ≤ a.val → v a = 0) (r : ρ) :
    OutcomeRel (FlowsMapped (moved s v) id) (torchConstruct env c r)
      (torchConstruct env (move s v c) r) := by
  have hk := effKern_rbf hkern
  have hk' : effKern (move s v c).kern = "RBF" := hk
  refine torchConstruct_equiv env c (move s v c) (moved s v) id (by omega) ?_ rfl rfl rfl rfl rfl
    ?_ ?_ ?_ ?_ ?_ r
  · rw [List.map_id_fun]
    change torchGrid c.t1 c.t2 = _
    cases torchGrid c.t1 c.t2 <;> rfl
  · intro hdet
    funext a n
    simp only [stochInit, moved, move]
    by_cases ha : a.val ≤ 1
    · simp [ha]
    · have := hst hdet a (by omega)
      simp [ha, this]
  · intro i t x
    unfold torchOttoSlice
    cases hr : c.reweight with
    | false =>
      have hr' : (move s v c).reweight = false := hr
      simp only [hr', Bool.false_eq_true, if_false, bind_pure, id]
      split
      · exact noisyStep_moved env hs c.g c.f x _
      · exact torchOttoStep_moved env hs hN hd c.g c.f x _
    | true =>
      have hr' : (move s v c).reweight = true := hr
      simp only [hr', if_true, id]
      have hR : ∀ y, (liftM (torchOttoRw env (move s v c).U (moved s v y) t) : RandM ρ (Mat d N ℝ))
          = (do let w ← (liftM (torchOttoRw env c.U y t) : RandM ρ (Mat d N ℝ)); pure (moved s v w)) := by
        intro y
        rw [← liftM_map]
        exact congrArg liftM (torchOttoRw_moved env hs hN (hrw hr) c.U y t)
      split
      · have := noisyStep_moved (v := v) env hs c.g c.f x (t - dtc)
        change (noisyStep env (s * c.g) (Drift.move s v c.f) _ _ >>= _) = _
        rw [this]
        simp only [bind_assoc, pure_bind, hR]
      · have := torchOttoStep_moved (M := M) (v := v) env hs hN hd c.g c.f x (t - dtc)
        change (torchOttoStep env M (s * c.g) (Drift.move s v c.f) _ _ >>= _) = _
        rw [this]
        simp only [bind_assoc, pure_bind, hR]
  · intro hdet h
    rw [hbb hdet] at h; cases h
  · intro i t x
    unfold torchStochSlice
    have := noisyStep_moved (v := v) env hs c.g c.f x (t - dtc)
    change (noisyStep env (s * c.g) (Drift.move s v c.f) (moved s v x) (t - dtc) >>= _) = _
    rw [this]
    cases hr : c.reweight with
    | false =>
      have hr' : (move s v c).reweight = false := hr
      simp only [hr', Bool.false_eq_true, if_false, bind_pure]
    | true =>
      have hr' : (move s v c).reweight = true := hr
      simp only [hr', if_true]
      have hR : ∀ y, (liftM (torchStochRw env (move s v c).U (moved s v y)) : RandM ρ (Mat d N ℝ))
          = (do let w ← (liftM (torchStochRw env c.U y) : RandM ρ (Mat d N ℝ)); pure (moved s v w)) := by
        intro y
        rw [← liftM_map]
        exact congrArg liftM (torchStochRw_moved env hs hN (hrw hr) c.U y)
      simp only [bind_assoc, pure_bind, hR]
  · intro i zt b
    unfold torchBack
    rw [hk, hk']
    exact backStep_moved env hs _ _ (fun z b => torchDensityAt_moved env hs hN hd z b)
      (fun z b => torchBwDensityAt_moved env hs hN hd "RBF" z b) c.f c.g c.deterministic i zt b

/-- **C51** (torch). -/
theorem C51_translation_torch (env : Env ρ ℝ) (c : Cfg d N M ℝ) (v : Fin d → ℝ) (hd : 2 ≤ d) (hN : 0 < N)
    (hkern : c.kern = "RBF" ∨ c.kern = "periodic") (hrw : c.reweight = true → SolverCouples env)
    (hbb : c.deterministic = true → (c.reweight && c.brownBridge) = false)
    (hst : c.deterministic = false → ∀ a : Fin d, 2 ≤ a.val → v a = 0) (r : ρ) :
    OutcomeRel (FlowsMapped (fun x a n => x a n + v a) id) (torchConstruct env c r)
      (torchConstruct env (move 1 v c) r) := by
  have h := C55_affine_torch env c 1 v hd hN one_pos hkern (fun h => Or.inr (hrw h)) hbb hst r
  have e : (moved (N := N) 1 v) = fun x a n => x a n + v a := by
    funext x a n; simp [moved]
  rwa [e] at h

end

/-! ### The hypotheses can be met -/

/-- An optimal solver is independent of the unit of the costs: the hypotheses on the solver hold for
`optEnv`. -/
theorem optEnv_scaleFree : SolverScaleFree optEnv := by
  intro n a b C s hs
  have hcost : ∀ T, planCost (fun i j => s * C i j) T = s * planCost C T := by
    intro T
    simp only [planCost, Finset.mul_sum]
    exact Finset.sum_congr rfl fun i _ => Finset.sum_congr rfl fun j _ => by ring
  have hopt : IsOptimal a b (fun i j => s * C i j) = IsOptimal a b C := by
    funext T
    simp only [IsOptimal, hcost, mul_le_mul_iff_right₀ hs]
  unfold optEnv
  dsimp only
  rw [hopt]

/-- A solver returning the independent plan. -/
noncomputable def prodEnv : Env ℕ ℝ where
  normal r := (r, r + 1)
  uniform r := (1/2, r + 1)
  emd a b _ := .ok fun i j => a i * b j

theorem prodEnv_couples : SolverCouples prodEnv := by
  intro n a b C T ha hb h
  cases h
  refine ⟨fun i j => mul_nonneg (ha.1 i) (hb.1 j), fun i => ?_, fun j => ?_⟩
  · rw [← Finset.mul_sum, hb.2, mul_one]
  · rw [← Finset.sum_mul, ha.2, one_mul]

/-- Affine change of coordinates in full numpy reweighting and Brownian-bridge mode: both constructions
succeed, and the second is the transformed first one. -/
example (r : ℕ) : ∃ o o' r', construct prodEnv (exCfg 3 4 5 10 true true true) r = .ok (o, r') ∧
    construct prodEnv (move 2 (fun a => a.val + 1) (exCfg 3 4 5 10 true true true)) r = .ok (o', r') ∧
    FlowsMapped (moved 2 fun a => a.val + 1) id o o' ∧ o.timegrid.length = 11 := by
  have hgl := exCfg_grid 3 4 5 10 true true true
  obtain ⟨o, r', h⟩ := construct_det_total prodEnv (exCfg 3 4 5 10 true true true) (by norm_num) rfl
    (by rw [hgl]; norm_num) rfl (fun _ => ⟨by simp [exCfg], fun _ _ _ _ => ⟨_, rfl⟩⟩)
    (fun _ _ => by simp [exCfg]) r
  have hrel := C55_affine prodEnv (exCfg 3 4 5 10 true true true) 2 (fun a => a.val + 1) (by norm_num)
    (by norm_num) (by norm_num) (Or.inl rfl)
    (fun _ => ⟨Or.inr prodEnv_couples, Or.inr fun _ _ _ _ _ _ => rfl⟩) (fun h => by cases h) r
  rw [h] at hrel
  rcases h' : construct prodEnv (move 2 (fun a => a.val + 1) (exCfg 3 4 5 10 true true true)) r
    with e | ⟨o', r''⟩
  · rw [h'] at hrel; exact hrel.elim
  · rw [h'] at hrel
    obtain ⟨hF, rfl⟩ := hrel
    exact ⟨o, o', r', h, rfl, hF, by rw [(construct_fields h).2, hgl]⟩

/-- The same for the torch class. -/
example (r : ℕ) : ∃ o o' r', torchConstruct exEnv (exFan 3 4 5 10) r = .ok (o, r') ∧
    torchConstruct exEnv (move 1 (fun a => a.val + 1) (exFan 3 4 5 10)) r = .ok (o', r') ∧
    FlowsMapped (fun x a n => x a n + (a.val + 1)) id o o' ∧ o.timegrid.length = 11 := by
  obtain ⟨o, r', h, hl⟩ := ex_torch 3 4 5 10 (by norm_num) (by norm_num) (by norm_num) r
  have hrel := C51_translation_torch exEnv (exFan 3 4 5 10) (fun a => a.val + 1) (by norm_num)
    (by norm_num) (Or.inl rfl) (fun h => by cases h) (fun _ => rfl) (fun h => by cases h) r
  rw [h] at hrel
  rcases h' : torchConstruct exEnv (move 1 (fun a => a.val + 1) (exFan 3 4 5 10)) r with e | ⟨o', r''⟩
  · rw [h'] at hrel; exact hrel.elim
  · rw [h'] at hrel
    obtain ⟨hF, rfl⟩ := hrel
    exact ⟨o, o', r', h, rfl, hF, hl⟩

/-- A run posed 5 time units later. -/
example (r : ℕ) : ∃ o o' r', construct exEnv (exCfg 3 4 5 10 false false false) r = .ok (o, r') ∧
    construct exEnv (delay 5 (exCfg 3 4 5 10 false false false)) r = .ok (o', r') ∧
    o'.Z = o.Z ∧ o'.B = o.B ∧ o'.timegrid = o.timegrid.map (· + 5) ∧ o.timegrid.length = 11 := by
  obtain ⟨o, r', h, hl⟩ := ex_stoch 3 4 5 10 false (by norm_num) (by norm_num) (by norm_num) r
  have hrel := C52_time_shift exEnv (exCfg 3 4 5 10 false false false) (by norm_num) 5 r
  rw [h] at hrel
  rcases h' : construct exEnv (delay 5 (exCfg 3 4 5 10 false false false)) r with e | ⟨o', r''⟩
  · rw [h'] at hrel; exact hrel.elim
  · rw [h'] at hrel
    obtain ⟨⟨h1, h2, h3, _⟩, rfl⟩ := hrel
    exact ⟨o, o', r', h, rfl, by simpa using h2, by simpa using h3, h1, hl⟩

end DPFC
