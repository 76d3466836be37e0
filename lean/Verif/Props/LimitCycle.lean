import Verif.Lib.LimitCycle
import Verif.Props.Verdict
import Verif.Props.TorchVerdict
import Verif.Props.Pins
import Verif.Props.Grid
import Verif.Props.Equivariance
import Verif.Props.Loop
import Verif.Props.Displace
import Mathlib.Analysis.SpecificLimits.Basic
import Mathlib.Analysis.Calculus.Deriv.Pow
import Mathlib.Analysis.SpecialFunctions.ExpDeriv

/-!
# C86: the limit-cycle example scripts
-/

namespace DPFC
open Spec

section
variable {ρ : Type} {N M n : ℕ}

/-! ### The system -/

/-- **C86** (drift). The drift of the scripts is a rotation plus `σ^2/2` times the script's analytic gradient; so a
probability-flow step with that gradient as score is a pure rotation, which enlarges every radius by the factor
`sqrt (1 + dt^2)`. -/
theorem C86_drift (σ : ℝ) (hσ : σ ≠ 0) (x : Mat 2 n ℝ) (j : Fin n) :
    lcF x 0 j = - x 1 j + σ ^ 2 / 2 * lcScore x σ 0 j ∧ lcF x 1 j = x 0 j + σ ^ 2 / 2 * lcScore x σ 1 j ∧
    (x 0 j + 1/1000 * (lcF x 0 j - σ ^ 2 / 2 * lcScore x σ 0 j)) ^ 2
      + (x 1 j + 1/1000 * (lcF x 1 j - σ ^ 2 / 2 * lcScore x σ 1 j)) ^ 2
      = (1 + (1/1000) ^ 2) * (x 0 j ^ 2 + x 1 j ^ 2) := by
  have h10 : (1 : Fin 2) ≠ 0 := by decide
  have e0 : lcF x 0 j = - x 1 j + σ ^ 2 / 2 * lcScore x σ 0 j := by
    rw [lcF_real, if_pos rfl]
    unfold cycleX lcScore
    simp only [real_lit_half, real_lit_one, real_sq]
    field_simp
    ring
  have e1 : lcF x 1 j = x 0 j + σ ^ 2 / 2 * lcScore x σ 1 j := by
    rw [lcF_real, if_neg h10]
    unfold cycleY lcScore
    simp only [real_lit_half, real_lit_one, real_sq]
    field_simp
    ring
  refine ⟨e0, e1, ?_⟩
  rw [e0, e1]
  ring

theorem cycleDensity_dx (σ x y : ℝ) (hσ : σ ≠ 0) : HasDerivAt (fun u => cycleDensity σ u y)
    (cycleDensity σ x y * (- (2 * x * (x ^ 2 + y ^ 2 - 1)) / σ ^ 2)) x := by
  have h : HasDerivAt (fun u : ℝ => - (u ^ 2 + y ^ 2 - 1) ^ 2 / (2 * σ ^ 2))
      (- (2 * x * (x ^ 2 + y ^ 2 - 1)) / σ ^ 2) x := by
    have h1 : HasDerivAt (fun u : ℝ => u ^ 2 + y ^ 2 - 1) (2 * x) x := by
      have := ((hasDerivAt_pow 2 x).add_const (y ^ 2)).sub_const 1
      simpa using this
    have h2 := ((h1.pow 2).neg).div_const (2 * σ ^ 2)
    refine h2.congr_deriv ?_
    norm_num
    field_simp
  exact h.exp

theorem cycleDensity_symm (σ x y : ℝ) : cycleDensity σ x y = cycleDensity σ y x := by
  unfold cycleDensity; rw [add_comm (x ^ 2)]

theorem cycleDensity_dy (σ x y : ℝ) (hσ : σ ≠ 0) : HasDerivAt (fun v => cycleDensity σ x v)
    (cycleDensity σ x y * (- (2 * y * (x ^ 2 + y ^ 2 - 1)) / σ ^ 2)) y := by
  have := cycleDensity_dx σ y x hσ
  simp only [cycleDensity_symm σ _ x] at this
  rwa [add_comm (y ^ 2)] at this

/-- **C86** (analytic gradient). `glnfss(x, σ)` is the gradient of the logarithm of `exp (-(r^2-1)^2 / (2σ^2))`. -/
theorem C86_analytic_gradient (σ x y : ℝ) (hσ : σ ≠ 0) :
    HasDerivAt (fun u => Real.log (cycleDensity σ u y)) (lcScore (point x y) σ 0 0) x ∧
    HasDerivAt (fun v => Real.log (cycleDensity σ x v)) (lcScore (point x y) σ 1 0) y := by
  have hp : cycleDensity σ x y ≠ 0 := (Real.exp_pos _).ne'
  constructor
  · have := (cycleDensity_dx σ x y hσ).log hp
    convert this using 1
    simp only [lcScore, point, real_lit_half, real_lit_one, real_sq]
    norm_num
    field_simp
  · have := (cycleDensity_dy σ x y hσ).log hp
    convert this using 1
    simp only [lcScore, point, real_lit_half, real_lit_one, real_sq]
    norm_num
    field_simp

/-- **C86** (invariant density). `p = exp (-(r^2-1)^2 / (2σ^2))` solves the stationary Fokker-Planck equation
`div (f p) = σ^2/2 Δp` of the system with the drift `f` of the scripts and noise strength `σ`. -/
theorem C86_stationary (σ x y : ℝ) (hσ : σ ≠ 0) :
    deriv (fun u => lcF (point u y) 0 0 * cycleDensity σ u y) x + deriv (fun v => lcF (point x v) 1 0 * cycleDensity σ x v) y
      = σ ^ 2 / 2 * (deriv (deriv fun u => cycleDensity σ u y) x + deriv (deriv fun v => cycleDensity σ x v) y) := by
  have h10 : (1 : Fin 2) ≠ 0 := by decide
  have f0 : ∀ u : ℝ, lcF (point u y) 0 0 = - y + u * (1 - u ^ 2 - y ^ 2) := by
    intro u; rw [lcF_real, if_pos rfl]; simp [point, cycleX]
  have f1 : ∀ v : ℝ, lcF (point x v) 1 0 = x + v * (1 - x ^ 2 - v ^ 2) := by
    intro u; rw [lcF_real, if_neg h10]; simp [point, cycleY]
  have poly0 : HasDerivAt (fun u : ℝ => - y + u * (1 - u ^ 2 - y ^ 2)) (1 - 3 * x ^ 2 - y ^ 2) x := by
    have h1 : HasDerivAt (fun u : ℝ => 1 - u ^ 2 - y ^ 2) (- (2 * x)) x := by
      simpa using ((hasDerivAt_pow 2 x).const_sub 1).sub_const (y ^ 2)
    have := ((hasDerivAt_id x).mul h1).const_add (- y)
    refine this.congr_deriv ?_
    simp; ring
  have poly1 : HasDerivAt (fun v : ℝ => x + v * (1 - x ^ 2 - v ^ 2)) (1 - x ^ 2 - 3 * y ^ 2) y := by
    have h1 : HasDerivAt (fun u : ℝ => 1 - x ^ 2 - u ^ 2) (- (2 * y)) y := by
      simpa using (hasDerivAt_pow 2 y).const_sub (1 - x ^ 2)
    have := ((hasDerivAt_id y).mul h1).const_add x
    refine this.congr_deriv ?_
    simp; ring
  have q0 : ∀ u : ℝ, deriv (fun u => cycleDensity σ u y) u
      = cycleDensity σ u y * (- (2 * u * (u ^ 2 + y ^ 2 - 1)) / σ ^ 2) := fun u => (cycleDensity_dx σ u y hσ).deriv
  have q1 : ∀ v : ℝ, deriv (fun v => cycleDensity σ x v) v
      = cycleDensity σ x v * (- (2 * v * (x ^ 2 + v ^ 2 - 1)) / σ ^ 2) := fun v => (cycleDensity_dy σ x v hσ).deriv
  have r0 : HasDerivAt (fun u : ℝ => - (2 * u * (u ^ 2 + y ^ 2 - 1)) / σ ^ 2) (- (6 * x ^ 2 + 2 * y ^ 2 - 2) / σ ^ 2) x := by
    have h1 : HasDerivAt (fun u : ℝ => u ^ 2 + y ^ 2 - 1) (2 * x) x := by
      simpa using ((hasDerivAt_pow 2 x).add_const (y ^ 2)).sub_const 1
    have := ((((hasDerivAt_id x).const_mul 2).mul h1).neg).div_const (σ ^ 2)
    refine this.congr_deriv ?_
    simp; ring
  have r1 : HasDerivAt (fun v : ℝ => - (2 * v * (x ^ 2 + v ^ 2 - 1)) / σ ^ 2) (- (2 * x ^ 2 + 6 * y ^ 2 - 2) / σ ^ 2) y := by
    have h1 : HasDerivAt (fun u : ℝ => x ^ 2 + u ^ 2 - 1) (2 * y) y := by
      simpa using ((hasDerivAt_pow 2 y).const_add (x ^ 2)).sub_const 1
    have := ((((hasDerivAt_id y).const_mul 2).mul h1).neg).div_const (σ ^ 2)
    refine this.congr_deriv ?_
    simp; ring
  have d0 := (poly0.mul (cycleDensity_dx σ x y hσ)).deriv
  have d1 := (poly1.mul (cycleDensity_dy σ x y hσ)).deriv
  have s0 := ((cycleDensity_dx σ x y hσ).mul r0).deriv
  have s1 := ((cycleDensity_dy σ x y hσ).mul r1).deriv
  simp only [f0, f1, funext q0, funext q1]
  erw [d0, d1, s0, s1]
  field_simp
  ring

example : lcF (n := 1) (point (1/2) (1/3)) 0 0 = - (1/3) + 1/2 * (23/36) := by
  rw [lcF_real, if_pos rfl]; norm_num [point, cycleX]

/-! ### The simulated reference path -/

/-- **C86** (reference path). The simulation always returns: `T/dt` states (rounded up) of the Euler-Maruyama scheme
from `x0`, each step with two fresh normals. -/
theorem C86_reference_path (env : Env ρ ℝ) (g T : ℝ) (x0 : Fin 2 → ℝ) (r : ρ) :
    ∃ F : Traj 2 1 ℝ, F.length = ⌈1000 * T⌉₊ ∧
      refPath env g x0 T r = .ok (F, (cyclePath env g (x0 0) (x0 1) r (⌈1000 * T⌉₊ - 1)).2.2) ∧
      ∀ (i : ℕ) (x : Mat 2 1 ℝ), F[i]? = some x ↔ (i : ℝ) < 1000 * T ∧ x = fun a _ => cycleState env g (x0 0) (x0 1) r i a := by
  refine ⟨_, by simp, refPath_real env g x0 T r, fun i x => ?_⟩
  rw [← lt_of_cast, List.getElem?_map]
  by_cases h : i < ⌈1000 * T⌉₊
  · rw [List.getElem?_range h]
    simp only [Option.map_some, Option.some.injEq, h, true_and]
    exact eq_comm
  · rw [List.getElem?_eq_none (by simpa using h)]
    simp [h]

/-- **C86** (no noise, stable region). Without noise, from a squared radius `s` with `0 < s <= 300` the squared radius
approaches a value between `1 + dt/2` and `1 + dt`, monotonically and geometrically. -/
theorem C86_settles (env : Env ρ ℝ) (x y : ℝ) (r : ρ) (h0 : 0 < x ^ 2 + y ^ 2) (h1 : x ^ 2 + y ^ 2 ≤ 300) (i : ℕ) :
    (1 + 1/2000 ≤ cycleLimit ∧ cycleLimit ≤ 1 + 1/1000) ∧
    |cycleR2 env 0 x y r i - cycleLimit|
      ≤ (1 - min 1 (x ^ 2 + y ^ 2) / 625) ^ i * |x ^ 2 + y ^ 2 - cycleLimit| ∧
    (x ^ 2 + y ^ 2 ≤ cycleLimit → cycleR2 env 0 x y r i ≤ cycleR2 env 0 x y r (i+1) ∧ cycleR2 env 0 x y r i ≤ cycleLimit) ∧
    (cycleLimit ≤ x ^ 2 + y ^ 2 → cycleR2 env 0 x y r (i+1) ≤ cycleR2 env 0 x y r i ∧ cycleLimit ≤ cycleR2 env 0 x y r i) := by
  refine ⟨cycleLimit_bounds, ?_⟩
  have hm : 0 < min 1 (x ^ 2 + y ^ 2) := lt_min one_pos h0
  have hm1 : min 1 (x ^ 2 + y ^ 2) ≤ 1 := min_le_left _ _
  have key : ∀ i, min 1 (x ^ 2 + y ^ 2) ≤ cycleR2 env 0 x y r i ∧ cycleR2 env 0 x y r i ≤ 300 ∧
      |cycleR2 env 0 x y r i - cycleLimit|
        ≤ (1 - min 1 (x ^ 2 + y ^ 2) / 625) ^ i * |x ^ 2 + y ^ 2 - cycleLimit| ∧
      (x ^ 2 + y ^ 2 ≤ cycleLimit → cycleR2 env 0 x y r i ≤ cycleLimit) ∧
      (cycleLimit ≤ x ^ 2 + y ^ 2 → cycleLimit ≤ cycleR2 env 0 x y r i) := by
    intro i
    induction i with
    | zero => exact ⟨min_le_right _ _, h1, by rw [pow_zero, one_mul]; exact le_rfl, id, id⟩
    | succ i ih =>
      obtain ⟨a, b, c, d, e⟩ := ih
      obtain ⟨a', b', c', d', e'⟩ := rad_inside hm hm1 a b
      rw [cycleR2_succ]
      refine ⟨a', b', ?_, fun h => (d' (d h)).2, fun h => (e' (e h)).1⟩
      calc _ ≤ _ := c'
        _ ≤ (1 - min 1 (x ^ 2 + y ^ 2) / 625)
            * ((1 - min 1 (x ^ 2 + y ^ 2) / 625) ^ i * |x ^ 2 + y ^ 2 - cycleLimit|) :=
          mul_le_mul_of_nonneg_left c (by linarith)
        _ = _ := by rw [pow_succ]; ring
  obtain ⟨a, b, c, d, e⟩ := key i
  obtain ⟨a', b', c', d', e'⟩ := rad_inside hm hm1 a b
  rw [cycleR2_succ]
  exact ⟨c, fun h => ⟨(d' (d h)).1, d h⟩, fun h => ⟨(e' (e h)).2, e h⟩⟩

/-- **C86** (no noise, limit). -/
theorem C86_settles_limit (env : Env ρ ℝ) (x y : ℝ) (r : ρ) (h0 : 0 < x ^ 2 + y ^ 2) (h1 : x ^ 2 + y ^ 2 ≤ 300) :
    Filter.Tendsto (cycleR2 env 0 x y r) Filter.atTop (nhds cycleLimit) := by
  rw [tendsto_iff_dist_tendsto_zero]
  have hm : 0 < min 1 (x ^ 2 + y ^ 2) := lt_min one_pos h0
  have hm1 : min 1 (x ^ 2 + y ^ 2) ≤ 1 := min_le_left _ _
  have hg := (tendsto_pow_atTop_nhds_zero_of_lt_one (r := 1 - min 1 (x ^ 2 + y ^ 2) / 625) (by linarith)
    (by linarith)).mul_const |x ^ 2 + y ^ 2 - cycleLimit|
  rw [zero_mul] at hg
  refine squeeze_zero (fun _ => dist_nonneg) (fun i => ?_) hg
  rw [Real.dist_eq]
  exact (C86_settles env x y r h0 h1 i).2.1

/-- **C86** (no noise, instability). From a squared radius of at least 2002 the scheme explodes geometrically although
the system itself returns to the circle. -/
theorem C86_explodes (env : Env ρ ℝ) (x y : ℝ) (r : ρ) (h : 2002 ≤ x ^ 2 + y ^ 2) (i : ℕ) :
    2002 * (1002/1000) ^ i ≤ cycleR2 env 0 x y r i := by
  have key : ∀ i, 2002 * (1002/1000 : ℝ) ^ i ≤ cycleR2 env 0 x y r i ∧ 2002 ≤ cycleR2 env 0 x y r i := by
    intro i
    induction i with
    | zero => exact ⟨by rw [pow_zero, mul_one]; exact h, h⟩
    | succ i ih =>
      have := rad_outside ih.2
      rw [cycleR2_succ]
      have hpos : (0:ℝ) ≤ (1002/1000) ^ i := by positivity
      refine ⟨?_, by nlinarith [ih.2]⟩
      rw [pow_succ]
      nlinarith [ih.1]
  exact (key i).1

/-! ### The scripts -/

/-- **C86** (what the scripts compute). If the reference path is long enough for the indices, the script gets past the
constructor, which is called with these states, the drift and noise of the path and default options: the object has `steps + 1` time points, one `dt` apart, starting at `timeIx * dt`, and its backward flow
leads from state `stateIx` of the reference path to state `stateIx + steps`. Otherwise IndexError. -/
theorem C86_bridge (env : Env ρ ℝ) (hN : 0 < N) (s : LcSetup ℝ) (r : ρ) :
    (LongEnough s → ∃ F o r', lcBridge env N M s r = .ok ((F, o), r') ∧
      construct env (lcCfg s.g (s.timeIx / 1000) (s.timeIx / 1000 + s.steps / 1000)
          (cycleState env s.g (s.x0 0) (s.x0 1) r s.stateIx) (cycleState env s.g (s.x0 0) (s.x0 1) r (s.stateIx + s.steps)))
        (cyclePath env s.g (s.x0 0) (s.x0 1) r (⌈1000 * s.T⌉₊ - 1)).2.2 = .ok (o, r') ∧
      o.timegrid.length = s.steps + 1 ∧
      (∀ (i : ℕ) (t : ℝ), o.timegrid[i]? = some t → t = (s.timeIx + i) / 1000) ∧
      (∃ S, o.B[0]? = some S ∧ ∀ a m, S a m = cycleState env s.g (s.x0 0) (s.x0 1) r s.stateIx a) ∧
      (1 ≤ s.steps →
        ∃ S, o.B[s.steps]? = some S ∧ ∀ a m, S a m = cycleState env s.g (s.x0 0) (s.x0 1) r (s.stateIx + s.steps) a)) ∧
    (¬ LongEnough s → lcBridge env N M s r = .error .indexError) := by
  constructor
  · intro h
    have hlen : (mkGrid (lcCall (N := N) (M := M) env s r).t1 (lcCall (N := N) (M := M) env s r).t2).length = s.steps + 1 :=
      mkGrid_length_steps _ _
    have hv := C63_verdict env (lcCall (N := N) (M := M) env s r) hN (by norm_num) (fun h => by cases h)
      (cyclePath env s.g (s.x0 0) (s.x0 1) r (⌈1000 * s.T⌉₊ - 1)).2.2
    have hk : npVerdict (mkGrid (lcCall (N := N) (M := M) env s r).t1 (lcCall (N := N) (M := M) env s r).t2).length
        (lcCall (N := N) (M := M) env s r) = none := by
      rw [hlen]
      simp [npVerdict, lcCall, lcCfg, KnownKernel]
    rw [hk] at hv
    obtain ⟨o, r', ho⟩ := hv
    have hg := C01_grid_points env _ _ _ _ (Or.inl ho)
    have hsh := C01_grid_shape _ _ _ hg
    have hl : o.timegrid.length = s.steps + 1 := (hsh.2.2 s.steps (by simp only [lcCall, lcCfg]; ring)).1
    obtain ⟨S, hS, hS'⟩ := C03_backward_flow_starts_at_y1 env _ (by norm_num) _ _ _ (Or.inl ho)
    refine ⟨_, o, r', by rw [lcBridge_real env s r h, ho], ho, hl, ?_, ⟨S, hS, fun a m => hS' a m⟩, ?_⟩
    · intro i t ht
      have := ((hg i t).1 ht).1
      rw [this]
      simp only [lcCall, lcCfg]
      ring
    · intro h1
      obtain ⟨S, hS, hS'⟩ := C04_backward_flow_ends_at_y2 env _ (by norm_num) _ _ _ (Or.inl ho) (by omega)
      rw [hl, Nat.add_sub_cancel] at hS
      exact ⟨S, hS, fun a m => hS' a m⟩
  · intro h
    unfold lcBridge
    rw [RandM.bind_app, refPath_real]
    simp only
    rw [lcArgs_short env s r h, RandM.liftM_error]
    rfl

/-- **C86** (the time index is irrelevant). script_1.py takes the times from index 10 and the states from index 100:
because the drift does not depend on time, any other time index gives the same flows and the same final generator
state, only the time points are shifted. -/
theorem C86_time_index (env : Env ρ ℝ) (hN : 0 < N) (s : LcSetup ℝ) (τ : ℕ) (r : ρ) (h : LongEnough s)
    (h' : LongEnough { s with timeIx := τ }) :
    ∃ F o o' r', lcBridge env N M s r = .ok ((F, o), r') ∧ lcBridge env N M { s with timeIx := τ } r = .ok ((F, o'), r') ∧
      o'.Z = o.Z ∧ o'.B = o.B ∧ o'.timegrid = o.timegrid.map (· + ((τ : ℝ) - s.timeIx) / 1000) := by
  obtain ⟨F, o, r', h1, h2, -⟩ := (C86_bridge (M := M) env hN s r).1 h
  have hd : lcCall (N := N) (M := M) env { s with timeIx := τ } r = delay (((τ : ℝ) - s.timeIx) / 1000) (lcCall env s r) := by
    unfold lcCall delay lcCfg
    simp only [Option.map_none]
    congr 1
    · ring
    · ring
  have hrel := C52_time_shift env (lcCall (N := N) (M := M) env s r) (by norm_num) (((τ : ℝ) - s.timeIx) / 1000)
    (cyclePath env s.g (s.x0 0) (s.x0 1) r (⌈1000 * s.T⌉₊ - 1)).2.2
  have h2' : construct env (lcCall (N := N) (M := M) env s r)
    (cyclePath env s.g (s.x0 0) (s.x0 1) r (⌈1000 * s.T⌉₊ - 1)).2.2 = .ok (o, r') := h2
  have hF : F = (List.range ⌈1000 * s.T⌉₊).map fun j => fun a _ => cycleState env s.g (s.x0 0) (s.x0 1) r j a := by
    rw [lcBridge_real env s r h, h2'] at h1
    simp only [Except.ok.injEq, Prod.mk.injEq] at h1
    exact h1.1.1.symm
  rw [h2', ← hd] at hrel
  have e := lcBridge_real (N := N) (M := M) env { s with timeIx := τ } r h'
  simp only at e
  cases hc : construct env (lcCall (N := N) (M := M) env { s with timeIx := τ } r)
      (cyclePath env s.g (s.x0 0) (s.x0 1) r (⌈1000 * s.T⌉₊ - 1)).2.2 with
  | error er => rw [hc] at hrel; exact hrel.elim
  | ok p =>
    obtain ⟨o', r2⟩ := p
    rw [hc] at hrel e
    obtain ⟨hm, rfl⟩ := hrel
    refine ⟨F, o, o', _, h1, by rw [e, hF], ?_, ?_, hm.1⟩
    · rw [hm.2.1, List.map_id]
    · rw [hm.2.2.1, List.map_id]

/-- **C86** (torch version). The torch script either returns an object with the same properties, or its constructor
raises ValueError because the forward flow loses its spread; IndexError if the reference path is too short. -/
theorem C86_torch (env : Env ρ ℝ) (hN : 0 < N) (s : LcSetup ℝ) (r : ρ) (h2 : 2 ≤ s.steps) :
    (LongEnough s →
      (∃ F o r', lcTorch env N M s r = .ok ((F, o), r') ∧ o.timegrid.length = s.steps + 1 ∧
        (∃ S, o.B[0]? = some S ∧ ∀ a m, S a m = cycleState env s.g (s.x0 0) (s.x0 1) r s.stateIx a) ∧
        ∃ S, o.B[s.steps]? = some S ∧ ∀ a m, S a m = cycleState env s.g (s.x0 0) (s.x0 1) r (s.stateIx + s.steps) a) ∨
      (lcTorch env N M s r = .error .valueError ∧
        ∃ grid, torchGrid ((s.timeIx : ℝ) / 1000) (s.timeIx / 1000 + s.steps / 1000) = .ok grid ∧
          LosesSpread (N := N) (M := M) env (lcCfg s.g (s.timeIx / 1000) (s.timeIx / 1000 + s.steps / 1000)
            (cycleState env s.g (s.x0 0) (s.x0 1) r s.stateIx)
            (cycleState env s.g (s.x0 0) (s.x0 1) r (s.stateIx + s.steps))) grid
            (cyclePath env s.g (s.x0 0) (s.x0 1) r (⌈1000 * s.T⌉₊ - 1)).2.2)) ∧
    (¬ LongEnough s → lcTorch env N M s r = .error .indexError) := by
  constructor
  · intro h
    have hg : torchGrid (lcCall (N := N) (M := M) env s r).t1 (lcCall (N := N) (M := M) env s r).t2
        = .ok (mkGrid (lcCall (N := N) (M := M) env s r).t1 (lcCall (N := N) (M := M) env s r).t2) := by
      unfold torchGrid
      rw [if_neg, torchPoints_real]
      simp only [real_ltB, lcCall, lcCfg, dtc]
      have : (0:ℝ) ≤ s.steps / 1000 := by positivity
      have h2 : (lit 2 1 : ℝ) = 2 := by rw [real_lit_int]; norm_num
      rw [h2, real_lit_milli]
      linarith
    have hlen : (mkGrid (lcCall (N := N) (M := M) env s r).t1 (lcCall (N := N) (M := M) env s r).t2).length = s.steps + 1 :=
      mkGrid_length_steps _ _
    have hv : torchVerdict (mkGrid (lcCall (N := N) (M := M) env s r).t1 (lcCall (N := N) (M := M) env s r).t2).length
        (lcCall (N := N) (M := M) env s r) = none := by
      rw [hlen]
      simp [torchVerdict, lcCall, lcCfg, KnownKernel]
    have hx := C64_value_error_iff env (lcCall (N := N) (M := M) env s r) hN (by norm_num) rfl rfl (fun h => by cases h)
      _ hg (by rw [hlen]; omega) hv (cyclePath env s.g (s.x0 0) (s.x0 1) r (⌈1000 * s.T⌉₊ - 1)).2.2
    by_cases hl : LosesSpread env (lcCall (N := N) (M := M) env s r)
        (mkGrid (lcCall (N := N) (M := M) env s r).t1 (lcCall (N := N) (M := M) env s r).t2)
        (cyclePath env s.g (s.x0 0) (s.x0 1) r (⌈1000 * s.T⌉₊ - 1)).2.2
    · refine Or.inr ⟨?_, _, hg, hl⟩
      rw [lcTorch_real env s r h, hx.1.2 hl]
    · obtain ⟨o, r', ho⟩ := hx.2.2 hl
      have hgr := C01_grid_points env _ _ _ _ (Or.inr ho)
      have hsh := C01_grid_shape _ _ _ hgr
      have hl : o.timegrid.length = s.steps + 1 := (hsh.2.2 s.steps (by simp only [lcCall, lcCfg]; ring)).1
      obtain ⟨S, hS, hS'⟩ := C03_backward_flow_starts_at_y1 env _ (by norm_num) _ _ _ (Or.inr ho)
      obtain ⟨S2, hS2, hS2'⟩ := C04_backward_flow_ends_at_y2 env _ (by norm_num) _ _ _ (Or.inr ho) (by omega)
      rw [hl, Nat.add_sub_cancel] at hS2
      exact Or.inl ⟨_, o, r', by rw [lcTorch_real env s r h, ho], hl, ⟨S, hS, fun a m => hS' a m⟩,
        ⟨S2, hS2, fun a m => hS2' a m⟩⟩
  · intro h
    unfold lcTorch
    rw [RandM.bind_app, refPath_real]
    simp only
    rw [lcArgs_short env s r h, RandM.liftM_error]
    rfl

/-- **C86** (the whole example). If moreover both flows have spread at the inner time points, the example runs to its
end: the ensembles are Euler-Maruyama simulations of the limit-cycle system, with and without the controls, from the
state in which the backward flow starts. -/
theorem C86_example (env : Env ρ ℝ) (hN : 0 < N) (s : LcSetup ℝ) (r : ρ) (h : LongEnough s) (h1 : 1 ≤ s.steps)
    (hs : ∀ F o r', lcBridge env N M s r = .ok ((F, o), r') → ∀ i : ℕ, 1 ≤ i → i < s.steps →
      ∃ b z, o.B[i]? = some b ∧ o.Z[i]? = some z ∧ Spread b ∧ Spread z) :
    ∃ F o P q r' rs, lcBridge env N M s r = .ok ((F, o), q) ∧ lcExample env N M n s r = .ok ((F, o, P), r') ∧
      rs 1 = q ∧ rs s.steps = r' ∧
      LoopRun env (fun x i => calculateU env o x i) (lcF (n := n)) s.g
        (cycleState env s.g (s.x0 0) (s.x0 1) r s.stateIx) (s.steps + 1) P.cont P.free P.used rs := by
  obtain ⟨F, o, q, e1, e2, e3, -⟩ := (C86_bridge (M := M) env hN s r).1 h
  have hcfg : o.cfg = lcCall env s r := (construct_fields e2).1
  have hrun := C67_runs (n := n) env o hN (Or.inl (by rw [hcfg]; rfl)) (by rw [hcfg]; rfl) (by omega)
    (fun i h1 h2 => hs F o q e1 i h1 (by omega)) (lcF (n := n)) s.g o.cfg.y1 q
  obtain ⟨P, r', -, hP, -, -⟩ := hrun
  obtain ⟨rs, k1, k2, k3⟩ := C67_simulation env o (lcF (n := n)) s.g o.cfg.y1 (by omega) q r' P hP
  rw [e3] at k2 k3
  refine ⟨F, o, P, q, r', rs, e1, ?_, k1, k2, ?_⟩
  · unfold lcExample
    rw [RandM.bind_app, e1]
    simp only
    rw [RandM.bind_app, hP]
    rfl
  · have : o.cfg.y1 = cycleState env s.g (s.x0 0) (s.x0 1) r s.stateIx := by rw [hcfg]; rfl
    rwa [this] at k3

/-- **C86** (the three scripts as written). Their reference paths are long enough: script_1.py and
Bridge_2D_on_Limit_Cycle.py get an object with 2001 and 4001 time points for every random stream, and
test_torch_bridge_on_LC.py gets one with 501 time points or ValueError. -/
theorem C86_scripts (env : Env ρ ℝ) (r : ρ) :
    (∃ F o r', lcBridge env 200 40 script1 r = .ok ((F, o), r') ∧ F.length = 500000 ∧ o.timegrid.length = 2001) ∧
    (∃ F o r', lcBridge env 200 40 bridgeScript r = .ok ((F, o), r') ∧ F.length = 500000 ∧ o.timegrid.length = 4001) ∧
    ((∃ F o r', lcTorch env 200 40 torchScript r = .ok ((F, o), r') ∧ F.length = 50000 ∧ o.timegrid.length = 501) ∨
      lcTorch env 200 40 torchScript r = .error .valueError) := by
  have l1 : LongEnough script1 := by unfold LongEnough script1; norm_num
  have l2 : LongEnough bridgeScript := by unfold LongEnough bridgeScript; norm_num
  have l3 : LongEnough torchScript := by unfold LongEnough torchScript; norm_num
  have c1 : ⌈1000 * (500:ℝ)⌉₊ = 500000 := by
    rw [show 1000 * (500:ℝ) = ((500000 : ℕ) : ℝ) by norm_num, Nat.ceil_natCast]
  have c2 : ⌈1000 * (50:ℝ)⌉₊ = 50000 := by
    rw [show 1000 * (50:ℝ) = ((50000 : ℕ) : ℝ) by norm_num, Nat.ceil_natCast]
  have len : ∀ (s : LcSetup ℝ) (F : Traj 2 1 ℝ) (o : Obj 2 200 40 ℝ) (r' : ρ), LongEnough s →
      (lcBridge env 200 40 s r = .ok ((F, o), r') ∨ lcTorch env 200 40 s r = .ok ((F, o), r')) →
      F.length = ⌈1000 * s.T⌉₊ := by
    intro s F o r' hl hh
    rcases hh with hh | hh
    · rw [lcBridge_real env s r hl] at hh
      split at hh
      · cases hh
      · simp only [Except.ok.injEq, Prod.mk.injEq] at hh
        rw [← hh.1.1]; simp
    · rw [lcTorch_real env s r hl] at hh
      split at hh
      · cases hh
      · simp only [Except.ok.injEq, Prod.mk.injEq] at hh
        rw [← hh.1.1]; simp
  refine ⟨?_, ?_, ?_⟩
  · obtain ⟨F, o, r', e1, _, e2, _⟩ := (C86_bridge (N := 200) (M := 40) env (by norm_num) script1 r).1 l1
    exact ⟨F, o, r', e1, (len _ _ _ _ l1 (Or.inl e1)).trans c1, e2⟩
  · obtain ⟨F, o, r', e1, _, e2, _⟩ := (C86_bridge (N := 200) (M := 40) env (by norm_num) bridgeScript r).1 l2
    exact ⟨F, o, r', e1, (len _ _ _ _ l2 (Or.inl e1)).trans c1, e2⟩
  · rcases (C86_torch (N := 200) (M := 40) env (by norm_num) torchScript r (by unfold torchScript; norm_num)).1 l3 with h | h
    · obtain ⟨F, o, r', e1, e2, _⟩ := h
      exact Or.inl ⟨F, o, r', e1, (len _ _ _ _ l3 (Or.inr e1)).trans c2, e2⟩
    · exact Or.inr h.1

end

/-! ### The hypotheses are met -/

/-- Normals alternate between 0 and 10000. -/
noncomputable def exAlt : Env ℕ ℝ where
  normal r := (if r % 2 = 0 then 0 else 10000, r + 1)
  uniform r := (1/2, r + 1)
  emd {n} _ _ _ := .ok fun i j => if i = j then 1 / n else 0

/-- A short path: three states, the bridge leads from the first to the last one. -/
noncomputable def exLc : LcSetup ℝ := ⟨3/1000, fun a => if a = 0 then 0 else -1, 1/1000, 2, 0, 0⟩

theorem exAlt_ne (r : ℕ) (a : Fin 2) : normals exAlt 2 2 r a 1 ≠ normals exAlt 2 2 r a 0 := by
  have e : ∀ q : ℕ, (if (q + 1) % 2 = 0 then (0:ℝ) else 10000) ≠ if q % 2 = 0 then 0 else 10000 := by
    intro q
    rcases Nat.mod_two_eq_zero_or_one q with h | h
    · rw [if_pos h, if_neg (show ¬ (q+1) % 2 = 0 by omega)]; norm_num
    · rw [if_pos (show (q+1) % 2 = 0 by omega), if_neg (by omega)]; norm_num
  fin_cases a
  · exact e r
  · exact e (r + 2)

theorem exAlt_val (a : Fin 2) : normals exAlt 2 2 4 a 0 = 0 ∧ normals exAlt 2 2 4 a 1 = 10000 := by
  fin_cases a
  · exact ⟨rfl, rfl⟩
  · exact ⟨rfl, rfl⟩

theorem exLc_long : LongEnough exLc := by unfold LongEnough exLc; norm_num

theorem exLc_spread (F : Traj 2 1 ℝ) (o : Obj 2 2 1 ℝ) (r' : ℕ) (h : lcBridge exAlt 2 1 exLc 0 = .ok ((F, o), r')) (i : ℕ)
    (h1 : 1 ≤ i) (h2 : i < exLc.steps) : ∃ b z, o.B[i]? = some b ∧ o.Z[i]? = some z ∧ Spread b ∧ Spread z := by
  have hi : i = 1 := by simp only [exLc] at h2; omega
  subst hi
  obtain ⟨F', o', q, e1, e2, e3, e4, -⟩ := (C86_bridge (N := 2) (M := 1) exAlt (by norm_num) exLc 0).1 exLc_long
  rw [e1] at h
  simp only [Except.ok.injEq, Prod.mk.injEq] at h
  obtain ⟨⟨rfl, rfl⟩, rfl⟩ := h
  have hl : o'.timegrid.length = 3 := e3
  have hr : (cyclePath exAlt exLc.g (exLc.x0 0) (exLc.x0 1) 0 (⌈1000 * exLc.T⌉₊ - 1)).2.2 = 4 := by
    have : ⌈1000 * exLc.T⌉₊ = 3 := by
      rw [show 1000 * exLc.T = ((3:ℕ):ℝ) by norm_num [exLc], Nat.ceil_natCast]
    rw [this]; rfl
  rw [hr] at e2
  set c : Cfg 2 2 1 ℝ := lcCfg exLc.g (exLc.timeIx / 1000) (exLc.timeIx / 1000 + exLc.steps / 1000)
          (cycleState exAlt exLc.g (exLc.x0 0) (exLc.x0 1) 0 exLc.stateIx)
          (cycleState exAlt exLc.g (exLc.x0 0) (exLc.x0 1) 0 (exLc.stateIx + exLc.steps)) with hc
  obtain ⟨rsF, rsT, rsB, f0, fF, -, -, -, -, fB, -⟩ := C10_full_run exAlt _ (by norm_num) rfl (Or.inl rfl) _ _ _ e2 (by omega)
  obtain ⟨lZ, lB, -⟩ := C08_storage_sizes exAlt _ (by norm_num) _ _ _ (Or.inl e2)
  rw [hl] at lZ lB fB
  obtain ⟨z0, hz0⟩ : ∃ z, o'.Z[0]? = some z := ⟨_, List.getElem?_eq_getElem (by omega)⟩
  obtain ⟨z1, hz1⟩ : ∃ z, o'.Z[1]? = some z := ⟨_, List.getElem?_eq_getElem (by omega)⟩
  obtain ⟨z2, hz2⟩ : ∃ z, o'.Z[2]? = some z := ⟨_, List.getElem?_eq_getElem (by omega)⟩
  obtain ⟨b1, hb1⟩ : ∃ z, o'.B[1]? = some z := ⟨_, List.getElem?_eq_getElem (by omega)⟩
  obtain ⟨b2, hb2⟩ : ∃ z, o'.B[2]? = some z := ⟨_, List.getElem?_eq_getElem (by omega)⟩
  obtain ⟨t0, ht0⟩ : ∃ z, o'.timegrid[0]? = some z := ⟨_, List.getElem?_eq_getElem (by omega)⟩
  obtain ⟨t1, ht1⟩ : ∃ z, o'.timegrid[1]? = some z := ⟨_, List.getElem?_eq_getElem (by omega)⟩
  obtain ⟨t2, ht2⟩ : ∃ z, o'.timegrid[2]? = some z := ⟨_, List.getElem?_eq_getElem (by omega)⟩
  have p0 : ∀ a m, z0 a m = if a = 0 then 0 else -1 := by
    obtain ⟨S, hS, hS'⟩ := (C05_forward_flows_start_at_y1 exAlt _ (by norm_num) rfl _ _ _ (Or.inl e2)).1 (Or.inr rfl)
    intro a m
    have : z0 = S := Option.some.inj (hz0.symm.trans hS)
    rw [this, hS' a m]
    rfl
  -- the first cloud
  obtain ⟨raw, hraw, hy, -⟩ := fF 0 z0 z1 t0 hz0 hz1 ht0
  have hz : z1 = _ := (hy rfl).trans (hraw.1 rfl).1
  rw [f0] at hz
  set w := Real.sqrt (1/1000) with hw
  have w1 : 3/100 ≤ w := Real.le_sqrt_of_sq_le (by norm_num)
  have w2 : w ≤ 4/100 := Real.sqrt_le_iff.2 ⟨by norm_num, by norm_num⟩
  have v00 : z1 0 0 = 1/1000 := by
    rw [hz]
    simp only [noisy, (exAlt_val 0).1, p0]
    show (0:ℝ) + 1/1000 * lcF z0 0 0 + _ = _
    rw [lcF_real, if_pos rfl, p0, p0]; norm_num [cycleX]
  have v01 : z1 0 1 = 1/1000 + 10 * w := by
    rw [hz]
    simp only [noisy, (exAlt_val 0).2, p0]
    show (0:ℝ) + 1/1000 * lcF z0 0 1 + (1/1000) * (w * 10000) = _
    rw [lcF_real, if_pos rfl, p0, p0]; norm_num [cycleX]; ring
  have v10 : z1 1 0 = -1 := by
    rw [hz]
    simp only [noisy, (exAlt_val 1).1, p0]
    show (-1:ℝ) + 1/1000 * lcF z0 1 0 + _ = _
    rw [lcF_real, if_neg (by decide), p0, p0]; norm_num [cycleY]
  have v11 : z1 1 1 = -1 + 10 * w := by
    rw [hz]
    simp only [noisy, (exAlt_val 1).2, p0]
    show (-1:ℝ) + 1/1000 * lcF z0 1 1 + (1/1000) * (w * 10000) = _
    rw [lcF_real, if_neg (by decide), p0, p0]; norm_num [cycleY]; ring
  have sep : ∀ a, 3/10 ≤ z1 a 1 - z1 a 0 := by
    intro a
    fin_cases a
    · simp only [Fin.zero_eta, v00, v01]; linarith
    · simp only [Fin.mk_one, v10, v11]; linarith
  have s1 : Spread z1 := fun a => sdev_ne_zero (i := 1) (j := 0) (by have := sep a; intro hh; rw [hh] at this; norm_num at this)
  -- the second cloud
  have disp : ∀ a m, |z2 a m - (z1 a m + 1/1000 * lcF z1 a m)| ≤ 1/100 := by
    intro a m
    have h := C74_forward_displacement exAlt _ (by norm_num) (by norm_num) rfl rfl (Or.inl rfl) _ _ _ e2 1 le_rfl z1 z2 t1
      hz1 hz2 ht1 s1 a m
    have hs := Disp.sdev_ge (v := z1 a) (D := 3/10) (by norm_num) (n0 := 0) (n1 := 1) (sep a)
    have hs' : 15/100 ≤ sdev (z1 a) := by
      refine le_trans ?_ hs
      rw [exWide_cost]; norm_num
    refine (show |z2 a m - (z1 a m + 1/1000 * lcF z1 a m)| ≤ _ from h).trans ?_
    rw [div_le_iff₀ (by linarith)]
    show 125 * (1/1000:ℝ) ^ 2 * ((1:ℕ):ℝ) ^ 2 * ((2:ℕ):ℝ) ≤ _
    norm_num
    linarith
  have drift : ∀ a, |lcF z1 a 1 - lcF z1 a 0| ≤ 10 := by
    intro a
    rw [lcF_real, lcF_real]
    fin_cases a
    · simp only [Fin.zero_eta, if_true, v00, v01, v10, v11, cycleX]
      rw [abs_le]; constructor <;> nlinarith [mul_nonneg (sub_nonneg.2 w1) (sub_nonneg.2 w2)]
    · simp only [Fin.mk_one, if_neg (show (1 : Fin 2) ≠ 0 by decide), v00, v01, v10, v11, cycleY]
      rw [abs_le]; constructor <;> nlinarith [mul_nonneg (sub_nonneg.2 w1) (sub_nonneg.2 w2)]
  have s2 : Spread z2 := by
    refine fun a => sdev_ne_zero (i := 1) (j := 0) ?_
    have d1 := abs_le.1 (disp a 1)
    have d0 := abs_le.1 (disp a 0)
    have d := abs_le.1 (drift a)
    have := sep a
    intro hh
    linarith [d1.1, d1.2, d0.1, d0.2, d.1, d.2]
  -- the backward cloud
  obtain ⟨S, hS, hS'⟩ := C04_backward_flow_ends_at_y2 exAlt _ (by norm_num) _ _ _ (Or.inl e2) (by omega)
  rw [hl] at hS
  have hbS : b2 = S := Option.some.inj (hb2.symm.trans hS)
  have eq2 : ∀ a, b2 a 1 = b2 a 0 := fun a => by rw [hbS, hS' a 1, hS' a 0]
  have hb := ((fB 1 z2 b2 b1 t2 le_rfl le_rfl hz2 hb2 hb1 ht2).1 (Or.inl rfl)).1 s2
  have sb : Spread b1 := by
    refine fun a => sdev_ne_zero (i := 1) (j := 0) ?_
    rw [hb]
    simp only
    have c1 : b2 = fun a (_ : Fin 2) => b2 a 0 := by
      funext a m; fin_cases m
      · rfl
      · exact eq2 a
    have hf : lcF b2 a 1 = lcF b2 a 0 := by rw [c1, lcF_real, lcF_real]
    have hsc : scoreRho z2 b2 (unifs exAlt 2 1 (rsB 1)) a 1 = scoreRho z2 b2 (unifs exAlt 2 1 (rsB 1)) a 0 := by
      rw [c1]; rfl
    intro hh
    have hf' : c.f.call2 b2 t2 a 1 = c.f.call2 b2 t2 a 0 := hf
    have hg : c.g = 1/1000 := rfl
    rw [hf', hsc, eq2, hg, ← hw] at hh
    have hne := exAlt_ne (unifsNext exAlt 2 1 (rsB 1)) a
    apply hne
    have hwpos : (0:ℝ) < 1/1000 * w := by positivity
    have : 1/1000 * w * (normals exAlt 2 2 (unifsNext exAlt 2 1 (rsB 1)) a 1)
        = 1/1000 * w * (normals exAlt 2 2 (unifsNext exAlt 2 1 (rsB 1)) a 0) := by linarith
    exact mul_left_cancel₀ hwpos.ne' this
  exact ⟨b1, z1, hb1, hz1, sb, s1⟩

/-- The example runs to its end on a short path. -/
example : ∃ F o P q r' rs, lcBridge exAlt 2 1 exLc 0 = .ok ((F, o), q) ∧ lcExample exAlt 2 1 3 exLc 0 = .ok ((F, o, P), r') ∧
    rs 1 = q ∧ rs 2 = r' ∧ LoopRun exAlt (fun x i => calculateU exAlt o x i) (lcF (n := 3)) (1/1000)
      (cycleState exAlt (1/1000) 0 (-1) 0 0) 3 P.cont P.free P.used rs := by
  have h1 : 1 ≤ exLc.steps := by simp [exLc]
  have := C86_example (n := 3) exAlt (by norm_num) exLc 0 exLc_long h1 (fun F o r' h i => exLc_spread F o r' h i)
  simpa [exLc] using this

/-- The first state of the scripts is inside the stable region, and it approaches the limit from below. -/
example (env : Env ℕ ℝ) (i : ℕ) : cycleR2 env 0 0 (-1) 0 i ≤ cycleR2 env 0 0 (-1) 0 (i+1) ∧
    |cycleR2 env 0 0 (-1) 0 i - cycleLimit| ≤ (1 - 1/625) ^ i * (1/1000) := by
  have h := C86_settles env 0 (-1) 0 (by norm_num) (by norm_num) i
  obtain ⟨⟨c1, c2⟩, h2, h3, -⟩ := h
  norm_num at h2 h3
  refine ⟨(h3 (by linarith)).1, ?_⟩
  have : |1 - cycleLimit| ≤ 1/1000 := by rw [abs_le]; constructor <;> linarith
  calc _ ≤ _ := h2
    _ ≤ _ := by
      rw [show (1 - 1/625 : ℝ) = 624/625 by norm_num]
      exact mul_le_mul_of_nonneg_left this (by positivity)

/-- A start outside. -/
example (env : Env ℕ ℝ) : 2002 * (1002/1000) ^ 1000 ≤ cycleR2 env 0 45 0 0 1000 :=
  C86_explodes env 45 0 0 (by norm_num) 1000

/-- A path that is too short. -/
example : lcBridge exAlt 2 1 { exLc with T := 2/1000 } 0 = .error .indexError :=
  (C86_bridge exAlt (by norm_num) _ 0).2 (by unfold LongEnough exLc; norm_num)

/-- Other time indices for script_1.py. -/
example (env : Env ℕ ℝ) : ∃ F o o' r', lcBridge env 200 40 script1 0 = .ok ((F, o), r') ∧
    lcBridge env 200 40 { script1 with timeIx := 100 } 0 = .ok ((F, o'), r') ∧ o'.Z = o.Z ∧ o'.B = o.B := by
  obtain ⟨F, o, o', r', h1, h2, h3, h4, -⟩ := C86_time_index (N := 200) (M := 40) env (by norm_num) script1 100 0
    (by unfold LongEnough script1; norm_num) (by unfold LongEnough script1; norm_num)
  exact ⟨F, o, o', r', h1, h2, h3, h4⟩

end DPFC
