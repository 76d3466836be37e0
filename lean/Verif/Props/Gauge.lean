import Verif.Props.QueryEquiv
import Verif.Props.Reweight

/-!
# C62: only differences of the constraint between particles matter, for whole runs
-/

namespace DPFC
open Spec

section
variable {ρ : Type} {N M d : ℕ}

private theorem weights_gauge {u u' : Fin N → ℝ} (h : ∃ β : ℝ, ∀ n, u' n = u n + β) (k : ℝ) :
    normWeights (fun n => NumOps.exp (u' n * k)) = normWeights (fun n => NumOps.exp (u n * k)) := by
  obtain ⟨β, h⟩ := h
  rw [softmax_real, softmax_real]
  simp only [h, add_mul]
  exact softmax_shift _ _

private theorem ottoReweight_gauge (env : Env ρ ℝ) {U U' : Constraint d N ℝ} (h : SameUpToConstant U U')
    (x : Mat d N ℝ) (t : ℝ) : ottoReweight env (some U') x t = ottoReweight env (some U) x t := by
  simp only [ottoReweight, weights_gauge (h.1 x t) dtc]

private theorem torchOttoRw_gauge (env : Env ρ ℝ) {U U' : Constraint d N ℝ} (h : SameUpToConstant U U')
    (x : Mat d N ℝ) (t : ℝ) : torchOttoRw env (some U') x t = torchOttoRw env (some U) x t := by
  simp only [torchOttoRw, torchReweight, weights_gauge (h.1 x t) dtc]

private theorem stoch_gauge (env : Env ρ ℝ) {U U' : Constraint d N ℝ} (h : SameUpToConstant U U')
    (x : Mat d N ℝ) : stochReweight env (some U') x = stochReweight env (some U) x ∧
      torchStochRw env (some U') x = torchStochRw env (some U) x := by
  have h2 := h.2
  cases hu : U.call1 with
  | none =>
    cases hu' : U'.call1 with
    | none => simp only [stochReweight, torchStochRw, hu, hu', and_self]
    | some u' => rw [hu, hu'] at h2; exact h2.elim
  | some u =>
    cases hu' : U'.call1 with
    | none => rw [hu, hu'] at h2; exact h2.elim
    | some u' =>
      rw [hu, hu'] at h2
      have := weights_gauge (h2 x) 1
      simp only [mul_one] at this
      simp only [stochReweight, torchStochRw, torchReweight, hu, hu', this, and_self]

/-- **C62** (numpy). If two constraints differ by a term that is the same for all particles, then the two
runs coincide: same exceptions, same random state, same flows; every mode, kernel and solver. -/
theorem C62_constraint_gauge (env : Env ρ ℝ) (c : Cfg d N M ℝ) (hd : 0 < d) (U U' : Constraint d N ℝ)
    (hU : SameUpToConstant U U') (r : ρ) :
    OutcomeRel (FlowsMapped id id) (construct env ({ c with U := some U } : Cfg d N M ℝ) r)
      (construct env ({ c with U := some U' } : Cfg d N M ℝ) r) := by
  refine construct_equiv env ({ c with U := some U } : Cfg d N M ℝ) ({ c with U := some U' } : Cfg d N M ℝ) id id hd
    (by rw [List.map_id_fun]; rfl) rfl rfl rfl rfl rfl (fun _ => rfl) ?_ ?_ ?_ ?_ r
  · intro i t x
    simp only [id, bind_pure, ottoSlice, ottoReweight_gauge env hU]
  · intro i t x
    simp only [id, bind_pure]
    rfl
  · intro i t x
    simp only [id, bind_pure, stochSlice, (stoch_gauge env hU _).1]
    rfl
  · intro i zt b
    simp only [id, bind_pure]
    rfl

/-- **C62** (torch). -/
theorem C62_constraint_gauge_torch (env : Env ρ ℝ) (c : Cfg d N M ℝ) (hd : 0 < d)
    (U U' : Constraint d N ℝ) (hU : SameUpToConstant U U') (r : ρ) :
    OutcomeRel (FlowsMapped id id) (torchConstruct env ({ c with U := some U } : Cfg d N M ℝ) r)
      (torchConstruct env ({ c with U := some U' } : Cfg d N M ℝ) r) := by
  refine torchConstruct_equiv env ({ c with U := some U } : Cfg d N M ℝ) ({ c with U := some U' } : Cfg d N M ℝ) id id hd
    ?_ rfl rfl rfl rfl rfl (fun _ => rfl) ?_ ?_ ?_ ?_ r
  · change torchGrid c.t1 c.t2 = (torchGrid c.t1 c.t2).map (List.map id)
    cases torchGrid c.t1 c.t2 with
    | error e => rfl
    | ok l => rw [List.map_id_fun]; rfl
  · intro i t x
    simp only [id, bind_pure, torchOttoSlice, torchOttoRw_gauge env hU]
  · intro _ _ i t x
    simp only [id, bind_pure]
    rfl
  · intro i t x
    simp only [id, bind_pure, torchStochSlice, (stoch_gauge env hU _).2]
  · intro i zt b
    simp only [id, bind_pure]
    rfl

end

/-- A run with a constraint and the same run with that constraint plus `17 t`: both succeed with the same
flows. -/
example (r : ℕ) : ∃ (U U' : Constraint 2 4 ℝ) (o o' : Obj 2 4 5 ℝ) (r' : ℕ),
    (∃ x t n m, U.call2 x t n ≠ U.call2 x t m) ∧
    construct prodEnv ({ exCfg 2 4 5 10 true true true with U := some U } : Cfg 2 4 5 ℝ) r = .ok (o, r') ∧
    construct prodEnv ({ exCfg 2 4 5 10 true true true with U := some U' } : Cfg 2 4 5 ℝ) r = .ok (o', r') ∧
    o'.Z = o.Z ∧ o'.B = o.B ∧ o.timegrid.length = 11 := by
  let U : Constraint 2 4 ℝ := ⟨fun x t n => x 0 n + t, none⟩
  let U' : Constraint 2 4 ℝ := ⟨fun x t n => x 0 n + 18 * t, none⟩
  have hU : SameUpToConstant U U' := ⟨fun x t => ⟨17 * t, fun n => by simp only [U, U']; ring⟩, trivial⟩
  have hgl : (mkGrid (exCfg 2 4 5 10 true true true).t1 (exCfg 2 4 5 10 true true true).t2).length = 11 :=
    exCfg_grid 2 4 5 10 true true true
  obtain ⟨o, r', h⟩ := construct_det_total prodEnv ({ exCfg 2 4 5 10 true true true with U := some U } : Cfg 2 4 5 ℝ)
    (by norm_num) rfl (by rw [hgl]; norm_num) rfl (fun _ => ⟨by simp, fun _ _ _ _ => ⟨_, rfl⟩⟩)
    (fun _ _ => by simp [exCfg]) r
  have hrel := C62_constraint_gauge prodEnv (exCfg 2 4 5 10 true true true) (by norm_num) U U' hU r
  rw [h] at hrel
  rcases h' : construct prodEnv ({ exCfg 2 4 5 10 true true true with U := some U' } : Cfg 2 4 5 ℝ) r with e | ⟨o', r''⟩
  · rw [h'] at hrel; exact hrel.elim
  · rw [h'] at hrel
    obtain ⟨⟨_, h2, h3, _⟩, rfl⟩ := hrel
    refine ⟨U, U', o, o', r', ⟨fun _ n => n.val, 0, 0, 1, ?_⟩, h, h', by simpa using h2, by simpa using h3,
      ?_⟩
    · simp [U]
    · rw [(construct_fields h).2]; exact hgl

end DPFC
