import Verif.Lib.Comp
import Verif.Lib.RecReal2
import Verif.Lib.Steps
import Verif.Lib.Transport
import Verif.Spec.Equivariance

/-! Equivariance of whole constructions, from equivariance of the single steps. -/

set_option linter.unusedSectionVars false

namespace DPFC
open Spec
section
variable {ρ : Type} {N M d : ℕ}

theorem outcomeRel_bind {α α' : Type} {R : Obj d N M ℝ → Obj d N M ℝ → Prop} {x : RandM ρ α}
    {x' : RandM ρ α'} {f : α → RandM ρ (Obj d N M ℝ)} {f' : α' → RandM ρ (Obj d N M ℝ)} {B : α → α'}
    {r : ρ} (hx : x' = (do let y ← x; pure (B y)))
    (h : ∀ a r1, x r = .ok (a, r1) → OutcomeRel R (f a r1) (f' (B a) r1)) :
    OutcomeRel R ((x >>= f) r) ((x' >>= f') r) := by
  rw [hx, bind_assoc]
  simp only [pure_bind]
  rw [RandM.bind_app, RandM.bind_app]
  cases hh : x r with
  | error e => rfl
  | ok p => exact h p.1 p.2 hh

theorem dropLast_map_append {α β : Type} (A : α → β) (l : List α) (q : α) :
    (l.map A).dropLast ++ [A q] = (l.dropLast ++ [q]).map A := by simp [List.map_dropLast]

/-- Equivariance of the numpy constructor. -/
theorem construct_equiv (env : Env ρ ℝ) (c c' : Cfg d N M ℝ) (A : Mat d N ℝ → Mat d N ℝ) (τ : ℝ → ℝ)
    (hd : 0 < d)
    (hgrid : mkGrid c'.t1 c'.t2 = (mkGrid c.t1 c.t2).map τ)
    (hdt : c'.deterministic = c.deterministic) (hrw : c'.reweight = c.reweight)
    (hbb : c'.brownBridge = c.brownBridge)
    (hy1 : pt N c'.y1 = A (pt N c.y1)) (hy2 : pt N c'.y2 = A (pt N c.y2))
    (hinit : c.deterministic = false → stochInit N c'.y1 = A (stochInit N c.y1))
    (hotto : ∀ i t x, ottoSlice env c' i (τ t) (A x) = (do let y ← ottoSlice env c i t x; pure (A y)))
    (htrue : ∀ i t x, trueSlice env c' i (τ t) (A x) = (do let y ← trueSlice env c i t x; pure (A y)))
    (hstoch : ∀ i t x, stochSlice env c' i (τ t) (A x) = (do let y ← stochSlice env c i t x; pure (A y)))
    (hback : ∀ i zt b, npBack env c' i (Prod.map A τ zt) (A b)
      = (do let y ← npBack env c i zt b; pure (A y))) (r : ρ) :
    OutcomeRel (FlowsMapped A τ) (construct env c r) (construct env c' r) := by
  have hlen : (mkGrid c'.t1 c'.t2).length = (mkGrid c.t1 c.t2).length := by rw [hgrid]; simp
  by_cases hk : 2 ≤ (mkGrid c.t1 c.t2).length
  · cases hdet : c.deterministic with
    | true =>
      rw [construct_det_eq env c hdet hk, construct_det_eq env c' (hdt.trans hdet) (by omega)]
      rw [hgrid, ← List.map_tail, hy1, hy2]
      refine outcomeRel_bind (chain_map τ A hotto _ _ _) fun ys r1 _ => ?_
      have htf : trueFlow env c' ((mkGrid c.t1 c.t2).map τ)
          = (do let y ← trueFlow env c (mkGrid c.t1 c.t2); pure (y.map (List.map A))) := by
        unfold trueFlow
        rw [hrw, hbb]
        split
        · rw [← List.map_tail, hy1, chain_map τ A htrue]
          simp only [bind_assoc, pure_bind, Option.map_some, List.map_cons]
        · rfl
      refine outcomeRel_bind htf fun zt r2 _ => ?_
      rw [← List.map_cons, visits_map]
      refine outcomeRel_bind (chain_map _ A hback _ _ _) fun bs r3 _ => ?_
      refine ⟨⟨rfl, rfl, ?_, fun _ => rfl⟩, rfl⟩
      simp
    | false =>
      by_cases hd2 : 2 ≤ d
      · rw [construct_stoch_eq env c hdet hk hd2, construct_stoch_eq env c' (hdt.trans hdet) (by omega) hd2]
        rw [hgrid, ← List.map_tail, hy1, hy2, hinit hdet]
        refine outcomeRel_bind (chain_map τ A hstoch _ _ _) fun ys r1 _ => ?_
        rw [dropLast_map_append, ← List.map_cons, visits_map]
        refine outcomeRel_bind (chain_map _ A hback _ _ _) fun bs r3 _ => ?_
        refine ⟨⟨rfl, rfl, by simp, ?_⟩, rfl⟩
        intro h
        change c.deterministic = true at h
        rw [hdet] at h; cases h
      · rw [construct_stoch_dim1 env c hdet (by omega) (by omega),
          construct_stoch_dim1 env c' (hdt.trans hdet) (by omega) (by omega)]
        rfl
  · rcases hg : mkGrid c.t1 c.t2 with _ | ⟨t0, _ | ⟨t1, ts⟩⟩
    · rw [construct_empty env c hd hg, construct_empty env c' hd (by rw [hgrid, hg]; rfl)]
      rfl
    · have hg' : mkGrid c'.t1 c'.t2 = [τ t0] := by rw [hgrid, hg]; rfl
      cases hdet : c.deterministic with
      | true =>
        rw [construct_det_single env c hdet t0 hg,
          construct_det_single env c' (hdt.trans hdet) (τ t0) hg']
        refine ⟨⟨rfl, ?_, ?_, fun _ => ?_⟩, rfl⟩
        · simp only [hbb, hy1, hy2]
          split <;> rfl
        · simp [hy1]
        · simp only [hbb, hrw, hy1]
          split <;> rfl
      | false =>
        by_cases hd2 : 2 ≤ d
        · rw [construct_stoch_single env c hdet hd2 t0 hg,
            construct_stoch_single env c' (hdt.trans hdet) hd2 (τ t0) hg']
          refine ⟨⟨rfl, by simp [hy2], by simp [hy1], ?_⟩, rfl⟩
          intro h
          change c.deterministic = true at h
          rw [hdet] at h; cases h
        · rw [construct_stoch_dim1 env c hdet (by rw [hg]; simp) (by omega),
            construct_stoch_dim1 env c' (hdt.trans hdet) (by rw [hg']; simp) (by omega)]
          rfl
    · rw [hg] at hk; simp at hk

/-- Equivariance of the torch constructor. -/
theorem torchConstruct_equiv (env : Env ρ ℝ) (c c' : Cfg d N M ℝ) (A : Mat d N ℝ → Mat d N ℝ)
    (τ : ℝ → ℝ) (hd : 0 < d)
    (hgrid : torchGrid c'.t1 c'.t2 = (torchGrid c.t1 c.t2).map (List.map τ))
    (hdt : c'.deterministic = c.deterministic) (hrw : c'.reweight = c.reweight)
    (hbb : c'.brownBridge = c.brownBridge)
    (hy1 : pt N c'.y1 = A (pt N c.y1)) (hy2 : pt N c'.y2 = A (pt N c.y2))
    (hinit : c.deterministic = false → stochInit N c'.y1 = A (stochInit N c.y1))
    (hotto : ∀ i t x, torchOttoSlice env c' i (τ t) (A x)
      = (do let y ← torchOttoSlice env c i t x; pure (A y)))
    (htrue : c.deterministic = true → (c.reweight && c.brownBridge) = true → ∀ i t x, torchTrueSlice env c' i (τ t) (A x)
      = (do let y ← torchTrueSlice env c i t x; pure (A y)))
    (hstoch : ∀ i t x, torchStochSlice env c' i (τ t) (A x)
      = (do let y ← torchStochSlice env c i t x; pure (A y)))
    (hback : ∀ i zt b, torchBack env c' i (Prod.map A τ zt) (A b)
      = (do let y ← torchBack env c i zt b; pure (A y))) (r : ρ) :
    OutcomeRel (FlowsMapped A τ) (torchConstruct env c r) (torchConstruct env c' r) := by
  cases hgr : torchGrid c.t1 c.t2 with
  | error e =>
    rw [hgr] at hgrid
    have h1 : torchConstruct env c r = .error e := by
      unfold torchConstruct; rw [hgr]; rfl
    have h2 : torchConstruct env c' r = .error e := by
      unfold torchConstruct; rw [hgrid]; rfl
    rw [h1, h2]; rfl
  | ok grid =>
  rw [hgr] at hgrid
  change torchGrid c'.t1 c'.t2 = Except.ok (grid.map τ) at hgrid
  have hlen : (grid.map τ).length = grid.length := by simp
  by_cases hk : 2 ≤ grid.length
  · cases hdet : c.deterministic with
    | true =>
      rw [torchConstruct_det_eq env c hdet grid hgr hk,
        torchConstruct_det_eq env c' (hdt.trans hdet) _ hgrid (by omega)]
      rw [← List.map_tail, hy1, hy2]
      refine outcomeRel_bind (chain_map τ A hotto _ _ _) fun ys r1 _ => ?_
      have htf : torchTrueFlow env c' (grid.map τ)
          = (do let y ← torchTrueFlow env c grid; pure (y.map (List.map A))) := by
        unfold torchTrueFlow
        rw [hrw, hbb]
        split
        · rename_i hrb
          rw [← List.map_tail, hy1, chain_map τ A (htrue hdet hrb)]
          simp only [bind_assoc, pure_bind, Option.map_some, List.map_cons]
        · rfl
      refine outcomeRel_bind htf fun zt r2 _ => ?_
      rw [← List.map_cons, visits_map]
      refine outcomeRel_bind (chain_map _ A hback _ _ _) fun bs r3 _ => ?_
      refine ⟨⟨rfl, rfl, ?_, fun _ => rfl⟩, rfl⟩
      simp
    | false =>
      by_cases hd2 : 2 ≤ d
      · rw [torchConstruct_stoch_eq env c hdet grid hgr hk hd2,
          torchConstruct_stoch_eq env c' (hdt.trans hdet) _ hgrid (by omega) hd2]
        rw [← List.map_tail, hy1, hy2, hinit hdet]
        refine outcomeRel_bind (chain_map τ A hstoch _ _ _) fun ys r1 _ => ?_
        rw [← List.map_cons, visits_map]
        refine outcomeRel_bind (chain_map _ A hback _ _ _) fun bs r3 _ => ?_
        refine ⟨⟨rfl, rfl, by simp, ?_⟩, rfl⟩
        intro h
        change c.deterministic = true at h
        rw [hdet] at h; cases h
      · obtain ⟨t0, ts, rfl⟩ : ∃ t0 ts, grid = t0 :: ts := by
          match grid, hk with
          | a :: l, _ => exact ⟨a, l, rfl⟩
        rw [torchConstruct_stoch_dim1 env c hdet t0 ts hgr (by omega),
          torchConstruct_stoch_dim1 env c' (hdt.trans hdet) (τ t0) (ts.map τ) hgrid (by omega)]
        rfl
  · rcases grid with _ | ⟨t0, _ | ⟨t1, ts⟩⟩
    · rw [torchConstruct_empty env c hd hgr, torchConstruct_empty env c' hd hgrid]
      rfl
    · have hg' : torchGrid c'.t1 c'.t2 = .ok [τ t0] := hgrid
      cases hdet : c.deterministic with
      | true =>
        rw [torchConstruct_det_single env c hdet t0 hgr,
          torchConstruct_det_single env c' (hdt.trans hdet) (τ t0) hg']
        refine ⟨⟨rfl, ?_, ?_, fun _ => ?_⟩, rfl⟩
        · simp only [hbb, hy1, hy2]
          split <;> rfl
        · simp [hy1]
        · simp only [hbb, hrw, hy1]
          split <;> rfl
      | false =>
        by_cases hd2 : 2 ≤ d
        · rw [torchConstruct_stoch_single env c hdet hd2 t0 hgr,
            torchConstruct_stoch_single env c' (hdt.trans hdet) hd2 (τ t0) hg']
          refine ⟨⟨rfl, by simp [hinit hdet], by simp [hy1], ?_⟩, rfl⟩
          intro h
          change c.deterministic = true at h
          rw [hdet] at h; cases h
        · rw [torchConstruct_stoch_dim1 env c hdet t0 [] hgr (by omega),
            torchConstruct_stoch_dim1 env c' (hdt.trans hdet) (τ t0) [] hg' (by omega)]
          rfl
    · simp at hk

/-! ### Time shift -/

theorem mkGrid_delay (t1 t2 h : ℝ) : mkGrid (t1 + h) (t2 + h) = (mkGrid t1 t2).map (· + h) := by
  rw [mkGrid_real, mkGrid_real, List.map_map, show t2 + h + 1/2000 - (t1 + h) = t2 + 1/2000 - t1 by ring]
  congr 1
  funext i
  simp only [Function.comp]
  ring

theorem torchGrid_delay (t1 t2 h : ℝ) :
    torchGrid (t1 + h) (t2 + h) = (torchGrid t1 t2).map (List.map (· + h)) := by
  unfold torchGrid
  have : (NumOps.ltB (t2 + h + dtc / lit 2 1) (t1 + h) = true) ↔
      (NumOps.ltB (t2 + dtc / lit 2 1) t1 = true) := by
    rw [real_ltB, real_ltB]
    constructor <;> intro h <;> linarith
  by_cases hc : NumOps.ltB (t2 + dtc / lit 2 1) t1 = true
  · rw [if_pos hc, if_pos (this.2 hc)]; rfl
  · rw [if_neg hc, if_neg (fun h => hc (this.1 h)), torchPoints_real, torchPoints_real, mkGrid_delay]; rfl

theorem noisyStep_delay (env : Env ρ ℝ) (g h : ℝ) (f : Drift d N ℝ) (x : Mat d N ℝ) (t : ℝ) :
    noisyStep env g (Drift.delay h f) x (t + h - dtc) = noisyStep env g f x (t - dtc) := by
  unfold noisyStep Drift.delay
  simp only [show t + h - dtc - h = t - dtc by ring]

theorem ottoStep_delay (pl : Bool) (env : Env ρ ℝ) (kern : String) (g h : ℝ) (f : Drift d N ℝ) (x : Mat d N ℝ)
    (t : ℝ) :
    ottoStep pl env M kern g (Drift.delay h f) x (t + h - dtc) = ottoStep pl env M kern g f x (t - dtc) := by
  unfold ottoStep fSeperate Drift.delay
  simp only [show t + h - dtc - h = t - dtc by ring]

theorem torchOttoStep_delay (env : Env ρ ℝ) (g h : ℝ) (f : Drift d N ℝ) (x : Mat d N ℝ)
    (t : ℝ) :
    torchOttoStep env M g (Drift.delay h f) x (t + h - dtc) = torchOttoStep env M g f x (t - dtc) := by
  unfold torchOttoStep torchFSeperate Drift.delay
  simp only [show t + h - dtc - h = t - dtc by ring]

theorem torchTrueStep_delay (env : Env ρ ℝ) (g h : ℝ) (f : Drift d N ℝ) (x : Mat d N ℝ)
    (t : ℝ) :
    torchTrueStep env M g (Drift.delay h f) x (t + h - dtc) = torchTrueStep env M g f x (t - dtc) := by
  unfold torchTrueStep torchFSeperateTrue Drift.delay
  simp only [show t + h - dtc - h = t - dtc by ring]

theorem ottoReweight_delay (env : Env ρ ℝ) (h : ℝ) (U : Option (Constraint d N ℝ)) (x : Mat d N ℝ)
    (t : ℝ) : ottoReweight env (U.map (Constraint.delay h)) x (t + h) = ottoReweight env U x t := by
  cases U with
  | none => rfl
  | some U =>
    unfold ottoReweight Constraint.delay
    simp only [Option.map_some, add_sub_cancel_right]

theorem torchOttoRw_delay (env : Env ρ ℝ) (h : ℝ) (U : Option (Constraint d N ℝ)) (x : Mat d N ℝ)
    (t : ℝ) : torchOttoRw env (U.map (Constraint.delay h)) x (t + h) = torchOttoRw env U x t := by
  cases U with
  | none => rfl
  | some U =>
    unfold torchOttoRw Constraint.delay
    simp only [Option.map_some, add_sub_cancel_right]

theorem backStep_delay (env : Env ρ ℝ) (dens bw) (f : Drift d N ℝ) (g h : ℝ) (det : Bool) (i : ℕ)
    (zt : Mat d N ℝ × ℝ) (b : Mat d N ℝ) :
    backStep env dens bw (Drift.delay h f) g det i (zt.1, zt.2 + h) b
      = backStep env dens bw f g det i zt b := by
  unfold backStep Drift.delay
  simp only [add_sub_cancel_right]

end
end DPFC
