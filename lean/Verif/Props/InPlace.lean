import Verif.Lib.InPlaceTotal
import Verif.Lib.Examples
import Verif.Props.Effects

/-!
# C97: drifts that write into the array they are handed

The arrays handed to the drift are views of the stored flows. What a callable leaves in them is what is stored, and what
the step is computed from, while the score of that step has been estimated from the contents before the call.
-/

set_option linter.unusedSectionVars false

namespace DPFC
open Spec

section
variable {K ρ : Type} [Add K] [Sub K] [Mul K] [Div K] [Neg K] [NumOps K]
variable {N M d : Nat}

/-- **C97** (forward flow). Whatever the callables do to their arguments: the clouds `xs` the drift is called on
start with all particles in `y1`; what the drift leaves of `xs_i` is stored as slice `i`, and `xs_{i+1}` is computed
from it (and reweighted), with the score of `xs_i` itself. -/
theorem C97_forward (env : Env ρ K) (c : ECfg d N M ρ K) (hdet : c.deterministic = true)
    (hk : 2 ≤ (mkGrid c.t1 c.t2).length) (r r' : ρ) (o : EObj d N K) (h : eConstruct env c r = .ok (o, r')) :
    ∃ xs : Traj d N K, xs[0]? = some (fun a _ => c.y1 a) ∧
      ForwardSweep env (scoreAtParticles true env M (effKern c.kern)) (eOttoReweight env c.U) c.g c.f c.reweight
        (mkGrid c.t1 c.t2) xs o.Z := by
  obtain ⟨⟨r1, e1⟩, -, -⟩ := eConstruct_parts hdet h
  obtain ⟨xs, h0, hl, hl', hlink, hlast⟩ := ottoLoop_inplace hk (p := pt N c.y1)
    (R := fun ti tt x x' y => ∃ w, ForwardCall env (scoreAtParticles true env M (effKern c.kern)) c.g c.f (ti - 1)
        (tt - dtc) x x' w ∧ (if c.reweight then ∃ s s', eOttoReweight env c.U w tt s = .ok (y, s') else y = w))
    (fun tt Z Z' r r' hZ e => by
      rw [eOttoBody_zero _ _ _ _ (by omega)] at e
      obtain ⟨rfl, -⟩ := RandM.pure_ok.1 e
      exact init_first (by omega))
    (fun ti tt Z r Z' r' h1 e => ottoBody_inplace h1 e) (by simp [zerosT]) e1
  refine ⟨xs, h0, hl, hl', fun i hi => ?_, hlast⟩
  obtain ⟨t, x, x', y, a1, a2, a3, a4, w, a5, a6⟩ := hlink i hi
  exact ⟨t, x, x', y, w, a1, a2, a3, a4, a5, a6⟩

/-- **C97** (true flow). The same for the true drift and the flow it is stored in. -/
theorem C97_true_flow (env : Env ρ K) (c : ECfg d N M ρ K) (hdet : c.deterministic = true)
    (hk : 2 ≤ (mkGrid c.t1 c.t2).length) (r r' : ρ) (o : EObj d N K) (h : eConstruct env c r = .ok (o, r'))
    (T : Traj d N K) (hT : o.Ztr = some T) :
    ∃ xs : Traj d N K, xs[0]? = some (fun a _ => c.y1 a) ∧
      ForwardSweep env (scoreAtParticles false env M (effKern c.kern)) (eOttoReweight env c.U) c.g c.fTrue false
        (mkGrid c.t1 c.t2) xs T := by
  obtain ⟨-, -, hTr⟩ := eConstruct_parts hdet h
  obtain ⟨r2, r3, e3⟩ := hTr T hT
  obtain ⟨xs, h0, hl, hl', hlink, hlast⟩ := ottoLoop_inplace hk (p := pt N c.y1)
    (R := fun ti tt x x' y => ForwardCall env (scoreAtParticles false env M (effKern c.kern)) c.g c.fTrue (ti - 1)
        (tt - dtc) x x' y)
    (fun tt Z Z' r r' hZ e => by
      have e := lift_val e
      rw [pinRows_ok Z 0 0 (pyIdx_zero (by omega))] at e
      cases e
      exact ⟨by simp, List.getElem?_set_self (by omega)⟩)
    (fun ti tt Z r Z' r' h1 e => trueBody_inplace h1 e) (by simp [zerosT]) e3
  refine ⟨xs, h0, hl, hl', fun i hi => ?_, hlast⟩
  obtain ⟨t, x, x', y, a1, a2, a3, a4, a5⟩ := hlink i hi
  exact ⟨t, x, x', y, y, a1, a2, a3, a4, a5, by simp⟩

/-- **C97** (backward flow, both modes). The first cloud the drift is called on in the backward pass has all
particles in `y2`; what the drift leaves of `bs_j` is stored as slice `j ≥ 2`, `bs_{j-1}` is computed from it with
the two scores estimated from `bs_j` and from the stored `Z_j` (as the forward calls have left it). Slice 0 is `y1`
in any case. -/
theorem C97_backward (env : Env ρ K) (c : ECfg d N M ρ K)
    (hk : 2 ≤ (mkGrid c.t1 c.t2).length) (r r' : ρ) (o : EObj d N K) (h : eConstruct env c r = .ok (o, r')) :
    (∃ bs : Nat → Mat d N K, bs ((mkGrid c.t1 c.t2).length - 1) = (fun a _ => c.y2 a) ∧
      BackwardSweep env (fun z b => densityEst env M (effKern c.kern) [z] [b] 0)
        (fun z b => bwDensityEst env M (effKern c.kern) [z] [b] 0) c.g c.f c.deterministic (mkGrid c.t1 c.t2)
        o.Z bs o.B) ∧ o.B[0]? = some (fun a _ => c.y1 a) := by
  have key : ∀ (Z B : Traj d N K) (r r' : ρ), eBackwardSim env c (mkGrid c.t1 c.t2) Z
      (zerosT d N (mkGrid c.t1 c.t2).length) r = .ok (B, r') →
      (∃ bs : Nat → Mat d N K, bs ((mkGrid c.t1 c.t2).length - 1) = (fun a _ => c.y2 a) ∧
      BackwardSweep env (fun z b => densityEst env M (effKern c.kern) [z] [b] 0)
        (fun z b => bwDensityEst env M (effKern c.kern) [z] [b] 0) c.g c.f c.deterministic (mkGrid c.t1 c.t2)
        Z bs B) ∧ B[0]? = some (fun a _ => c.y1 a) := by
    intro Z B r r' h
    obtain ⟨bs, h1, h2, h3⟩ := back_inplace (dens := densityEst env M (effKern c.kern))
      (bw := bwDensityEst env M (effKern c.kern)) (fun Z B j gro r r' e => densityEst_single env _ e)
      (fun Z B j gro r r' e => bwDensityEst_single env _ e) hk (by simp [zerosT]) h
    exact ⟨⟨bs, h1, h2⟩, h3⟩
  by_cases hdet : c.deterministic = true
  · obtain ⟨-, ⟨r2, e3⟩, -⟩ := eConstruct_parts hdet h
    exact key _ _ _ _ e3
  · unfold eConstruct at h
    simp only [hdet, if_false, Bool.false_eq_true] at h
    obtain ⟨Z, r1, e1, h⟩ := RandM.bind_ok.1 h
    obtain ⟨B, r3, e3, h⟩ := RandM.bind_ok.1 h
    obtain ⟨rfl, -⟩ := RandM.pure_ok.1 h
    exact key Z B _ _ e3

/-- **C97** (forward flow, torch). -/
theorem C97_torch_forward (env : Env ρ K) (c : ECfg d N M ρ K) (hdet : c.deterministic = true)
    (grid : List K) (hg : torchGrid c.t1 c.t2 = .ok grid) (hk : 2 ≤ grid.length) (r r' : ρ) (o : EObj d N K)
    (h : eTorchConstruct env c r = .ok (o, r')) :
    ∃ xs : Traj d N K, xs[0]? = some (fun a _ => c.y1 a) ∧
      ForwardSweep env (torchScoreAt env M) (eTorchOttoReweight env c.U) c.g c.f c.reweight grid xs o.Z := by
  obtain ⟨⟨r1, e1⟩, -, -⟩ := eTorchConstruct_parts hdet hg h
  obtain ⟨xs, h0, hl, hl', hlink, hlast⟩ := ottoLoop_inplace hk (p := pt N c.y1)
    (R := fun ti tt x x' y => ∃ w, ForwardCall env (torchScoreAt env M) c.g c.f (ti - 1)
        (tt - dtc) x x' w ∧ (if c.reweight then ∃ s s', eTorchOttoReweight env c.U w tt s = .ok (y, s') else y = w))
    (fun tt Z Z' r r' hZ e => by
      rw [eTorchOttoBody_zero _ _ _ _ (by omega)] at e
      obtain ⟨rfl, -⟩ := RandM.pure_ok.1 e
      exact init_first (by omega))
    (fun ti tt Z r Z' r' h1 e => torchOttoBody_inplace h1 e) (by simp [zerosT]) e1
  refine ⟨xs, h0, hl, hl', fun i hi => ?_, hlast⟩
  obtain ⟨t, x, x', y, a1, a2, a3, a4, w, a5, a6⟩ := hlink i hi
  exact ⟨t, x, x', y, w, a1, a2, a3, a4, a5, a6⟩

/-- **C97** (true flow, torch). -/
theorem C97_torch_true_flow (env : Env ρ K) (c : ECfg d N M ρ K) (hdet : c.deterministic = true)
    (grid : List K) (hg : torchGrid c.t1 c.t2 = .ok grid) (hk : 2 ≤ grid.length) (r r' : ρ) (o : EObj d N K)
    (h : eTorchConstruct env c r = .ok (o, r')) (T : Traj d N K) (hT : o.Ztr = some T) :
    ∃ xs : Traj d N K, xs[0]? = some (fun a _ => c.y1 a) ∧
      ForwardSweep env (torchTrueScoreAt env M) (eTorchOttoReweight env c.U) c.g c.fTrue false grid xs T := by
  obtain ⟨-, -, hTr⟩ := eTorchConstruct_parts hdet hg h
  obtain ⟨r2, r3, e3⟩ := hTr T hT
  obtain ⟨xs, h0, hl, hl', hlink, hlast⟩ := ottoLoop_inplace hk (p := pt N c.y1)
    (R := fun ti tt x x' y => ForwardCall env (torchTrueScoreAt env M) c.g c.fTrue (ti - 1) (tt - dtc) x x' y)
    (fun tt Z Z' r r' hZ e => by
      have e := lift_val e
      rw [pinRows_ok Z 0 0 (pyIdx_zero (by omega))] at e
      cases e
      exact ⟨by simp, List.getElem?_set_self (by omega)⟩)
    (fun ti tt Z r Z' r' h1 e => torchTrueBody_inplace h1 e) (by simp [zerosT]) e3
  refine ⟨xs, h0, hl, hl', fun i hi => ?_, hlast⟩
  obtain ⟨t, x, x', y, a1, a2, a3, a4, a5⟩ := hlink i hi
  exact ⟨t, x, x', y, y, a1, a2, a3, a4, a5, by simp⟩

/-- **C97** (backward flow, torch, both modes). -/
theorem C97_torch_backward (env : Env ρ K) (c : ECfg d N M ρ K)
    (grid : List K) (hg : torchGrid c.t1 c.t2 = .ok grid) (hk : 2 ≤ grid.length) (r r' : ρ) (o : EObj d N K)
    (h : eTorchConstruct env c r = .ok (o, r')) :
    (∃ bs : Nat → Mat d N K, bs (grid.length - 1) = (fun a _ => c.y2 a) ∧
      BackwardSweep env (fun z b => torchDensityEst env M (effKern c.kern) [z] [b] 0)
        (fun z b => torchBwDensityEst env M (effKern c.kern) [z] [b] 0) c.g c.f c.deterministic grid
        o.Z bs o.B) ∧ o.B[0]? = some (fun a _ => c.y1 a) := by
  have key : ∀ (Z B : Traj d N K) (r r' : ρ), eTorchBackwardSim env c grid Z (zerosT d N grid.length) r = .ok (B, r') →
      (∃ bs : Nat → Mat d N K, bs (grid.length - 1) = (fun a _ => c.y2 a) ∧
      BackwardSweep env (fun z b => torchDensityEst env M (effKern c.kern) [z] [b] 0)
        (fun z b => torchBwDensityEst env M (effKern c.kern) [z] [b] 0) c.g c.f c.deterministic grid
        Z bs B) ∧ B[0]? = some (fun a _ => c.y1 a) := by
    intro Z B r r' h
    obtain ⟨bs, h1, h2, h3⟩ := back_inplace (dens := torchDensityEst env M (effKern c.kern))
      (bw := torchBwDensityEst env M (effKern c.kern)) (fun Z B j gro r r' e => torchDensityEst_single env _ e)
      (fun Z B j gro r r' e => torchBwDensityEst_single env _ e) hk (by simp [zerosT]) h
    exact ⟨⟨bs, h1, h2⟩, h3⟩
  by_cases hdet : c.deterministic = true
  · obtain ⟨-, ⟨r2, e3⟩, -⟩ := eTorchConstruct_parts hdet hg h
    exact key _ _ _ _ e3
  · unfold eTorchConstruct at h
    rw [hg] at h
    obtain ⟨gr, r0, e0, h⟩ := RandM.bind_ok.1 h
    obtain rfl : grid = gr := by simpa using lift_val e0
    simp only [hdet, if_false, Bool.false_eq_true] at h
    obtain ⟨Z, r1, e1, h⟩ := RandM.bind_ok.1 h
    obtain ⟨B, r3, e3, h⟩ := RandM.bind_ok.1 h
    obtain ⟨rfl, -⟩ := RandM.pure_ok.1 h
    exact key Z B _ _ e3

/-- **C97** (end points). If the drift leaves its argument alone, the deterministic forward flow starts in `y1`, and
the backward flow ends in `y2` (numpy). -/
theorem C97_end_points (env : Env ρ K) (c : ECfg d N M ρ K) (hdet : c.deterministic = true) (hf : Keeps c.f)
    (hk : 2 ≤ (mkGrid c.t1 c.t2).length) (r r' : ρ) (o : EObj d N K) (h : eConstruct env c r = .ok (o, r')) :
    o.Z[0]? = some (fun a _ => c.y1 a) ∧ o.B[(mkGrid c.t1 c.t2).length - 1]? = some (fun a _ => c.y2 a) := by
  constructor
  · obtain ⟨xs, h0, -, -, hlink, -⟩ := C97_forward env c hdet hk r r' o h
    obtain ⟨t, x, x', y, w, -, a2, a3, -, ⟨s, s1, s', v, a5⟩, -⟩ := hlink 0 (by omega)
    rw [h0] at a2
    obtain rfl := Option.some.inj a2
    rw [a3]
    rcases a5 with ⟨-, e, -⟩ | ⟨-, gp, -, e, -⟩
    · rw [hf.1 _ _ _ _ _ _ e]
    · rw [hf.1 _ _ _ _ _ _ e]
  · obtain ⟨⟨bs, h0, -, hlink, hlast⟩, -⟩ := C97_backward env c hk r r' o h
    by_cases h3 : (mkGrid c.t1 c.t2).length = 2
    · rw [h3] at h0 ⊢
      rw [hlast hk, ← h0]
    · obtain ⟨z, t, b', -, -, hb, s, s1, s2, s', v, gro, -, e⟩ := hlink ((mkGrid c.t1 c.t2).length - 1) (by omega) (by omega)
      rw [hb, ← h0]
      rcases e with ⟨-, e, -⟩ | ⟨-, grb, -, e, -⟩
      · rw [hf.1 _ _ _ _ _ _ e]
      · rw [hf.1 _ _ _ _ _ _ e]

/-- **C97** (end points, torch). -/
theorem C97_torch_end_points (env : Env ρ K) (c : ECfg d N M ρ K) (hdet : c.deterministic = true) (hf : Keeps c.f)
    (grid : List K) (hg : torchGrid c.t1 c.t2 = .ok grid) (hk : 2 ≤ grid.length) (r r' : ρ) (o : EObj d N K)
    (h : eTorchConstruct env c r = .ok (o, r')) :
    o.Z[0]? = some (fun a _ => c.y1 a) ∧ o.B[grid.length - 1]? = some (fun a _ => c.y2 a) := by
  constructor
  · obtain ⟨xs, h0, -, -, hlink, -⟩ := C97_torch_forward env c hdet grid hg hk r r' o h
    obtain ⟨t, x, x', y, w, -, a2, a3, -, ⟨s, s1, s', v, a5⟩, -⟩ := hlink 0 (by omega)
    rw [h0] at a2
    obtain rfl := Option.some.inj a2
    rw [a3]
    rcases a5 with ⟨-, e, -⟩ | ⟨-, gp, -, e, -⟩
    · rw [hf.1 _ _ _ _ _ _ e]
    · rw [hf.1 _ _ _ _ _ _ e]
  · obtain ⟨⟨bs, h0, -, hlink, hlast⟩, -⟩ := C97_torch_backward env c grid hg hk r r' o h
    by_cases h3 : grid.length = 2
    · rw [h3] at h0 ⊢
      rw [hlast hk, ← h0]
    · obtain ⟨z, t, b', -, -, hb, s, s1, s2, s', v, gro, -, e⟩ := hlink (grid.length - 1) (by omega) (by omega)
      rw [hb, ← h0]
      rcases e with ⟨-, e, -⟩ | ⟨-, grb, -, e, -⟩
      · rw [hf.1 _ _ _ _ _ _ e]
      · rw [hf.1 _ _ _ _ _ _ e]

end

/-! ### The hypotheses are met, with a drift that spoils its argument -/

/-- A drift that overwrites its argument with zeros (`x *= 0; return x`). -/
def zeroing (d N : ℕ) : EDrift d N ℕ ℝ where
  call2 _ _ := pure (fun _ _ => 0, fun _ _ => 0)
  call1 _ := pure (fun _ => 0, fun _ => 0)

/-- A run with `zeroing` as drift. -/
noncomputable def exZero (d N M steps : ℕ) (det : Bool) : ECfg d N M ℕ ℝ :=
  { (quiet (exCfg d N M steps det false false) : ECfg d N M ℕ ℝ) with f := zeroing d N }

/-- The construction returns (101 grid points, 5 particles in dimension 3), and every slice of the forward flow but the
last one, and of the backward flow but the first two, is zero; in particular the flows neither start in `y1` nor end in
`y2`. -/
example (r : ℕ) : ∃ o r', eConstruct exEnv (exZero 3 5 4 100 true) r = .ok (o, r') ∧
    (∀ i, i < 100 → o.Z[i]? = some (fun _ _ => 0)) ∧ (∀ j, 2 ≤ j → j < 101 → o.B[j]? = some (fun _ _ => 0)) ∧
    o.Z[0]? ≠ some (fun a _ => (exZero 3 5 4 100 true).y1 a) ∧ ¬ Keeps (exZero 3 5 4 100 true).f := by
  have hk : (mkGrid (exZero 3 5 4 100 true).t1 (exZero 3 5 4 100 true).t2).length = 101 :=
    exCfg_grid 3 5 4 100 true false false
  obtain ⟨o, r', h⟩ := eConstruct_total exEnv (exZero 3 5 4 100 true) (by omega) rfl (fun x t => Total.pure _) rfl rfl
    (by omega) r
  have hc : ∀ x t s v x' s', (exZero 3 5 4 100 true).f.call2 x t s = .ok ((v, x'), s') → x' = fun _ _ => 0 := by
    intro x t s v x' s' e
    cases e; rfl
  have hZ : ∀ i, i < 100 → o.Z[i]? = some (fun _ _ => (0 : ℝ)) := by
    intro i hi
    obtain ⟨xs, -, -, -, hlink, -⟩ := C97_forward exEnv _ rfl (by omega) r r' o h
    obtain ⟨t, x, x', y, w, -, -, a3, -, ⟨s, s1, s', v, a5⟩, -⟩ := hlink i (by omega)
    rw [a3]
    rcases a5 with ⟨-, e, -⟩ | ⟨-, gp, -, e, -⟩
    · rw [hc _ _ _ _ _ _ e]
    · rw [hc _ _ _ _ _ _ e]
  have hne : (fun (_ : Fin 3) (_ : Fin 5) => (0 : ℝ)) ≠ fun a _ => (exZero 3 5 4 100 true).y1 a := by
    intro e
    have := congrFun (congrFun e 0) 0
    simp [exZero, quiet, exCfg] at this
  refine ⟨o, r', h, hZ, fun j h2 h3 => ?_, ?_, fun hkp => ?_⟩
  · obtain ⟨⟨bs, -, -, hlink, -⟩, -⟩ := C97_backward exEnv _ (by omega) r r' o h
    obtain ⟨z, t, b', -, -, hb, s, s1, s2, s', v, gro, -, e⟩ := hlink j h2 (by omega)
    rw [hb]
    rcases e with ⟨-, e, -⟩ | ⟨-, grb, -, e, -⟩
    · rw [hc _ _ _ _ _ _ e]
    · rw [hc _ _ _ _ _ _ e]
  · rw [hZ 0 (by omega)]
    exact fun e => hne (Option.some.inj e)
  · have := hkp.1 (fun _ _ => 1) 0 0 (fun _ _ => 0) (fun _ _ => 0) 0 rfl
    have := congrFun (congrFun this 0) 0
    norm_num at this

/-- A torch run with a plain drift: it starts in `y1` and ends in `y2`. -/
example (r : ℕ) : ∃ o r', eTorchConstruct exEnv (quiet (exFan 3 5 4 100)) r = .ok (o, r') ∧
    o.Z[0]? = some (fun a _ => 1 + (a.val : ℝ)) ∧ o.B[100]? = some (fun a _ => 3 + (a.val : ℝ)) := by
  obtain ⟨o, r', h, -⟩ := ex_torch 3 5 4 100 (by omega) (by omega) (by omega) r
  have h' : eTorchConstruct exEnv (quiet (exFan 3 5 4 100)) r = .ok (arrays o, r') := by
    rw [C96_torch_plain_callables, h]; rfl
  have hk : (mkGrid (exFan 3 5 4 100).t1 (exFan 3 5 4 100).t2).length = 101 := exCfg_grid 3 5 4 100 true false false
  have := C97_torch_end_points exEnv (quiet (exFan 3 5 4 100)) rfl (keeps_quietDrift _) _
    (exCfg_torchGrid 3 5 4 100 true false false) (by rw [exCfg_grid]; omega) r r' _ h'
  refine ⟨_, r', h', this.1, ?_⟩
  have h2 := this.2
  rw [exCfg_grid] at h2
  exact h2

/-- A run with reweighting in Brownian-bridge mode has a true flow, which starts in `y1`. -/
example (r : ℕ) : ∃ o r' T, eConstruct exEnv (quiet (exCfg 3 5 4 100 true true true)) r = .ok (o, r') ∧
    o.Ztr = some T ∧ T[0]? = some (fun a _ => 1 + (a.val : ℝ)) := by
  obtain ⟨o, r', h, -⟩ := exE r
  have hT : ∃ T, o.Ztr = some T := by
    have h1 := h
    unfold eConstruct at h1
    rw [if_pos (by rfl)] at h1
    obtain ⟨Z, r1, e1, h1⟩ := RandM.bind_ok.1 h1
    obtain ⟨T, r2, e2, h1⟩ := RandM.bind_ok.1 h1
    obtain ⟨T', r3, e3, h1⟩ := RandM.bind_ok.1 h1
    obtain ⟨rfl, -⟩ := RandM.pure_ok.1 e3
    obtain ⟨B, r4, e4, h1⟩ := RandM.bind_ok.1 h1
    obtain ⟨rfl, -⟩ := RandM.pure_ok.1 h1
    exact ⟨T, rfl⟩
  have hk : (mkGrid (quiet (ρ := ℕ) (exCfg 3 5 4 100 true true true)).t1
      (quiet (ρ := ℕ) (exCfg 3 5 4 100 true true true)).t2).length = 101 := exCfg_grid 3 5 4 100 true true true
  obtain ⟨T, hT⟩ := hT
  obtain ⟨xs, h0, -, -, hlink, -⟩ := C97_true_flow exEnv _ rfl
    (by omega) r r' o h T hT
  obtain ⟨t, x, x', y, w, -, a2, a3, -, ⟨s, s1, s', v, a5⟩, -⟩ := hlink 0
    (by omega)
  rw [h0] at a2
  obtain rfl := Option.some.inj a2
  refine ⟨o, r', T, h, hT, ?_⟩
  rw [a3]
  have kp : Keeps (quiet (ρ := ℕ) (exCfg 3 5 4 100 true true true)).fTrue :=
    keeps_quietDrift? (exCfg 3 5 4 100 true true true).fTrue
  rcases a5 with ⟨-, e, -⟩ | ⟨-, gp, -, e, -⟩
  · rw [kp.1 _ _ _ _ _ _ e]; rfl
  · rw [kp.1 _ _ _ _ _ _ e]; rfl

end DPFC
