import Verif.Lib.Signature
import Verif.Props.Effects
import Verif.Lib.Examples

/-!
# C102: signatures of the user's callables

`eConstruct`/`eTorchConstruct` are the constructors of `Model/Effects.lean`, which agree with those of `Model/DPFC.lean`
and `Model/TorchDPFC.lean` on plain functions (C96). The theorems compare a run whose callables accept every call with
the run of the same callables under restricted signatures.
-/

namespace DPFC
open Spec
variable {K ρ : Type} [Add K] [Sub K] [Mul K] [Div K] [Neg K] [NumOps K]
variable {N M d : Nat}

/-- A run under restricted signatures, given the schedule of the run. -/
theorem sig_run {α : Type} {x : RandM ρ α} {y : (σ : Type) → (Call d N K → σ → Except PyErr σ) → RandM (ρ × σ) α} {r r' : ρ}
    {a : α} {T : List (Tag K)} (s : Signatures)
    (H : ∃ calls, MakesCalls x y r calls ∧ calls.map tag <+: T ∧ ∀ p, x r = .ok p → calls.map tag = T)
    (h : x r = .ok (a, r')) {P : Prop} (hP : T.all (tagFits s) = true ↔ P) :
    (P → y Unit s.check (r, ()) = .ok (a, (r', ()))) ∧ (¬ P → y Unit s.check (r, ()) = .error .typeError) := by
  obtain ⟨calls, hm, -, ht⟩ := H
  have hm := hm Unit s.check ()
  rw [monitor_check, ht _ h, h] at hm
  constructor
  · intro p
    rw [if_pos (hP.2 p)] at hm
    exact hm
  · intro p
    rw [if_neg fun c => p (hP.1 c)] at hm
    exact hm

/-- **C102** (numpy, deterministic). Let the run succeed with callables that accept every call. With restricted
signatures it gives the same object if the drift accepts a time argument and so do, with reweighting, the path
constraint and, in Brownian-bridge mode with reweighting, the true drift; otherwise it raises TypeError. -/
theorem C102_deterministic (env : Env ρ K) (c : ECfg d N M ρ K) (s : Signatures) (hdet : c.deterministic = true)
    (hk : 2 ≤ (mkGrid c.t1 c.t2).length) (r r' : ρ) (o : EObj d N K) (h : eConstruct env c r = .ok (o, r')) :
    let ok := s.f.two = true ∧ (c.reweight = true → s.U.two = true) ∧
      (c.reweight = true → c.brownBridge = true → s.fTrue.two = true)
    (ok → eConstruct (besides Unit env) (withSignatures s c) (r, ()) = .ok (o, (r', ()))) ∧
      (¬ ok → eConstruct (besides Unit env) (withSignatures s c) (r, ()) = .error .typeError) :=
  sig_run s (C96_schedule_deterministic env c hdet r) h (all_det s _ _ _ hk)

/-- **C102** (numpy, stochastic). Here the drift has to accept calls without time (and with time for the backward
flow, as soon as there are three grid points), and the path constraint calls without time. -/
theorem C102_stochastic (env : Env ρ K) (c : ECfg d N M ρ K) (s : Signatures) (hdet : c.deterministic = false) (hN : 0 < N)
    (hk : 2 ≤ (mkGrid c.t1 c.t2).length) (r r' : ρ) (o : EObj d N K) (h : eConstruct env c r = .ok (o, r')) :
    let ok := s.f.one = true ∧ (3 ≤ (mkGrid c.t1 c.t2).length → s.f.two = true) ∧ (c.reweight = true → s.U.one = true)
    (ok → eConstruct (besides Unit env) (withSignatures s c) (r, ()) = .ok (o, (r', ()))) ∧
      (¬ ok → eConstruct (besides Unit env) (withSignatures s c) (r, ()) = .error .typeError) :=
  sig_run s (C96_schedule_stochastic env c hdet r) h (all_stoch s hN _ _ hk)

/-- **C102** (torch, deterministic). As for the numpy class. -/
theorem C102_torch_deterministic (env : Env ρ K) (c : ECfg d N M ρ K) (s : Signatures) (hdet : c.deterministic = true)
    (grid : List K) (hg : torchGrid c.t1 c.t2 = .ok grid) (hk : 2 ≤ grid.length) (r r' : ρ) (o : EObj d N K)
    (h : eTorchConstruct env c r = .ok (o, r')) :
    let ok := s.f.two = true ∧ (c.reweight = true → s.U.two = true) ∧
      (c.reweight = true → c.brownBridge = true → s.fTrue.two = true)
    (ok → eTorchConstruct (besides Unit env) (withSignatures s c) (r, ()) = .ok (o, (r', ()))) ∧
      (¬ ok → eTorchConstruct (besides Unit env) (withSignatures s c) (r, ()) = .error .typeError) :=
  sig_run s (C96_torch_schedule_deterministic env c hdet grid hg r) h (all_det s _ _ _ hk)

/-- **C102** (torch, stochastic). The torch class calls the drift with time in both modes, but the constraint without
time. -/
theorem C102_torch_stochastic (env : Env ρ K) (c : ECfg d N M ρ K) (s : Signatures) (hdet : c.deterministic = false)
    (grid : List K) (hg : torchGrid c.t1 c.t2 = .ok grid) (hk : 2 ≤ grid.length) (r r' : ρ) (o : EObj d N K)
    (h : eTorchConstruct env c r = .ok (o, r')) :
    let ok := s.f.two = true ∧ (c.reweight = true → s.U.one = true)
    (ok → eTorchConstruct (besides Unit env) (withSignatures s c) (r, ()) = .ok (o, (r', ()))) ∧
      (¬ ok → eTorchConstruct (besides Unit env) (withSignatures s c) (r, ()) = .error .typeError) :=
  sig_run s (C96_torch_schedule_stochastic env c hdet grid hg r) h (all_torchStoch s _ _ hk)

/-- **C102** (a constraint as in the scripts). A path constraint `def U(x)` cannot be used in a deterministic run with
reweighting, a constraint `def U(x, t)` not in a stochastic one, whatever else is passed; with `t` optional it fits both
modes. -/
theorem C102_constraint_modes (env : Env ρ K) (c : ECfg d N M ρ K) (hw : c.reweight = true) (hN : 0 < N)
    (hk : 2 ≤ (mkGrid c.t1 c.t2).length) (r r' : ρ) (o : EObj d N K) (h : eConstruct env c r = .ok (o, r'))
    (f g : Arity) :
    (c.deterministic = true →
      eConstruct (besides Unit env) (withSignatures ⟨f, g, .x⟩ c) (r, ()) = .error .typeError) ∧
    (c.deterministic = false →
      eConstruct (besides Unit env) (withSignatures ⟨f, g, .xt⟩ c) (r, ()) = .error .typeError) ∧
    eConstruct (besides Unit env) (withSignatures ⟨.opt, .opt, .opt⟩ c) (r, ()) = .ok (o, (r', ())) := by
  refine ⟨fun hd => ?_, fun hd => ?_, ?_⟩
  · exact (C102_deterministic env c _ hd hk r r' o h).2 fun ok => Bool.false_ne_true (ok.2.1 hw)
  · exact (C102_stochastic env c _ hd hN hk r r' o h).2 fun ok => Bool.false_ne_true (ok.2.2 hw)
  · by_cases hd : c.deterministic = true
    · exact (C102_deterministic env c _ hd hk r r' o h).1 ⟨rfl, fun _ => rfl, fun _ _ => rfl⟩
    · exact (C102_stochastic env c _ (by simpa using hd) hN hk r r' o h).1 ⟨rfl, fun _ => rfl, fun _ => rfl⟩

/-! Non-vacuity: the deterministic example with reweighting constructs, so a constraint without time breaks it. -/

example (r : ℕ) : ∃ (o : EObj 3 4 ℝ) (r' : ℕ), eConstruct exEnv (quiet (exCfg 3 4 5 20 true true false)) r = .ok (o, r') ∧
    eConstruct (besides Unit exEnv) (withSignatures ⟨.opt, .opt, .x⟩ (quiet (exCfg 3 4 5 20 true true false))) (r, ())
      = .error .typeError := by
  obtain ⟨o, r', h, -⟩ := ex_det 3 4 5 20 true false (by norm_num) (by norm_num) r
  have e : eConstruct exEnv (quiet (exCfg 3 4 5 20 true true false)) r = .ok (arrays o, r') := by
    rw [C96_plain_callables, h]
    rfl
  exact ⟨_, _, e, (C102_constraint_modes exEnv _ rfl (by norm_num)
    (le_trans (by norm_num) (exCfg_grid 3 4 5 20 true true false).ge)
    r r' _ e .opt .opt).1 rfl⟩

end DPFC
