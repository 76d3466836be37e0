import Verif.Spec.Effects
import Verif.Lib.Monad
import Verif.Lib.Flow

/-! Lemmas about callables with side effects: plain callables, monitors. -/

set_option linter.unusedSectionVars false
set_option linter.unusedSimpArgs false

namespace DPFC
open Spec

section
variable {K ρ : Type} [Add K] [Sub K] [Mul K] [Div K] [Neg K] [NumOps K]
variable {N M d : Nat}

/-! ### Plain callables -/

theorem set_self_of_pyGet {S : Type} {l : List S} {i : Int} {x : S} (h : pyGet l i = .ok x) :
    ∃ j, pyIdx l.length i = .ok j ∧ l.set j x = l := by
  unfold pyGet at h
  cases hj : pyIdx l.length i with
  | error e => rw [hj] at h; cases h
  | ok j =>
    rw [hj] at h
    refine ⟨j, rfl, ?_⟩
    simp only [Except.ok_bind'] at h
    have : l[j]? = some x := by
      cases hl : l[j]? with
      | none => simp [hl] at h
      | some y => simp [hl] at h; rw [h]
    apply List.ext_getElem?
    intro i
    rw [List.getElem?_set]
    by_cases hi : j = i
    · subst hi
      obtain ⟨hlt, hx⟩ := List.getElem?_eq_some_iff.1 this
      simp [hlt, hx]
    · simp [hi]

theorem setSlice_self {Z : Traj d N K} {i : Int} {x : Mat d N K} (h : pyGet Z i = .ok x) :
    setSlice Z i x = .ok Z := by
  obtain ⟨j, hj, hs⟩ := set_self_of_pyGet h
  simp [setSlice, hj, hs]

theorem storeStep_self {Z : Traj d N K} {ti : Nat} {x y : Mat d N K} (h : pyGet Z ((ti : Int) - 1) = .ok x) :
    storeStep Z ti (y, x) = setSlice Z ti y := by
  simp [storeStep, setSlice_self h]

theorem storeBack_self {Z : Traj d N K} {rev : Int} {x y : Mat d N K} (h : pyGet Z (rev + 1) = .ok x) :
    storeBack Z rev (y, x) = setSlice Z rev y := by
  simp [storeBack, setSlice_self h]

theorem eNoisyStep_quiet (env : Env ρ K) (g : K) (f : Drift d N K) (x : Mat d N K) (t : K) :
    eNoisyStep env g (quietDrift f) x t = (noisyStep env g f x t >>= fun y => pure (y, x)) := by
  rfl

theorem eOttoStep_quiet (plot : Bool) (env : Env ρ K) (kern : String) (g : K) (f : Drift d N K)
    (x : Mat d N K) (t : K) :
    eOttoStep plot env M kern g (quietDrift f) x t
      = (ottoStep plot env M kern g f x t >>= fun y => pure (y, x)) := by
  simp only [eOttoStep, eFSeperate, ottoStep, fSeperate, quietDrift, bind_assoc, pure_bind]

theorem bind_congr_lift {α β : Type} {x : Except PyErr α} {f g : α → RandM ρ β}
    (h : ∀ a, x = .ok a → f a = g a) : ((liftM x : RandM ρ α) >>= f) = (liftM x >>= g) := by
  cases x with
  | error e => rfl
  | ok a => simpa using h a rfl

theorem eOttoReweight_quiet (env : Env ρ K) (U : Option (Constraint d N K)) (x : Mat d N K) (tt : K) :
    eOttoReweight env (quietU U) x tt = (liftM (ottoReweight env U x tt) : RandM ρ (Mat d N K)) := by
  cases U with
  | none => rfl
  | some U =>
    simp only [eOttoReweight, quietU, ottoReweight, pure_bind]
    cases reweightOT env (tr x) (normWeights fun n => NumOps.exp (U.call2 x tt n * dtc)) <;> rfl

theorem eStochReweight_quiet (env : Env ρ K) (U : Option (Constraint d N K)) (x : Mat d N K) :
    eStochReweight env (quietU U) x = (liftM (stochReweight env U x) : RandM ρ (Mat d N K)) := by
  cases U with
  | none => rfl
  | some U =>
    simp only [eStochReweight, quietU, stochReweight]
    cases U.call1 with
    | none => rfl
    | some u =>
      simp only [pure_bind]
      cases reweightOT env (tr x) (normWeights fun n => NumOps.exp (u x n)) <;> rfl

theorem eOttoBody_quiet (env : Env ρ K) (c : Cfg d N M K) (ti : Nat) (tt : K) (Z : Traj d N K) :
    eOttoBody env (quiet c) ti tt Z = ottoBody env c ti tt Z := by
  unfold eOttoBody eOttoMove eForwardCall ottoBody
  simp only [quiet, eOttoReweight_quiet]
  by_cases h0 : ti = 0
  · subst h0
    rfl
  · by_cases h1 : ti = 1
    · simp only [if_neg h0, if_pos h1, bind_assoc]
      refine bind_congr_lift fun x hx => ?_
      simp only [eNoisyStep_quiet, bind_assoc, pure_bind, storeStep_self hx]
    · simp only [if_neg h0, if_neg h1, bind_assoc]
      refine bind_congr_lift fun x hx => ?_
      simp only [eOttoStep_quiet, bind_assoc, pure_bind, storeStep_self hx]

theorem eOttoTrueBody_quiet (env : Env ρ K) (c : Cfg d N M K) (ft : Drift d N K) (h : c.fTrue = some ft)
    (ti : Nat) (tt : K) (Z : Traj d N K) :
    eOttoTrueBody env (quiet c) ti tt Z = ottoTrueBody env c ti tt Z := by
  unfold eOttoTrueBody eForwardCall ottoTrueBody
  simp only [quiet, h, quietDrift?]
  by_cases h0 : ti = 0
  · simp [h0]
  · rw [if_neg h0, if_neg h0]
    refine bind_congr_lift fun x hx => ?_
    by_cases h1 : ti = 1
    · simp only [if_pos h1, eNoisyStep_quiet, bind_assoc, pure_bind, storeStep_self hx]
    · simp only [if_neg h1, eOttoStep_quiet, bind_assoc, pure_bind, storeStep_self hx]

theorem eStochMove_quiet (env : Env ρ K) (c : Cfg d N M K) (ti : Nat) (Z : Traj d N K) :
    eStochMove env (quiet c) ti Z = stochMove env c ti Z := by
  unfold eStochMove stochMove
  congr 1
  funext i Z
  refine bind_congr_lift fun x hx => ?_
  simp only [quiet, quietDrift]
  cases c.f.call1 with
  | none => rfl
  | some f1 =>
    have hcol : (fun a n => if n = i then x a i else x a n) = x := by
      funext a n; by_cases h : n = i <;> simp [h]
    simp only [pure_bind, hcol, setSlice_self hx, RandM.monadLift_ok, RandM.liftM_ok]

theorem eStochBody_quiet (env : Env ρ K) (c : Cfg d N M K) (ti : Nat) (tt : K) (Z : Traj d N K) :
    eStochBody env (quiet c) ti tt Z = stochBody env c ti tt Z := by
  unfold eStochBody stochBody
  rw [eStochMove_quiet]
  simp only [quiet, eStochReweight_quiet]

theorem eBackwardBody_quiet (env : Env ρ K) (c : Cfg d N M K) (grid : List K) (Z : Traj d N K)
    (ti : Nat) (tt : K) (B : Traj d N K) :
    eBackwardBody env (quiet c) grid Z ti tt B = backwardBody env c grid Z ti tt B := by
  unfold eBackwardBody backwardBody
  simp only [quiet, quietDrift, pure_bind]
  by_cases h0 : ti = 0
  · simp [h0]
  · rw [if_neg h0, if_neg h0]
    refine bind_congr fun gro => ?_
    by_cases h1 : (ti = 1 ∧ c.deterministic = true) ∨ c.deterministic = false
    · rw [if_pos h1, if_pos h1]
      refine bind_congr_lift fun b hb => ?_
      refine bind_congr fun t => ?_
      refine bind_congr fun xi => ?_
      rw [storeBack_self hb]
    · rw [if_neg h1, if_neg h1]
      refine bind_congr fun grb => ?_
      refine bind_congr_lift fun b hb => ?_
      refine bind_congr fun t => ?_
      rw [storeBack_self hb]

theorem enumLoop_congr {σ : Type} {b1 b2 : Nat → K → σ → RandM ρ σ} (h : ∀ ti tt s, b1 ti tt s = b2 ti tt s)
    (ti : Nat) (ts : List K) (s : σ) : enumLoop b1 ti ts s = enumLoop b2 ti ts s := by
  rw [show b1 = b2 by funext ti tt s; exact h ti tt s]

/-- Loops whose bodies agree on the first two rounds, the second of which always raises. -/
theorem enumLoop_fail {σ : Type} {b1 b2 : Nat → K → σ → RandM ρ σ} (h0 : ∀ tt s, b1 0 tt s = b2 0 tt s)
    (h1 : ∀ tt s, b1 1 tt s = b2 1 tt s) (hf : ∀ tt s r p, b1 1 tt s r ≠ .ok p) :
    ∀ (ts : List K) (s : σ), enumLoop b1 0 ts s = enumLoop b2 0 ts s
  | [], _ => rfl
  | [t], s => by simp only [enumLoop, h0]
  | t :: t' :: ts, s => by
    simp only [enumLoop, h0]
    refine bind_congr fun s' => ?_
    rw [← h1]
    funext r
    rw [RandM.bind_app, RandM.bind_app]
    cases h : b1 (0 + 1) t' s' r with
    | error e => rfl
    | ok p => exact absurd h (hf t' s' r p)

theorem forwardOttoTrue_quiet (env : Env ρ K) (c : Cfg d N M K) (g : List K) (s : Traj d N K) :
    enumLoop (eOttoTrueBody env (quiet c)) 0 g s = forwardOttoTrue env c g s := by
  cases h : c.fTrue with
  | some ft => exact enumLoop_congr (eOttoTrueBody_quiet env c ft h) 0 g s
  | none =>
    refine enumLoop_fail (fun tt Z => by simp [eOttoTrueBody, ottoTrueBody, quiet]) (fun tt Z => ?_)
      (fun tt Z r p => ?_) g s
    · simp only [eOttoTrueBody, ottoTrueBody, quiet, h, eForwardCall, if_neg Nat.one_ne_zero, if_true, eNoisyStep,
        quietDrift?]
      rfl
    · simp only [eOttoTrueBody, quiet, h, eForwardCall, if_neg Nat.one_ne_zero, if_true, eNoisyStep, quietDrift?]
      intro e
      obtain ⟨x, r1, -, e⟩ := RandM.bind_ok.1 e
      cases e

theorem eConstruct_quiet (env : Env ρ K) (c : Cfg d N M K) :
    eConstruct env (quiet c) = (construct env c >>= fun o => pure (arrays o)) := by
  have hO : ∀ g s, enumLoop (eOttoBody env (quiet c)) 0 g s = forwardOtto env c g s := fun g s =>
    enumLoop_congr (eOttoBody_quiet env c) 0 g s
  have hB : ∀ g Z B, eBackwardSim env (quiet c) g Z B = backwardSim env c g Z B := fun g Z B => by
    unfold eBackwardSim backwardSim
    rw [enumLoop_congr (eBackwardBody_quiet env c g Z)]
    rfl
  have hS : ∀ g s, eForwardStoch env (quiet c) g s = forwardStoch env c g s := fun g s => by
    unfold eForwardStoch forwardStoch
    rw [enumLoop_congr (eStochBody_quiet env c)]
    rfl
  unfold eConstruct construct
  simp only [hO, hB, hS, forwardOttoTrue_quiet]
  by_cases hd : c.deterministic = true
  · by_cases hz : (c.reweight && c.brownBridge) = true
    · simp only [quiet, hd, hz, if_true, bind_assoc, pure_bind, arrays]
    · simp only [quiet, hd, hz, if_true, if_false, Bool.false_eq_true, bind_assoc, pure_bind, arrays]
  · simp only [quiet, hd, if_false, Bool.false_eq_true, bind_assoc, pure_bind, arrays]

/-! #### torch -/

theorem eTorchOttoStep_quiet (env : Env ρ K) (g : K) (f : Drift d N K) (x : Mat d N K) (t : K) :
    eTorchOttoStep env M g (quietDrift f) x t
      = (torchOttoStep env M g f x t >>= fun y => pure (y, x)) := by
  simp only [eTorchOttoStep, eTorchFSeperate, torchOttoStep, torchFSeperate, quietDrift, bind_assoc, pure_bind]

theorem eTorchTrueStep_quiet (env : Env ρ K) (g : K) (f : Drift d N K) (x : Mat d N K) (t : K) :
    eTorchTrueStep env M g (quietDrift f) x t
      = (torchTrueStep env M g f x t >>= fun y => pure (y, x)) := by
  simp only [eTorchTrueStep, torchTrueStep, torchFSeperateTrue, quietDrift, bind_assoc, pure_bind]

theorem pyGet_of_setSlice {Z Z' : Traj d N K} {i : Int} {y : Mat d N K} (h : setSlice Z i y = .ok Z') :
    pyGet Z' i = .ok y := by
  unfold setSlice at h
  cases hj : pyIdx Z.length i with
  | error e => rw [hj] at h; cases h
  | ok j =>
    rw [hj] at h
    simp only [Except.ok_bind', Except.ok.injEq] at h
    subst h
    simp [pyGet, hj, pyIdx_ok_lt hj]

theorem torchWeigh_quiet (env : Env ρ K) (c : Cfg d N M K) (tt : K) {ti : Nat} {Z : Traj d N K}
    {y : Mat d N K} :
    ((liftM (setSlice Z (ti : Int) y) : RandM ρ (Traj d N K)) >>= fun Z => do
      let x ← (pyGet Z (ti : Int) : Except PyErr (Mat d N K))
      let y ← eTorchOttoReweight env (quietU c.U) x tt
      (setSlice Z ti y : Except PyErr (Traj d N K)))
    = ((liftM (setSlice Z (ti : Int) y) : RandM ρ (Traj d N K)) >>= fun Z =>
      match c.U with
      | none => RandM.raise .typeError
      | some U => do
        let x ← (pyGet Z (ti : Int) : Except PyErr (Mat d N K))
        let y ← (torchReweight env x fun n => NumOps.exp (U.call2 x tt n * dtc) :
          Except PyErr (Mat d N K))
        (setSlice Z ti y : Except PyErr (Traj d N K))) := by
  refine bind_congr_lift fun Z' hZ => ?_
  have hg := pyGet_of_setSlice hZ
  cases c.U with
  | none => simp only [hg]; rfl
  | some U => simp only [hg]; rfl

theorem torchWeigh1_quiet (env : Env ρ K) (c : Cfg d N M K) {ti : Nat} {Z : Traj d N K}
    {y : Mat d N K} :
    ((liftM (setSlice Z (ti : Int) y) : RandM ρ (Traj d N K)) >>= fun Z => do
      let x ← (pyGet Z (ti : Int) : Except PyErr (Mat d N K))
      let y ← eTorchStochReweight env (quietU c.U) x
      (setSlice Z ti y : Except PyErr (Traj d N K)))
    = ((liftM (setSlice Z (ti : Int) y) : RandM ρ (Traj d N K)) >>= fun Z =>
      match c.U with
      | none => RandM.raise .typeError
      | some U =>
        match U.call1 with
        | none => RandM.raise .typeError
        | some u => do
          let x ← (pyGet Z (ti : Int) : Except PyErr (Mat d N K))
          let y ← (torchReweight env x fun n => NumOps.exp (u x n) : Except PyErr (Mat d N K))
          (setSlice Z ti y : Except PyErr (Traj d N K))) := by
  refine bind_congr_lift fun Z' hZ => ?_
  have hg := pyGet_of_setSlice hZ
  cases hU : c.U with
  | none => simp only [hg]; rfl
  | some U =>
    cases h1 : U.call1 with
    | none => simp only [hg, quietU, h1, eTorchStochReweight]; rfl
    | some u => simp only [hg, quietU, h1, eTorchStochReweight]; rfl

theorem eTorchOttoBody_quiet (env : Env ρ K) (c : Cfg d N M K) (ti : Nat) (tt : K) (Z : Traj d N K) :
    eTorchOttoBody env (quiet c) ti tt Z = torchOttoBody env c ti tt Z := by
  unfold eTorchOttoBody eTorchOttoMove torchOttoBody
  simp only [quiet]
  by_cases h0 : ti = 0
  · subst h0
    refine bind_congr fun Z => ?_
    simp only [Nat.lt_irrefl, decide_false, Bool.and_false, Bool.false_eq_true, if_false]
  · have hp : decide (0 < ti) = true := by simp; omega
    by_cases h1 : ti = 1
    · simp only [if_neg h0, if_pos h1, bind_assoc, hp, Bool.and_true]
      refine bind_congr_lift fun x hx => ?_
      simp only [eNoisyStep_quiet, bind_assoc, pure_bind, storeStep_self hx]
      refine bind_congr fun y => ?_
      by_cases hr : c.reweight = true
      · simp only [hr, if_true]
        exact torchWeigh_quiet env c tt
      · simp only [hr, if_false, Bool.false_eq_true]
    · simp only [if_neg h0, if_neg h1, bind_assoc, hp, Bool.and_true]
      refine bind_congr_lift fun x hx => ?_
      simp only [eTorchOttoStep_quiet, bind_assoc, pure_bind, storeStep_self hx]
      refine bind_congr fun y => ?_
      by_cases hr : c.reweight = true
      · simp only [hr, if_true]
        exact torchWeigh_quiet env c tt
      · simp only [hr, if_false, Bool.false_eq_true]

theorem eTorchTrueBody_quiet (env : Env ρ K) (c : Cfg d N M K) (ft : Drift d N K) (h : c.fTrue = some ft)
    (ti : Nat) (tt : K) (Z : Traj d N K) :
    eTorchTrueBody env (quiet c) ti tt Z = torchTrueBody env c ti tt Z := by
  unfold eTorchTrueBody torchTrueBody
  simp only [quiet, h, quietDrift?]
  by_cases h0 : ti = 0
  · simp [h0]
  · rw [if_neg h0, if_neg h0]
    by_cases h1 : ti = 1
    · simp only [if_pos h1]
      refine bind_congr_lift fun x hx => ?_
      simp only [eNoisyStep_quiet, bind_assoc, pure_bind, storeStep_self hx]
    · simp only [if_neg h1]
      refine bind_congr_lift fun x hx => ?_
      simp only [eTorchTrueStep_quiet, bind_assoc, pure_bind, storeStep_self hx]

theorem eTorchStochBody_quiet (env : Env ρ K) (c : Cfg d N M K) (ti : Nat) (tt : K) (Z : Traj d N K) :
    eTorchStochBody env (quiet c) ti tt Z = torchStochBody env c ti tt Z := by
  unfold eTorchStochBody torchStochBody
  simp only [quiet]
  by_cases h0 : ti = 0
  · simp [h0]
  · simp only [if_neg h0]
    refine bind_congr_lift fun x hx => ?_
    simp only [eNoisyStep_quiet, bind_assoc, pure_bind, storeStep_self hx]
    refine bind_congr fun y => ?_
    by_cases hr : c.reweight = true
    · simp only [hr, if_true]
      exact torchWeigh1_quiet env c
    · simp only [hr, if_false, Bool.false_eq_true]

theorem eTorchBackwardBody_quiet (env : Env ρ K) (c : Cfg d N M K) (grid : List K) (Z : Traj d N K)
    (ti : Nat) (tt : K) (B : Traj d N K) :
    eTorchBackwardBody env (quiet c) grid Z ti tt B = torchBackwardBody env c grid Z ti tt B := by
  unfold eTorchBackwardBody torchBackwardBody
  simp only [quiet, quietDrift, pure_bind]
  by_cases h0 : ti = 0
  · simp [h0]
  · rw [if_neg h0, if_neg h0]
    refine bind_congr fun gro => ?_
    by_cases h1 : (ti = 1 ∧ c.deterministic = true) ∨ c.deterministic = false
    · rw [if_pos h1, if_pos h1]
      refine bind_congr_lift fun b hb => ?_
      refine bind_congr fun t => ?_
      refine bind_congr fun xi => ?_
      rw [storeBack_self hb]
    · rw [if_neg h1, if_neg h1]
      refine bind_congr fun grb => ?_
      refine bind_congr_lift fun b hb => ?_
      refine bind_congr fun t => ?_
      rw [storeBack_self hb]

theorem torchForwardOttoTrue_quiet (env : Env ρ K) (c : Cfg d N M K) (g : List K) (s : Traj d N K) :
    enumLoop (eTorchTrueBody env (quiet c)) 0 g s = torchForwardOttoTrue env c g s := by
  cases h : c.fTrue with
  | some ft => exact enumLoop_congr (eTorchTrueBody_quiet env c ft h) 0 g s
  | none =>
    refine enumLoop_fail (fun tt Z => by simp [eTorchTrueBody, torchTrueBody, quiet]) (fun tt Z => ?_)
      (fun tt Z r p => ?_) g s
    · simp only [eTorchTrueBody, torchTrueBody, quiet, h, if_neg Nat.one_ne_zero, if_true, eNoisyStep,
        quietDrift?]
      rfl
    · simp only [eTorchTrueBody, quiet, h, if_neg Nat.one_ne_zero, if_true, eNoisyStep, quietDrift?]
      intro e
      obtain ⟨x, r1, -, e⟩ := RandM.bind_ok.1 e
      cases e

theorem eTorchConstruct_quiet (env : Env ρ K) (c : Cfg d N M K) :
    eTorchConstruct env (quiet c) = (torchConstruct env c >>= fun o => pure (arrays o)) := by
  have hO : ∀ g s, enumLoop (eTorchOttoBody env (quiet c)) 0 g s = torchForwardOtto env c g s := fun g s =>
    enumLoop_congr (eTorchOttoBody_quiet env c) 0 g s
  have hB : ∀ g Z B, eTorchBackwardSim env (quiet c) g Z B = torchBackwardSim env c g Z B := fun g Z B => by
    unfold eTorchBackwardSim torchBackwardSim
    rw [enumLoop_congr (eTorchBackwardBody_quiet env c g Z)]
    rfl
  have hS : ∀ g s, enumLoop (eTorchStochBody env (quiet c)) 0 g s = torchForwardStoch env c g s := fun g s =>
    enumLoop_congr (eTorchStochBody_quiet env c) 0 g s
  unfold eTorchConstruct torchConstruct
  simp only [hO, hB, hS, torchForwardOttoTrue_quiet]
  by_cases hd : c.deterministic = true
  · by_cases hz : (c.reweight && c.brownBridge) = true
    · simp only [quiet, hd, hz, if_true, bind_assoc, pure_bind, arrays]
    · simp only [quiet, hd, hz, if_true, if_false, Bool.false_eq_true, bind_assoc, pure_bind, arrays]
  · simp only [quiet, hd, if_false, Bool.false_eq_true, bind_assoc, pure_bind, arrays]

end
end DPFC
