import Verif.Lib.CallArgs

/-! The arguments of the calls: the torch class, and the stochastic modes. -/

set_option linter.unusedSectionVars false
set_option linter.unusedSimpArgs false

namespace DPFC
open Spec

section
variable {K ρ : Type} [Add K] [Sub K] [Mul K] [Div K] [Neg K] [NumOps K]
variable {N M d : Nat}

theorem CallsPost.self {α : Type} {x : RandM ρ α} {y : Mon d N ρ K α} {Q : α → List (Call d N K) → Prop}
    (h : CallsPost x y Q) : CallsPost x y (fun a l => Q a l ∧ ∃ r r', x r = .ok (a, r')) := fun r =>
  let ⟨l, hl, h'⟩ := h r
  ⟨l, hl, fun a r' e => ⟨h' a r' e, r, r', e⟩⟩

/-- The reweighting half of a step: one call, then the slice is replaced. -/
theorem callsPost_weighPart {ti : Nat} {Z : Traj d N K} {rw : Mat d N K → RandM ρ (Mat d N K)}
    {rwm : Mat d N K → Mon d N ρ K (Mat d N K)} {call : Mat d N K → Call d N K}
    (h : ∀ x, CallsPost (rw x) (rwm x) fun _ l => l = [call x]) :
    CallsPost ((liftM (pyGet Z (ti : Int)) : RandM ρ (Mat d N K)) >>= fun x => rw x >>= fun y =>
        (liftM (setSlice Z (ti : Int) y) : RandM ρ (Traj d N K)))
      (fun σ m => (liftM (pyGet Z (ti : Int)) : RandM (ρ × σ) (Mat d N K)) >>= fun x => rwm x σ m >>= fun y =>
        (liftM (setSlice Z (ti : Int) y) : RandM (ρ × σ) (Traj d N K)))
      (fun Z' l => ∃ w y, Z[ti]? = some w ∧ Z' = Z.set ti y ∧ l = [call w] ∧ ∃ r r', rw w r = .ok (y, r')) := by
  refine CallsPost.lift fun x hx => ?_
  refine ((h x).self.bind_right fun _ σ m => Free.lift _).mono ?_
  rintro Z' l ⟨y, ⟨rfl, hy⟩, r, r', hs⟩
  exact ⟨x, y, pyGet_nat_some hx, (setSlice_nat_ok (lift_val hs)).2, rfl, hy⟩

theorem callsPost_noisy (env : Env ρ K) (g : K) {f : EDrift d N ρ K}
    (hf : Keeps f) (mk : Mat d N K → K → Call d N K) (x : Mat d N K) (t : K) :
    CallsPost (eNoisyStep env g f x t)
      (fun σ m => eNoisyStep (besides σ env) g
        ⟨fun x t => watched (m (mk x t)) (f.call2 x t), fun x => watched (m (.f1 x)) (f.call1 x)⟩ x t)
      (fun p l => l = [mk x t] ∧ p.2 = x) := by
  unfold eNoisyStep
  refine ((CallsPost.call (mk x t)).bind_right fun _ σ m =>
    Free.bind (Free.normalMat _ _ _ _) fun _ => Free.pure _).mono ?_
  rintro p l ⟨a, ⟨rfl, r, r', ha⟩, r1, r1', hp⟩
  obtain ⟨xi, r2, -, hp⟩ := RandM.bind_ok.1 hp
  obtain ⟨rfl, -⟩ := RandM.pure_ok.1 hp
  exact ⟨rfl, hf.1 _ _ _ _ _ _ ha⟩

/-- A step that calls the drift on slice `ti-1` and stores slice `ti`. -/
theorem callsPost_store {ti : Nat} (h1 : 1 ≤ ti) {Z : Traj d N K} {step : Mat d N K → RandM ρ (Mat d N K × Mat d N K)}
    {stepm : Mat d N K → Mon d N ρ K (Mat d N K × Mat d N K)} {call : Mat d N K → Call d N K}
    (h : ∀ x, CallsPost (step x) (stepm x) fun p l => l = [call x] ∧ p.2 = x) :
    CallsPost ((liftM (pyGet Z ((ti : Int) - 1)) : RandM ρ (Mat d N K)) >>= fun x => step x >>= fun p =>
        (liftM (storeStep Z ti p) : RandM ρ (Traj d N K)))
      (fun σ m => (liftM (pyGet Z ((ti : Int) - 1)) : RandM (ρ × σ) (Mat d N K)) >>= fun x => stepm x σ m >>= fun p =>
        (liftM (storeStep Z ti p) : RandM (ρ × σ) (Traj d N K)))
      (fun Z' l => ∃ x y, Z[ti - 1]? = some x ∧ ti < Z.length ∧ Z' = Z.set ti y ∧ l = [call x]) := by
  refine CallsPost.lift fun x hx => ?_
  refine ((h x).bind_right fun _ σ m => Free.lift _).mono ?_
  rintro Z' l ⟨⟨y, x'⟩, ⟨rfl, rfl⟩, r, r', hs⟩
  obtain ⟨a, b, e⟩ := storeStep_quiet h1 hx (lift_val hs)
  exact ⟨_, _, a, b, e, rfl⟩

theorem callsPost_torchOttoBody (env : Env ρ K) (c : ECfg d N M ρ K) (hf : Keeps c.f) (ti : Nat) (h1 : 1 ≤ ti)
    (tt : K) (Z : Traj d N K) :
    CallsPost (eTorchOttoBody env c ti tt Z)
      (fun σ m => eTorchOttoBody (besides σ env) (watch m c) ti tt Z)
      (StepCalls (fun x t => [Call.f x (t - lit 1 1000)]) c.reweight
        (fun w t y => ∃ r r', eTorchOttoReweight env c.U w t r = .ok (y, r')) Call.U ti tt Z) := by
  have h0 : ti ≠ 0 := by omega
  have hp : decide (0 < ti) = true := by simp; omega
  unfold eTorchOttoBody
  refine callsPost_weigh ?_ (fun Z hr => ?_) (fun Z hr => ?_)
  · unfold eTorchOttoMove
    simp only [if_neg h0, watch]
    by_cases h : ti = 1
    · simp only [if_pos h]
      exact callsPost_store h1 fun x => callsPost_noisy env c.g hf Call.f x (tt - dtc)
    · simp only [if_neg h]
      refine callsPost_store (call := fun x => Call.f x (tt - dtc)) h1 fun x => ?_
      unfold eTorchOttoStep eTorchFSeperate
      refine (CallsPost.bind_right (Q := fun p l => l = [Call.f x (tt - dtc)] ∧ p.2 = x) ?_
        fun _ σ m => Free.pure _).mono ?_
      · refine CallsPost.bind_left (fun σ m => Free.lift _) fun _ => ?_
        refine CallsPost.bind_left (fun σ m => Free.torchInducing _ _ _) fun _ => ?_
        refine CallsPost.bind_left (fun σ m => Free.lift _) fun _ => ?_
        refine ((CallsPost.call (Call.f x (tt - dtc))).bind_right fun _ σ m => Free.pure _).mono ?_
        rintro p l ⟨a, ⟨rfl, r, r', ha⟩, r1, r1', hp⟩
        obtain ⟨rfl, -⟩ := RandM.pure_ok.1 hp
        exact ⟨rfl, hf.1 _ _ _ _ _ _ ha⟩
      · rintro p l ⟨a, ⟨rfl, ha⟩, r1, r1', hp⟩
        obtain ⟨rfl, -⟩ := RandM.pure_ok.1 hp
        exact ⟨rfl, ha⟩
  · simp only [watch, hr, hp, Bool.and_true, if_true]
    refine callsPost_weighPart (rw := fun x => eTorchOttoReweight env c.U x tt)
      (call := fun x => Call.U x tt) fun x => ?_
    unfold eTorchOttoReweight
    refine ((CallsPost.call (Call.U x tt)).bind_right fun _ σ m => Free.lift _).mono ?_
    rintro p l ⟨a, ⟨rfl, -⟩, -⟩
    rfl
  · simp only [watch, hr, Bool.false_and, Bool.false_eq_true, if_false]
    refine (CallsPost.free fun σ m => Free.pure _).mono ?_
    rintro Z' l ⟨rfl, r, r', h⟩
    exact ⟨(RandM.pure_ok.1 h).1.symm, rfl⟩

theorem callsPost_torchTrueBody (env : Env ρ K) (c : ECfg d N M ρ K) (hft : Keeps c.fTrue)
    (ti : Nat) (h1 : 1 ≤ ti) (tt : K) (Z : Traj d N K) :
    CallsPost (eTorchTrueBody env c ti tt Z)
      (fun σ m => eTorchTrueBody (besides σ env) (watch m c) ti tt Z)
      (StepCalls (fun x t => [Call.fTrue x (t - lit 1 1000)]) false (fun _ _ _ => True) Call.U ti tt Z) := by
  have h0 : ti ≠ 0 := by omega
  have key : CallsPost (eTorchTrueBody env c ti tt Z)
      (fun σ m => eTorchTrueBody (besides σ env) (watch m c) ti tt Z)
      (fun Z' l => ∃ x y, Z[ti - 1]? = some x ∧ ti < Z.length ∧ Z' = Z.set ti y ∧
        l = [Call.fTrue x (tt - dtc)]) := by
    unfold eTorchTrueBody
    simp only [if_neg h0, watch]
    by_cases h : ti = 1
    · simp only [if_pos h]
      exact callsPost_store h1 fun x => callsPost_noisy env c.g hft Call.fTrue x (tt - dtc)
    · simp only [if_neg h]
      refine callsPost_store (call := fun x => Call.fTrue x (tt - dtc)) h1 fun x => ?_
      unfold eTorchTrueStep
      refine CallsPost.bind_left (fun σ m => Free.lift _) fun _ => ?_
      refine CallsPost.bind_left (fun σ m => Free.torchInducing _ _ _) fun _ => ?_
      refine CallsPost.bind_left (fun σ m => Free.lift _) fun _ => ?_
      refine ((CallsPost.call (Call.fTrue x (tt - dtc))).bind_right fun _ σ m => Free.pure _).mono ?_
      rintro p l ⟨a, ⟨rfl, r, r', ha⟩, r1, r1', hp⟩
      obtain ⟨rfl, -⟩ := RandM.pure_ok.1 hp
      exact ⟨rfl, hft.1 _ _ _ _ _ _ ha⟩
  refine key.mono ?_
  rintro Z' l ⟨x, y, hx, hl, rfl, rfl⟩
  exact ⟨x, x, y, hx, hl, rfl, by simp; rfl, by simp⟩

theorem callsPost_torchBackBody (env : Env ρ K) (c : ECfg d N M ρ K) (hf : Keeps c.f) (grid : List K)
    (Z : Traj d N K) (ti : Nat) (tt : K) (B : Traj d N K) (h1 : 1 ≤ ti) (h2 : ti + 1 < grid.length) :
    CallsPost (eTorchBackwardBody env c grid Z ti tt B)
      (fun σ m => eTorchBackwardBody (besides σ env) (watch m c) grid Z ti tt B)
      (BackStep grid ti B) := by
  have h0 : ti ≠ 0 := by omega
  have er : ((grid.length : Int) - ti - 1 + 1) = ((grid.length - ti : Nat) : Int) := by omega
  have er' : ((grid.length : Int) - ti - 1) = ((grid.length - ti - 1 : Nat) : Int) := by omega
  unfold eTorchBackwardBody
  simp only [if_neg h0, watch]
  refine CallsPost.bind_left (fun σ m => Free.torchDensityEst _ _ _ _ _ _) fun gro => ?_
  by_cases hc : (ti = 1 ∧ c.deterministic = true) ∨ c.deterministic = false
  · simp only [hc, if_true]
    refine CallsPost.lift fun b hb => CallsPost.lift fun t ht => ?_
    refine ((CallsPost.call (Call.f b t)).bind_right fun _ σ m =>
      Free.bind (Free.normalMat _ _ _ _) fun _ => Free.lift _).mono ?_
    rintro B' l ⟨⟨v, b'⟩, ⟨rfl, r, r', ha⟩, r1, r1', hp⟩
    obtain rfl := hf.1 _ _ _ _ _ _ ha
    obtain ⟨xi, r2, -, hp⟩ := RandM.bind_ok.1 hp
    have hs := lift_val hp
    rw [storeBack_self hb, er'] at hs
    rw [er] at hb ht
    exact ⟨_, t, _, pyGet_nat_some hb, pyGet_nat_some ht, (setSlice_nat_ok hs).2, rfl⟩
  · simp only [hc, if_false]
    refine CallsPost.bind_left (fun σ m => Free.torchBwDensityEst _ _ _ _ _ _) fun grb => ?_
    refine CallsPost.lift fun b hb => CallsPost.lift fun t ht => ?_
    refine ((CallsPost.call (Call.f b t)).bind_right fun _ σ m => Free.lift _).mono ?_
    rintro B' l ⟨⟨v, b'⟩, ⟨rfl, r, r', ha⟩, r1, r1', hp⟩
    obtain rfl := hf.1 _ _ _ _ _ _ ha
    have hs := lift_val hp
    rw [storeBack_self hb, er'] at hs
    rw [er] at hb ht
    exact ⟨_, t, _, pyGet_nat_some hb, pyGet_nat_some ht, (setSlice_nat_ok hs).2, rfl⟩

theorem callsPost_torchBackward (env : Env ρ K) (c : ECfg d N M ρ K) (hf : Keeps c.f) (grid : List K)
    (Z B : Traj d N K) :
    CallsPost (eTorchBackwardSim env c grid Z B)
      (fun σ m => eTorchBackwardSim (besides σ env) (watch m c) grid Z B)
      (fun B' l => l = ((B'.zip grid).drop 2).reverse.map fun p => Call.f p.1 p.2) := by
  unfold eTorchBackwardSim
  exact callsPost_back (ybody := fun ti tt B σ m => eTorchBackwardBody (besides σ env) (watch m c) grid Z ti tt B)
    (fun tt B σ m => Free.lift _) (fun ti tt B h1 h2 => callsPost_torchBackBody env c hf grid Z ti tt B h1 h2) B

theorem callsPost_torchConstructDet (env : Env ρ K) (c : ECfg d N M ρ K) (hdet : c.deterministic = true)
    (grid : List K) (hg : torchGrid c.t1 c.t2 = .ok grid) (hf : Keeps c.f) (hft : Keeps c.fTrue) :
    CallsPost (eTorchConstruct env c) (fun σ m => eTorchConstruct (besides σ env) (watch m c))
      (DetCalls (fun w t y => ∃ r r', eTorchOttoReweight env c.U w t r = .ok (y, r')) c.reweight grid) := by
  unfold eTorchConstruct
  simp only [show ∀ σ (m : Call d N K → σ → Except PyErr σ), (watch m c).deterministic = true from
    fun _ _ => hdet, hdet, if_true, show ∀ σ (m : Call d N K → σ → Except PyErr σ), torchGrid (watch m c).t1
    (watch m c).t2 = .ok grid from fun _ _ => hg, hg, RandM.liftM_ok, RandM.monadLift_ok, pure_bind]
  have hO := callsPost_sweep
    (ybody := fun ti tt Z σ m => eTorchOttoBody (besides σ env) (watch m c) ti tt Z)
    (fun tt Z σ m => by
      unfold eTorchOttoBody
      refine Free.bind (Free.lift _) fun Z => ?_
      simp only [watch, Nat.lt_irrefl, decide_false, Bool.and_false, Bool.false_eq_true, if_false]
      exact Free.pure _)
    (fun tt Z r Z' r' e => by
      unfold eTorchOttoBody at e
      obtain ⟨Z1, r1, e1, e⟩ := RandM.bind_ok.1 e
      simp only [Nat.lt_irrefl, decide_false, Bool.and_false, Bool.false_eq_true, if_false] at e
      obtain ⟨rfl, -⟩ := RandM.pure_ok.1 e
      exact initRows_len (lift_val e1))
    (fun ti tt Z h1 _ => callsPost_torchOttoBody env c hf ti h1 tt Z) grid (zerosT d N grid.length) (by simp [zerosT])
  have hT := callsPost_sweep
    (ybody := fun ti tt Z σ m => eTorchTrueBody (besides σ env) (watch m c) ti tt Z)
    (fun tt Z σ m => Free.lift _)
    (fun tt Z r Z' r' e => pinRows_len (lift_val e))
    (fun ti tt Z h1 _ => callsPost_torchTrueBody env c hft ti h1 tt Z) grid (zerosT d N grid.length) (by simp [zerosT])
  by_cases hz : (c.reweight && c.brownBridge) = true
  · simp only [show ∀ σ (m : Call d N K → σ → Except PyErr σ), ((watch m c).reweight && (watch m c).brownBridge)
      = true from fun _ _ => hz, hz, if_true]
    try simp only [bind_assoc, pure_bind]
    refine (hO.bind fun Z l1 _ => hT.bind fun T l2 _ =>
      (callsPost_torchBackward env c hf grid Z _).bind_right fun _ σ m => Free.pure _).mono ?_
    rintro o l ⟨Z, l1, l', rfl, ⟨-, h1⟩, T, l2, l3, rfl, ⟨-, h2⟩, B, rfl, r, r', e⟩
    obtain ⟨rfl, -⟩ := RandM.pure_ok.1 e
    refine ⟨l1, l2, h1, ?_, by simp, by simp⟩
    rintro T' ⟨⟩
    exact loopCalls_true h2
  · have hz' : (c.reweight && c.brownBridge) = false := by simpa using hz
    simp only [show ∀ σ (m : Call d N K → σ → Except PyErr σ), ((watch m c).reweight && (watch m c).brownBridge)
      = false from fun _ _ => hz', hz',
      if_false, Bool.false_eq_true, List.nil_append, pure_bind]
    refine (hO.bind fun Z l1 _ =>
      (callsPost_torchBackward env c hf grid Z _).bind_right fun _ σ m => Free.pure _).mono ?_
    rintro o l ⟨Z, l1, l', rfl, ⟨-, h1⟩, B, rfl, r, r', e⟩
    obtain ⟨rfl, -⟩ := RandM.pure_ok.1 e
    exact ⟨l1, [], h1, by simp, by simp, by simp⟩

/-! ### Stochastic modes -/

theorem callsPost_torchStochBody (env : Env ρ K) (c : ECfg d N M ρ K) (hf : Keeps c.f) (ti : Nat) (h1 : 1 ≤ ti)
    (tt : K) (Z : Traj d N K) :
    CallsPost (eTorchStochBody env c ti tt Z)
      (fun σ m => eTorchStochBody (besides σ env) (watch m c) ti tt Z)
      (StepCalls (fun x t => [Call.f x (t - lit 1 1000)]) c.reweight
        (fun w _ y => ∃ r r', eTorchStochReweight env c.U w r = .ok (y, r')) (fun w _ => Call.U1 w) ti tt Z) := by
  have h0 : ti ≠ 0 := by omega
  have e : ∀ {ρ : Type} (env : Env ρ K) (c : ECfg d N M ρ K), eTorchStochBody env c ti tt Z
      = (((liftM (pyGet Z ((ti : Int) - 1)) : RandM ρ (Mat d N K)) >>= fun x =>
          eNoisyStep env c.g c.f x (tt - dtc) >>= fun p => (liftM (storeStep Z ti p) : RandM ρ (Traj d N K)))
        >>= fun Z => if c.reweight then do
            let x ← (pyGet Z (ti : Int) : Except PyErr (Mat d N K))
            let y ← eTorchStochReweight env c.U x
            (setSlice Z ti y : Except PyErr (Traj d N K))
          else pure Z) := by
    intro ρ env c
    unfold eTorchStochBody
    rw [if_neg h0]
    simp only [bind_assoc]
  rw [e]
  simp only [e]
  refine callsPost_weigh ?_ (fun Z hr => ?_) (fun Z hr => ?_)
  · exact callsPost_store h1 fun x => callsPost_noisy env c.g hf Call.f x (tt - dtc)
  · simp only [watch, hr, if_true]
    refine callsPost_weighPart (rw := fun x => eTorchStochReweight env c.U x)
      (call := fun x => Call.U1 x) fun x => ?_
    unfold eTorchStochReweight
    refine ((CallsPost.call (Call.U1 x)).bind_right fun _ σ m => Free.lift _).mono ?_
    rintro p l ⟨a, ⟨rfl, -⟩, -⟩
    rfl
  · simp only [watch, hr, Bool.false_eq_true, if_false]
    refine (CallsPost.free fun σ m => Free.pure _).mono ?_
    rintro Z' l ⟨rfl, r, r', h⟩
    exact ⟨(RandM.pure_ok.1 h).1.symm, rfl⟩

theorem callsPost_torchConstructStoch (env : Env ρ K) (c : ECfg d N M ρ K) (hdet : c.deterministic = false)
    (grid : List K) (hg : torchGrid c.t1 c.t2 = .ok grid) (hf : Keeps c.f) :
    CallsPost (eTorchConstruct env c) (fun σ m => eTorchConstruct (besides σ env) (watch m c))
      (fun o l => ∃ l1, LoopCalls (fun x t => [Call.f x (t - lit 1 1000)]) c.reweight
          (fun w _ y => ∃ r r', eTorchStochReweight env c.U w r = .ok (y, r')) (fun w _ => Call.U1 w) o.Z grid.tail l1 ∧
        l = l1 ++ ((o.B.zip grid).drop 2).reverse.map fun p => Call.f p.1 p.2) := by
  unfold eTorchConstruct
  simp only [show ∀ σ (m : Call d N K → σ → Except PyErr σ), (watch m c).deterministic = false from
    fun _ _ => hdet, hdet, if_false, Bool.false_eq_true, show ∀ σ (m : Call d N K → σ → Except PyErr σ),
    torchGrid (watch m c).t1 (watch m c).t2 = .ok grid from fun _ _ => hg, hg, RandM.liftM_ok,
    RandM.monadLift_ok, pure_bind]
  have hO := callsPost_sweep
    (ybody := fun ti tt Z σ m => eTorchStochBody (besides σ env) (watch m c) ti tt Z)
    (fun tt Z σ m => Free.bind (Free.lift _) fun _ => Free.bind (Free.lift _) fun _ =>
      Free.bind (Free.lift _) fun _ => Free.lift _)
    (fun tt Z r Z' r' e => by
      obtain ⟨v0, r1, -, e⟩ := RandM.bind_ok.1 e
      obtain ⟨Z1, r2, e1, e⟩ := RandM.bind_ok.1 e
      obtain ⟨v1, r3, -, e⟩ := RandM.bind_ok.1 e
      rw [setRow_len (lift_val e), setRow_len (lift_val e1)])
    (fun ti tt Z h1 _ => callsPost_torchStochBody env c hf ti h1 tt Z) grid (zerosT d N grid.length) (by simp [zerosT])
  refine (hO.bind fun Z l1 _ =>
    (callsPost_torchBackward env c hf grid Z _).bind_right fun _ σ m => Free.pure _).mono ?_
  rintro o l ⟨Z, l1, l', rfl, ⟨-, h1⟩, B, rfl, r, r', e⟩
  obtain ⟨rfl, -⟩ := RandM.pure_ok.1 e
  exact ⟨l1, h1, rfl⟩

/-! #### The numpy class calls the drift particle by particle -/

theorem callsPost_forFin {α : Type} {P : α → Prop} {call : Nat → Call d N K} : ∀ {n : Nat} {f : Fin n → α → RandM ρ α}
    {g : Fin n → α → Mon d N ρ K α} (off : Nat)
    (_ : ∀ i a, P a → CallsPost (f i a) (g i a) fun b l => P b ∧ l = [call (off + i.val)]) (a : α), P a →
    CallsPost (DPFC.forFin n f a) (fun σ m => DPFC.forFin n (fun i a => g i a σ m) a)
      (fun b l => P b ∧ l = (List.range' off n).map call)
  | 0, _, _, _, _, a, ha => by
    refine (CallsPost.free fun σ m => Free.pure a).mono ?_
    rintro b l ⟨rfl, r, r', e⟩
    obtain ⟨rfl, -⟩ := RandM.pure_ok.1 e
    exact ⟨ha, rfl⟩
  | n+1, f, g, off, h, a, ha => by
    refine ((h 0 a ha).bind fun b l hb => callsPost_forFin (off + 1)
      (fun i a ha => by
        have := h i.succ a ha
        rwa [show off + i.succ.val = off + 1 + i.val by simp; omega] at this) b hb.1).mono ?_
    rintro b l ⟨a', l1, l2, rfl, ⟨-, rfl⟩, hb, rfl⟩
    exact ⟨hb, by rw [List.range'_succ]; rfl⟩

/-- Particle `i` of a cloud. -/
def colOf (x : Mat d N K) (i : Nat) : Fin d → K := fun a => if h : i < N then x a ⟨i, h⟩ else lit 0 1

theorem map_colOf (x : Mat d N K) :
    (List.range' 0 N).map (fun i => (Call.f1 (colOf x i) : Call d N K))
      = List.ofFn fun i : Fin N => Call.f1 fun a => x a i := by
  apply List.ext_getElem
  · simp
  · intro i h1 h2
    simp at h1
    simp only [List.getElem_map, List.getElem_range', List.getElem_ofFn]
    congr 1
    funext a
    simp [colOf, h1]

theorem callsPost_stochMove (env : Env ρ K) (c : ECfg d N M ρ K) (hf : Keeps c.f) (ti : Nat) (h1 : 1 ≤ ti)
    (Z : Traj d N K) {x : Mat d N K} (hx : Z[ti - 1]? = some x) (hl : ti < Z.length) :
    CallsPost (eStochMove env c ti Z) (fun σ m => eStochMove (besides σ env) (watch m c) ti Z)
      (fun Z' l => (∃ y, Z' = Z.set ti y) ∧ l = List.ofFn fun i : Fin N => Call.f1 fun a => x a i) := by
  unfold eStochMove
  rw [← map_colOf]
  refine callsPost_forFin (P := fun Z' => ∃ y, Z' = Z.set ti y) (g := fun i Z σ m => _) 0 (fun i Z1 hZ => ?_) Z
    ⟨Z[ti], by simp⟩
  obtain ⟨y, rfl⟩ := hZ
  refine CallsPost.lift fun x' hx' => ?_
  have e1 := pyGet_pred h1 hx'
  rw [List.getElem?_set_ne (by omega), hx] at e1
  obtain rfl := Option.some.inj e1
  refine ((CallsPost.call (Call.f1 fun a => x a i)).bind_right fun _ σ m =>
    Free.bind (Free.lift _) fun _ => Free.bind (Free.normalVec _ _ _) fun _ =>
    Free.bind (Free.lift _) fun _ => Free.lift _).mono ?_
  rintro Z' l ⟨⟨v, col⟩, ⟨rfl, r, r', ha⟩, r1, r1', hp⟩
  obtain rfl := hf.2 _ _ _ _ _ ha
  obtain ⟨Z2, r2, h2, hp⟩ := RandM.bind_ok.1 hp
  obtain ⟨xi, r3, -, hp⟩ := RandM.bind_ok.1 hp
  obtain ⟨cur, r4, -, hp⟩ := RandM.bind_ok.1 hp
  have hcol : (fun a n => if n = i then x a i else x a n) = x := by
    funext a n; by_cases h : n = i <;> simp [h]
  have h2' := lift_val h2
  rw [hcol, setSlice_self hx'] at h2'
  cases h2'
  have h3 := (setSlice_nat_ok (lift_val hp)).2
  rw [List.set_set] at h3
  refine ⟨⟨_, h3⟩, ?_⟩
  congr 2
  funext a
  simp [colOf]

theorem callsPost_stochBody (env : Env ρ K) (c : ECfg d N M ρ K) (hf : Keeps c.f) (ti : Nat) (h1 : 1 ≤ ti)
    (tt : K) (Z : Traj d N K) (hl : ti < Z.length) :
    CallsPost (eStochBody env c ti tt Z)
      (fun σ m => eStochBody (besides σ env) (watch m c) ti tt Z)
      (StepCalls (fun x _ => List.ofFn fun i : Fin N => Call.f1 fun a => x a i) c.reweight
        (fun w _ y => ∃ r r', eStochReweight env c.U w r = .ok (y, r')) (fun w _ => Call.U1 w) ti tt Z) := by
  have h0 : ti ≠ 0 := by omega
  unfold eStochBody
  simp only [if_neg h0]
  refine callsPost_weigh ?_ (fun Z hr => ?_) (fun Z hr => ?_)
  · have hx := List.getElem?_eq_getElem (l := Z) (i := ti - 1) (by omega)
    refine (callsPost_stochMove env c hf ti h1 Z hx hl).mono ?_
    rintro Z' l ⟨⟨y, rfl⟩, rfl⟩
    exact ⟨_, y, hx, hl, rfl, rfl⟩
  · simp only [watch, hr, if_true]
    refine callsPost_weighPart (rw := fun x => eStochReweight env c.U x)
      (call := fun x => Call.U1 x) fun x => ?_
    unfold eStochReweight
    refine ((CallsPost.call (Call.U1 x)).bind_right fun _ σ m =>
      Free.bind (Free.lift _) fun _ => Free.pure _).mono ?_
    rintro p l ⟨a, ⟨rfl, -⟩, -⟩
    rfl
  · simp only [watch, hr, Bool.false_eq_true, if_false]
    refine (CallsPost.free fun σ m => Free.pure _).mono ?_
    rintro Z' l ⟨rfl, r, r', h⟩
    exact ⟨(RandM.pure_ok.1 h).1.symm, rfl⟩

theorem zip_congr_dropLast {A B : Type} {l l' : List A} {m : List B} (e : l.dropLast = l'.dropLast)
    (h : m.length ≤ l'.dropLast.length) : l.zip m = l'.zip m := by
  have key : ∀ {a b : List A}, a.dropLast = b.dropLast → m.length ≤ b.dropLast.length →
      ∀ (i : Nat) (p : A × B), (a.zip m)[i]? = some p → (b.zip m)[i]? = some p := by
    intro a b e h i p hp
    rw [List.getElem?_zip_eq_some] at hp ⊢
    refine ⟨?_, hp.2⟩
    have hi := (List.getElem?_eq_some_iff.1 hp.2).1
    have h1 := congrArg (fun l : List A => l[i]?) e
    have h2 : a.length - 1 = b.length - 1 := by rw [← List.length_dropLast, e, List.length_dropLast]
    simp only [List.getElem?_dropLast, List.length_dropLast] at h1 h
    rw [if_pos (by omega), if_pos (by omega)] at h1
    rw [← h1]; exact hp.1
  apply List.ext_getElem?
  intro i
  cases h1 : (l.zip m)[i]? with
  | some p => exact (key e h i p h1).symm
  | none =>
    cases h2 : (l'.zip m)[i]? with
    | none => rfl
    | some p =>
      have := key e.symm (by rw [e]; exact h) i p h2
      rw [h1] at this
      cases this

theorem callsPost_constructStoch (env : Env ρ K) (c : ECfg d N M ρ K) (hdet : c.deterministic = false)
    (hf : Keeps c.f) :
    CallsPost (eConstruct env c) (fun σ m => eConstruct (besides σ env) (watch m c))
      (fun o l => ∃ l1 Z', o.Z.length = (mkGrid c.t1 c.t2).length ∧ Z'.dropLast = o.Z.dropLast ∧
        LoopCalls (fun x _ => List.ofFn fun i : Fin N => Call.f1 fun a => x a i) c.reweight
          (fun w _ y => ∃ r r', eStochReweight env c.U w r = .ok (y, r')) (fun w _ => Call.U1 w) Z'
          (mkGrid c.t1 c.t2).tail l1 ∧
        l = l1 ++ ((o.B.zip (mkGrid c.t1 c.t2)).drop 2).reverse.map fun p => Call.f p.1 p.2) := by
  unfold eConstruct
  simp only [show ∀ σ (m : Call d N K → σ → Except PyErr σ), (watch m c).deterministic = false from
    fun _ _ => hdet, hdet, if_false, Bool.false_eq_true]
  have hO := callsPost_sweep
    (ybody := fun ti tt Z σ m => eStochBody (besides σ env) (watch m c) ti tt Z)
    (fun tt Z σ m => Free.bind (Free.lift _) fun _ => Free.bind (Free.lift _) fun _ =>
      Free.bind (Free.lift _) fun _ => Free.lift _)
    (fun tt Z r Z' r' e => by
      obtain ⟨v0, r1, -, e⟩ := RandM.bind_ok.1 e
      obtain ⟨Z1, r2, e1, e⟩ := RandM.bind_ok.1 e
      obtain ⟨v1, r3, -, e⟩ := RandM.bind_ok.1 e
      rw [setRow_len (lift_val e), setRow_len (lift_val e1)])
    (fun ti tt Z h1 hl => callsPost_stochBody env c hf ti h1 tt Z hl) (mkGrid c.t1 c.t2)
    (zerosT d N (mkGrid c.t1 c.t2).length) (by simp [zerosT])
  have hF : CallsPost (eForwardStoch env c (mkGrid c.t1 c.t2) (zerosT d N (mkGrid c.t1 c.t2).length))
      (fun σ m => eForwardStoch (besides σ env) (watch m c) (mkGrid c.t1 c.t2)
        (zerosT d N (mkGrid c.t1 c.t2).length)) _ :=
    hO.bind_right fun Z σ m => Free.lift (pinRows Z (-1) c.y2)
  refine (hF.bind fun Z l1 _ =>
    (callsPost_backward env c hf (mkGrid c.t1 c.t2) Z _).bind_right fun _ σ m => Free.pure _).mono ?_
  rintro o l ⟨Z, l1, l', rfl, ⟨Z1, ⟨hlen, h1⟩, r0, r0', hp⟩, B, rfl, r, r', e⟩
  obtain ⟨rfl, -⟩ := RandM.pure_ok.1 e
  have hp := lift_val hp
  refine ⟨l1, Z1, (pinRows_len hp).trans hlen, ?_, h1, rfl⟩
  show Z1.dropLast = Z.dropLast
  rcases List.eq_nil_or_concat Z1 with rfl | ⟨Zs, z, rfl⟩
  · have := pinRows_len hp
    rw [List.length_nil, List.length_eq_zero_iff] at this
    rw [this]
  · rw [List.concat_eq_append] at hp ⊢
    rw [pinRows_ok _ _ Zs.length (by rw [pyIdx_neg_one (by simp)]; simp)] at hp
    cases hp
    simp

end
end DPFC
