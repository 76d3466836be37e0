import Verif.Lib.Flow

/-! The time loops of the torch class as chains of slices. -/

set_option linter.unusedSectionVars false
set_option linter.unusedSimpArgs false

namespace DPFC
section torch
variable {K ρ : Type} [Add K] [Sub K] [Mul K] [Div K] [Neg K] [NumOps K]
variable {N M d : Nat}

/-- Reweighting of a slice at time `tt` in the deterministic torch sampler. -/
def torchOttoRw (env : Env ρ K) (U : Option (Constraint d N K)) (x : Mat d N K) (tt : K) :
    Except PyErr (Mat d N K) :=
  match U with
  | none => .error .typeError
  | some U => torchReweight env x fun n => NumOps.exp (U.call2 x tt n * dtc)

/-- Reweighting of a slice in the stochastic torch sampler. -/
def torchStochRw (env : Env ρ K) (U : Option (Constraint d N K)) (x : Mat d N K) :
    Except PyErr (Mat d N K) :=
  match U with
  | none => .error .typeError
  | some U =>
    match U.call1 with
    | none => .error .typeError
    | some u => torchReweight env x fun n => NumOps.exp (u x n)

/-- One new slice of the deterministic forward flow. -/
def torchOttoSlice (env : Env ρ K) (c : Cfg d N M K) (ti : Nat) (tt : K) (x : Mat d N K) :
    RandM ρ (Mat d N K) := do
  let raw ← if ti = 1 then noisyStep env c.g c.f x (tt - dtc)
    else torchOttoStep env M c.g c.f x (tt - dtc)
  if c.reweight then (liftM (torchOttoRw env c.U raw tt) : RandM ρ (Mat d N K)) else pure raw

/-- One new slice of the true-drift flow. -/
def torchTrueSlice (env : Env ρ K) (c : Cfg d N M K) (ti : Nat) (tt : K) (x : Mat d N K) :
    RandM ρ (Mat d N K) :=
  match c.fTrue with
  | none => RandM.raise .typeError
  | some ft => if ti = 1 then noisyStep env c.g ft x (tt - dtc)
      else torchTrueStep env M c.g ft x (tt - dtc)

/-- One new slice of the stochastic forward flow. -/
def torchStochSlice (env : Env ρ K) (c : Cfg d N M K) (_ti : Nat) (tt : K) (x : Mat d N K) :
    RandM ρ (Mat d N K) := do
  let raw ← noisyStep env c.g c.f x (tt - dtc)
  if c.reweight then (liftM (torchStochRw env c.U raw) : RandM ρ (Mat d N K)) else pure raw

theorem torchOttoBody_succ (env : Env ρ K) (c : Cfg d N M K) (ti : Nat) (tt : K) (Z : Traj d N K)
    (x : Mat d N K) (h1 : 1 ≤ ti) (hl : ti < Z.length) (hx : Z[ti-1]? = some x) :
    torchOttoBody env c ti tt Z = (do let y ← torchOttoSlice env c ti tt x; pure (Z.set ti y)) := by
  obtain ⟨hg, hg2⟩ := slice_access h1 hl hx
  have hs : ∀ y : Mat d N K, setSlice Z (ti : Int) y = .ok (Z.set ti y) :=
    fun y => setSlice_nat _ hl _
  have hs2 : ∀ y w : Mat d N K, setSlice (Z.set ti w) (ti : Int) y = .ok (Z.set ti y) := by
    intro y w
    rw [setSlice_nat _ (by simpa using hl), List.set_set]
  have h0 : ¬ ti = 0 := by omega
  have hp : decide (0 < ti) = true := decide_eq_true (by omega)
  unfold torchOttoBody torchOttoSlice
  by_cases hi : ti = 1
  · simp only [if_neg h0, if_pos hi, hp, hg, hs, Bool.and_true, RandM.liftM_ok, pure_bind, bind_assoc]
    congr 1; funext y
    by_cases hr : c.reweight = true
    · simp only [if_pos hr, hg2, hs2, RandM.liftM_ok, pure_bind, torchOttoRw]
      cases c.U <;> rfl
    · simp only [if_neg hr, pure_bind]
  · simp only [if_neg h0, if_neg hi, hp, hg, hs, Bool.and_true, RandM.liftM_ok, pure_bind, bind_assoc]
    congr 1; funext y
    by_cases hr : c.reweight = true
    · simp only [if_pos hr, hg2, hs2, RandM.liftM_ok, pure_bind, torchOttoRw]
      cases c.U <;> rfl
    · simp only [if_neg hr, pure_bind]

theorem torchOttoBody_zero (env : Env ρ K) (c : Cfg d N M K) (tt : K) (Z : Traj d N K)
    (h0 : 0 < Z.length) :
    torchOttoBody env c 0 tt Z = pure (if c.brownBridge then
        (Z.set 0 (pt N c.y1)).set (Z.length - 1) (pt N c.y2) else Z.set 0 (pt N c.y1)) := by
  rw [← ottoBody_zero env c tt Z h0]
  unfold torchOttoBody ottoBody
  simp only [if_true, Nat.lt_irrefl, decide_false, Bool.and_false, Bool.false_eq_true, if_false]

/-- The deterministic forward flow, as a computation. -/
theorem torchForwardOtto_eq (env : Env ρ K) (c : Cfg d N M K) (t0 t1 : K) (ts : List K)
    (Z0 : Traj d N K) (h : Z0.length = ts.length + 2) :
    torchForwardOtto env c (t0 :: t1 :: ts) Z0
      = (do let ys ← chain (torchOttoSlice env c) 1 (t1 :: ts) (pt N c.y1)
            pure (pt N c.y1 :: ys)) := by
  unfold torchForwardOtto
  rw [enumLoop, torchOttoBody_zero _ _ _ _ (by omega), pure_bind,
    enumLoop_chain (torchOttoBody env c) (torchOttoSlice env c) (torchOttoBody_succ env c)
      (t1 :: ts) 1 _ (pt N c.y1)
      (by omega) (by split <;> simp <;> omega) (by
        split
        · rw [List.getElem?_set_ne (by omega)]; simp [show 0 < Z0.length by omega]
        · simp [show 0 < Z0.length by omega])]
  congr 1; funext ys
  congr 1
  obtain ⟨a, b, Z, rfl⟩ : ∃ a b Z, Z0 = a :: b :: Z := by
    match Z0, h with
    | a :: b :: Z, _ => exact ⟨a, b, Z, rfl⟩
  split <;> simp

theorem torchForwardOtto_single (env : Env ρ K) (c : Cfg d N M K) (t0 : K)
    (Z0 : Traj d N K) (h : Z0.length = 1) :
    torchForwardOtto env c [t0] Z0 = pure [if c.brownBridge then pt N c.y2 else pt N c.y1] := by
  unfold torchForwardOtto
  rw [enumLoop, torchOttoBody_zero _ _ _ _ (by omega), pure_bind]
  obtain ⟨a, rfl⟩ := List.length_eq_one_iff.1 h
  by_cases hb : c.brownBridge = true <;> simp [hb, enumLoop]

theorem torchTrueBody_succ (env : Env ρ K) (c : Cfg d N M K) (ti : Nat) (tt : K) (Z : Traj d N K)
    (x : Mat d N K) (h1 : 1 ≤ ti) (hl : ti < Z.length) (hx : Z[ti-1]? = some x) :
    torchTrueBody env c ti tt Z = (do let y ← torchTrueSlice env c ti tt x; pure (Z.set ti y)) := by
  obtain ⟨hg, hg2⟩ := slice_access h1 hl hx
  have hs : ∀ y : Mat d N K, setSlice Z (ti : Int) y = .ok (Z.set ti y) :=
    fun y => setSlice_nat _ hl _
  have h0 : ¬ ti = 0 := by omega
  unfold torchTrueBody torchTrueSlice
  simp only [if_neg h0, hg, RandM.liftM_ok, pure_bind]
  cases c.fTrue with
  | none => rfl
  | some ft =>
    by_cases hi : ti = 1
    · simp only [hs, if_pos hi, RandM.liftM_ok]
    · simp only [hs, if_neg hi, RandM.liftM_ok]

/-- The true-drift forward flow, as a computation. -/
theorem torchForwardOttoTrue_eq (env : Env ρ K) (c : Cfg d N M K) (t0 : K) (ts : List K)
    (Z0 : Traj d N K) (h : Z0.length = ts.length + 1) :
    torchForwardOttoTrue env c (t0 :: ts) Z0
      = (do let ys ← chain (torchTrueSlice env c) 1 ts (pt N c.y1); pure (pt N c.y1 :: ys)) := by
  unfold torchForwardOttoTrue
  have hz : torchTrueBody env c 0 t0 Z0 = pure (Z0.set 0 (pt N c.y1)) := by
    unfold torchTrueBody
    rw [if_pos rfl, pinRows_ok _ _ 0 (pyIdx_zero (by omega)), RandM.liftM_ok]
  rw [enumLoop, hz, pure_bind,
    enumLoop_chain (torchTrueBody env c) (torchTrueSlice env c) (torchTrueBody_succ env c) ts 1 _
      (pt N c.y1) (by omega) (by simp; omega) (by simp [show 0 < Z0.length by omega])]
  congr 1; funext ys
  congr 1
  obtain ⟨a, Z, rfl⟩ : ∃ a Z, Z0 = a :: Z := by
    match Z0, h with
    | a :: Z, _ => exact ⟨a, Z, rfl⟩
  simp

theorem torchStochBody_succ (env : Env ρ K) (c : Cfg d N M K) (ti : Nat) (tt : K) (Z : Traj d N K)
    (x : Mat d N K) (h1 : 1 ≤ ti) (hl : ti < Z.length) (hx : Z[ti-1]? = some x) :
    torchStochBody env c ti tt Z = (do let y ← torchStochSlice env c ti tt x; pure (Z.set ti y)) := by
  obtain ⟨hg, hg2⟩ := slice_access h1 hl hx
  have hs : ∀ y : Mat d N K, setSlice Z (ti : Int) y = .ok (Z.set ti y) :=
    fun y => setSlice_nat _ hl _
  have hs2 : ∀ y w : Mat d N K, setSlice (Z.set ti w) (ti : Int) y = .ok (Z.set ti y) := by
    intro y w
    rw [setSlice_nat _ (by simpa using hl), List.set_set]
  have h0 : ¬ ti = 0 := by omega
  unfold torchStochBody torchStochSlice
  simp only [if_neg h0, hg, hs, RandM.liftM_ok, pure_bind, bind_assoc]
  congr 1; funext y
  by_cases hr : c.reweight = true
  · simp only [if_pos hr, hg2, hs2, RandM.liftM_ok, pure_bind, torchStochRw]
    cases c.U with
    | none => rfl
    | some U => rcases U with ⟨u2, _ | u1⟩ <;> rfl
  · simp only [if_neg hr, pure_bind]

theorem torchStochBody_zero (env : Env ρ K) (c : Cfg d N M K) (tt : K) (Z : Traj d N K) :
    torchStochBody env c 0 tt Z = stochBody env c 0 tt Z := rfl

/-- The stochastic forward flow of the torch class, as a computation. -/
theorem torchForwardStoch_eq (env : Env ρ K) (c : Cfg d N M K) (t0 : K) (ts : List K) (hd : 2 ≤ d) :
    torchForwardStoch env c (t0 :: ts) (zerosT d N (ts.length+1))
      = (do let ys ← chain (torchStochSlice env c) 1 ts (stochInit N c.y1)
            pure (stochInit N c.y1 :: ys)) := by
  have hl : (zerosT d N (ts.length+1) : Traj d N K).length = ts.length + 1 := by simp [zerosT]
  unfold torchForwardStoch
  rw [enumLoop, torchStochBody_zero, stochBody_zero _ _ _ _ hd, pure_bind,
    enumLoop_chain (torchStochBody env c) (torchStochSlice env c) (torchStochBody_succ env c) ts 1 _
      (stochInit N c.y1) (by omega) (by simp [hl]; omega) (by simp [hl])]
  rfl

/-- `density_estimation` of the torch class on given slices. -/
def torchDensityAt (env : Env ρ K) (M : Nat) (kern : String) (z b : Mat d N K) :
    RandM ρ (Mat d N K) := do
  let bnds ← (densityBox z b : Except PyErr (Fin d → K × K))
  let Sxx ← torchInducing env bnds M
  let s ← (torchScoreFn (tr z) Sxx (.tensor (torchLengthScales z)) (lit 1 1000) kern
    (.tensor (tr b)) : Except PyErr (Mat N d K))
  pure (tr s)

/-- `bw_density_estimation` of the torch class on given slices. -/
def torchBwDensityAt (env : Env ρ K) (M : Nat) (kern : String) (z b : Mat d N K) :
    RandM ρ (Mat d N K) := do
  let bnds ← (hullBox z b : Except PyErr (Fin d → K × K))
  let Sxx ← torchInducing env bnds M
  let s ← (torchScore (tr b) Sxx (.tensor (torchLengthScales b)) (lit 1 1000) kern :
    Except PyErr (Mat N d K))
  pure (tr s)

theorem torchBackwardSim_gen (env : Env ρ K) (c : Cfg d N M K) (grid : List K) (Z B : Traj d N K) :
    torchBackwardSim env c grid Z B =
      (do let B ← enumLoop (genBackBody env (torchDensityAt env M (effKern c.kern))
            (torchBwDensityAt env M (effKern c.kern)) c grid Z) 0 grid.dropLast B
          (liftM (pinRows B 0 c.y1) : RandM ρ (Traj d N K))) := by
  have : torchBackwardBody env c grid Z = genBackBody env (torchDensityAt env M (effKern c.kern))
      (torchBwDensityAt env M (effKern c.kern)) c grid Z := by
    funext ti tt B
    unfold torchBackwardBody genBackBody
    simp only [torchDensityEst, torchBwDensityEst, torchDensityAt, torchBwDensityAt, bind_assoc]
  unfold torchBackwardSim
  rw [this]

/-- One backward step of the torch class. -/
abbrev torchBack (env : Env ρ K) (c : Cfg d N M K) :
    Nat → Mat d N K × K → Mat d N K → RandM ρ (Mat d N K) :=
  backStep env (torchDensityAt env M (effKern c.kern)) (torchBwDensityAt env M (effKern c.kern))
    c.f c.g c.deterministic

theorem torchBackwardSim_eq (env : Env ρ K) (c : Cfg d N M K) (grid : List K) (Z B : Traj d N K)
    (hZ : Z.length = grid.length) (hB : B.length = grid.length) (h2 : 2 ≤ grid.length) :
    torchBackwardSim env c grid Z B = (do
        let ys ← chain (torchBack env c) 1 (visits Z grid) (pt N c.y2)
        pure (pt N c.y1 :: (ys.reverse ++ [pt N c.y2]))) := by
  rw [torchBackwardSim_gen, genBackward_eq _ _ _ _ _ _ _ hZ hB h2]

/-- The optional true-drift flow. -/
def torchTrueFlow (env : Env ρ K) (c : Cfg d N M K) (grid : List K) :
    RandM ρ (Option (Traj d N K)) :=
  if c.reweight && c.brownBridge then do
    let ys ← chain (torchTrueSlice env c) 1 grid.tail (pt N c.y1)
    pure (some (pt N c.y1 :: ys))
  else pure none

/-- Successful deterministic construction (torch) on a grid of at least two points. -/
theorem torchConstruct_det_iff (env : Env ρ K) (c : Cfg d N M K) (hdet : c.deterministic = true)
    (grid : List K) (hg : torchGrid c.t1 c.t2 = .ok grid)
    (hk : 2 ≤ grid.length) (r r' : ρ) (o : Obj d N M K) :
    torchConstruct env c r = .ok (o, r') ↔
      ∃ (ys : Traj d N K) (r1 : ρ) (zt : Option (Traj d N K)) (r2 : ρ) (bs : Traj d N K),
        chain (torchOttoSlice env c) 1 grid.tail (pt N c.y1) r = .ok (ys, r1) ∧
        torchTrueFlow env c grid r1 = .ok (zt, r2) ∧
        chain (torchBack env c) 1 (visits (pt N c.y1 :: ys) grid) (pt N c.y2) r2
          = .ok (bs, r') ∧
        o = ⟨c, grid, pt N c.y1 :: ys, pt N c.y1 :: (bs.reverse ++ [pt N c.y2]), zt⟩ := by
  unfold torchConstruct
  rw [hg, RandM.liftM_ok, pure_bind]
  obtain ⟨t0, t1, ts, rfl⟩ : ∃ t0 t1 ts, grid = t0 :: t1 :: ts := by
    match grid, hk with
    | a :: b :: l, _ => exact ⟨a, b, l, rfl⟩
  simp only [if_pos hdet]
  rw [torchForwardOtto_eq env c t0 t1 ts _ (by simp [zerosT_length])]
  simp only [bind_assoc, pure_bind]
  have hback : ∀ {a : Traj d N K} {r0 r1 : ρ},
      chain (torchOttoSlice env c) 1 (t1 :: ts) (pt N c.y1) r0 = .ok (a, r1) →
      torchBackwardSim env c (t0 :: t1 :: ts) (pt N c.y1 :: a) (zerosT d N (t0 :: t1 :: ts).length)
        = (do
        let ys ← chain (torchBack env c) 1 (visits (pt N c.y1 :: a) (t0 :: t1 :: ts)) (pt N c.y2)
        pure (pt N c.y1 :: (ys.reverse ++ [pt N c.y2]))) := by
    intro a r0 r1 h
    exact torchBackwardSim_eq _ _ _ _ _ (by simp [chain_length h]) (by simp [zerosT_length]) hk
  by_cases h : (c.reweight && c.brownBridge) = true
  · simp only [if_pos h, torchTrueFlow, List.tail_cons]
    rw [torchForwardOttoTrue_eq env c t0 (t1 :: ts) _ (by simp [zerosT_length])]
    simp only [RandM.bind_ok, bind_assoc, pure_bind, RandM.pure_ok]
    constructor
    · rintro ⟨ys, r1, h1, zs, r2, h2, B, r3, h3, rfl, rfl⟩
      rw [hback h1] at h3
      simp only [RandM.bind_ok, RandM.pure_ok] at h3
      obtain ⟨bs, r4, h4, rfl, rfl⟩ := h3
      exact ⟨ys, r1, _, r2, bs, h1, ⟨zs, r2, h2, rfl, rfl⟩, h4, rfl⟩
    · rintro ⟨ys, r1, zt, r2, bs, h1, ⟨zs, r3, h2, rfl, rfl⟩, h4, rfl⟩
      refine ⟨ys, r1, h1, zs, r3, h2, _, r', ?_, rfl, rfl⟩
      rw [hback h1]
      simp only [RandM.bind_ok, RandM.pure_ok]
      exact ⟨bs, r', h4, rfl, rfl⟩
  · simp only [if_neg h, torchTrueFlow, List.tail_cons]
    simp only [RandM.bind_ok, bind_assoc, pure_bind, RandM.pure_ok]
    constructor
    · rintro ⟨ys, r1, h1, B, r3, h3, rfl, rfl⟩
      rw [hback h1] at h3
      simp only [RandM.bind_ok, RandM.pure_ok] at h3
      obtain ⟨bs, r4, h4, rfl, rfl⟩ := h3
      exact ⟨ys, r1, _, r1, bs, h1, ⟨rfl, rfl⟩, h4, rfl⟩
    · rintro ⟨ys, r1, zt, r2, bs, h1, ⟨rfl, rfl⟩, h4, rfl⟩
      refine ⟨ys, r1, h1, _, r', ?_, rfl, rfl⟩
      rw [hback h1]
      simp only [RandM.bind_ok, RandM.pure_ok]
      exact ⟨bs, r', h4, rfl, rfl⟩

/-- Successful stochastic construction (torch) on a grid of at least two points. -/
theorem torchConstruct_stoch_iff (env : Env ρ K) (c : Cfg d N M K) (hdet : c.deterministic = false)
    (grid : List K) (hg : torchGrid c.t1 c.t2 = .ok grid)
    (hk : 2 ≤ grid.length) (hd : 2 ≤ d) (r r' : ρ) (o : Obj d N M K) :
    torchConstruct env c r = .ok (o, r') ↔
      ∃ (ys : Traj d N K) (r1 : ρ) (bs : Traj d N K),
        chain (torchStochSlice env c) 1 grid.tail (stochInit N c.y1) r = .ok (ys, r1) ∧
        chain (torchBack env c) 1 (visits (stochInit N c.y1 :: ys) grid) (pt N c.y2) r1
          = .ok (bs, r') ∧
        o = ⟨c, grid, stochInit N c.y1 :: ys, pt N c.y1 :: (bs.reverse ++ [pt N c.y2]),
          if c.reweight && c.brownBridge then some (zerosT d N grid.length) else none⟩ := by
  unfold torchConstruct
  rw [hg, RandM.liftM_ok, pure_bind]
  obtain ⟨t0, t1, ts, rfl⟩ : ∃ t0 t1 ts, grid = t0 :: t1 :: ts := by
    match grid, hk with
    | a :: b :: l, _ => exact ⟨a, b, l, rfl⟩
  simp only [hdet, Bool.false_eq_true, if_false, bind_assoc, List.length_cons]
  rw [show ts.length + 1 + 1 = (t1 :: ts).length + 1 from rfl,
    torchForwardStoch_eq env c t0 (t1 :: ts) hd]
  simp only [bind_assoc, pure_bind, List.tail_cons]
  rw [RandM.bind_ok]
  have hback : ∀ {a : Traj d N K} {r0 r1 : ρ},
      chain (torchStochSlice env c) 1 (t1 :: ts) (stochInit N c.y1) r0 = .ok (a, r1) →
      torchBackwardSim env c (t0 :: t1 :: ts) (stochInit N c.y1 :: a)
          (zerosT d N ((t1 :: ts).length+1)) = (do
        let ys ← chain (torchBack env c) 1
          (visits (stochInit N c.y1 :: a) (t0 :: t1 :: ts)) (pt N c.y2)
        pure (pt N c.y1 :: (ys.reverse ++ [pt N c.y2]))) := by
    intro a r0 r1 h
    have hl := chain_length h
    exact torchBackwardSim_eq _ _ _ _ _ (by simp at hl ⊢; omega) (by simp [zerosT_length]) hk
  constructor
  · rintro ⟨ys, r1, h1, h2⟩
    rw [hback h1] at h2
    simp only [RandM.bind_ok, bind_assoc, pure_bind, RandM.pure_ok] at h2
    obtain ⟨bs, r2, h3, rfl, rfl⟩ := h2
    exact ⟨ys, r1, bs, h1, h3, rfl⟩
  · rintro ⟨ys, r1, bs, h1, h3, rfl⟩
    refine ⟨ys, r1, h1, ?_⟩
    rw [hback h1]
    simp only [RandM.bind_ok, bind_assoc, pure_bind, RandM.pure_ok]
    exact ⟨bs, r', h3, rfl, rfl⟩

theorem torchConstruct_grid {env : Env ρ K} {c : Cfg d N M K} {r r' : ρ} {o : Obj d N M K}
    (h : torchConstruct env c r = .ok (o, r')) : ∃ grid, torchGrid c.t1 c.t2 = .ok grid := by
  unfold torchConstruct at h
  rw [RandM.bind_ok] at h
  obtain ⟨a, r1, h1, _⟩ := h
  rw [RandM.lift_ok] at h1
  exact ⟨a, h1.1⟩

theorem torchConstruct_det_single (env : Env ρ K) (c : Cfg d N M K) (hdet : c.deterministic = true)
    (t0 : K) (hk : torchGrid c.t1 c.t2 = .ok [t0]) :
    torchConstruct env c = pure ⟨c, [t0], [if c.brownBridge then pt N c.y2 else pt N c.y1],
      [pt N c.y1], if c.reweight && c.brownBridge then some [pt N c.y1] else none⟩ := by
  unfold torchConstruct
  rw [hk, RandM.liftM_ok, pure_bind]
  simp only [if_pos hdet, torchForwardOtto_single env c t0 _ (zerosT_length ..), pure_bind,
    List.length_singleton]
  by_cases h : (c.reweight && c.brownBridge) = true
  · simp only [if_pos h, pure_bind]
    rw [torchBackwardSim_gen, torchForwardOttoTrue_eq env c t0 [] (zerosT d N 1) (zerosT_length ..),
      genBackward_single _ _ _ _ _ _ _ (zerosT_length ..)]
    rfl
  · simp only [if_neg h, pure_bind]
    rw [torchBackwardSim_gen, genBackward_single _ _ _ _ _ _ _ (zerosT_length ..)]
    rfl

theorem torchConstruct_stoch_single (env : Env ρ K) (c : Cfg d N M K)
    (hdet : c.deterministic = false) (hd : 2 ≤ d) (t0 : K) (hk : torchGrid c.t1 c.t2 = .ok [t0]) :
    torchConstruct env c = pure ⟨c, [t0], [stochInit N c.y1], [pt N c.y1],
      if c.reweight && c.brownBridge then some (zerosT d N 1) else none⟩ := by
  unfold torchConstruct
  have h1 := torchForwardStoch_eq env c t0 [] hd
  rw [hk, RandM.liftM_ok, pure_bind]
  simp only [hdet, Bool.false_eq_true, if_false, List.length_singleton, chain,
    List.length_nil, Nat.zero_add] at h1 ⊢
  rw [h1]
  simp only [pure_bind]
  rw [torchBackwardSim_gen, genBackward_single _ _ _ _ _ _ _ (zerosT_length ..)]
  rfl

theorem torchConstruct_stoch_dim1 (env : Env ρ K) (c : Cfg d N M K)
    (hdet : c.deterministic = false) (t0 : K) (ts : List K)
    (hk : torchGrid c.t1 c.t2 = .ok (t0 :: ts)) (hd : d ≤ 1) :
    torchConstruct env c = RandM.raise .indexError := by
  unfold torchConstruct
  rw [hk, RandM.liftM_ok, pure_bind]
  simp only [hdet, Bool.false_eq_true, if_false, torchForwardStoch, bind_assoc, enumLoop,
    torchStochBody_zero, stochBody_zero_dim1 env c t0 _ hd, RandM.raise_bind]

theorem torchConstruct_empty (env : Env ρ K) (c : Cfg d N M K) (hd : 0 < d)
    (hk : torchGrid c.t1 c.t2 = .ok []) : torchConstruct env c = RandM.raise .indexError := by
  have hb : ∀ Z : Traj d N K, torchBackwardSim env c [] Z [] = RandM.raise .indexError := by
    intro Z
    rw [torchBackwardSim_gen, genBackward_empty _ _ _ _ _ hd]
  unfold torchConstruct
  rw [hk, RandM.liftM_ok, pure_bind]
  simp only [torchForwardOtto, torchForwardStoch, enumLoop, pure_bind, zerosT, List.length_nil,
    List.replicate_zero, hb, torchForwardOttoTrue, RandM.raise_bind]
  by_cases hdet : c.deterministic = true
  · by_cases h : (c.reweight && c.brownBridge) = true
    · simp [hdet, h]
    · simp [hdet, h]
  · simp [hdet]

end torch
end DPFC
