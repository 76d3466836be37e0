import Verif.Lib.ShapeRec
import Verif.Lib.TorchTrue
import Verif.Spec.ArraysTorch

/-! The runs of the torch class with elementwise coefficients. -/

set_option linter.unusedSectionVars false
set_option linter.unusedSimpArgs false

namespace DPFC
open NArr Spec

section
variable {K ρ : Type} [Add K] [Sub K] [Mul K] [Div K] [Neg K] [NumOps K]
variable {N M d : Nat}

/-- An Euler-Maruyama step. -/
def noisyStepA (env : Env ρ K) (G : Mat d N K) (f : Drift d N K) (x : Mat d N K) (t : K) :
    RandM ρ (Mat d N K) := do
  let xi ← normalMat env (NumOps.sqrt dtc) d N
  pure fun i n => x i n + dtc * f.call2 x t i n + G i n * xi i n

/-- A probability-flow step. -/
def torchOttoStepA (env : Env ρ K) (M : Nat) (G : Mat d N K) (f : Drift d N K) (x : Mat d N K) (t : K) :
    RandM ρ (Mat d N K) := do
  let bnds ← (torchBox x : Except PyErr (Fin d → K × K))
  let Sxx ← torchInducing env bnds M
  let gpsi ← (torchScore (tr x) Sxx (.tensor (torchLengthScales x)) (lit 1 1000) "RBF" :
    Except PyErr (Mat N d K))
  pure fun i n => x i n + dtc * (f.call2 x t i n - lit 1 2 * sq (G i n) * tr gpsi i n)

/-- A step of the true-drift flow. -/
def torchTrueStepA (env : Env ρ K) (M : Nat) (G : Mat d N K) (f : Drift d N K) (x : Mat d N K) (t : K) :
    RandM ρ (Mat d N K) := do
  let bnds ← (torchBox x : Except PyErr (Fin d → K × K))
  let Sxx ← torchInducing env bnds M
  let gpsi ← (torchTrueScore x Sxx : Except PyErr (Mat d N K))
  pure fun i n => x i n + dtc * (f.call2 x t i n - lit 1 2 * sq (G i n) * gpsi i n)

/-- One new slice of the deterministic forward flow. -/
def torchOttoSliceA (env : Env ρ K) (G : Mat d N K) (c : Cfg d N M K) (ti : Nat) (tt : K) (x : Mat d N K) :
    RandM ρ (Mat d N K) := do
  let raw ← if ti = 1 then noisyStepA env G c.f x (tt - dtc)
    else torchOttoStepA env M G c.f x (tt - dtc)
  if c.reweight then (liftM (torchOttoRw env c.U raw tt) : RandM ρ (Mat d N K)) else pure raw

/-- One new slice of the true-drift flow. -/
def torchTrueSliceA (env : Env ρ K) (G : Mat d N K) (c : Cfg d N M K) (ti : Nat) (tt : K) (x : Mat d N K) :
    RandM ρ (Mat d N K) :=
  match c.fTrue with
  | none => RandM.raise .typeError
  | some ft => if ti = 1 then noisyStepA env G ft x (tt - dtc)
      else torchTrueStepA env M G ft x (tt - dtc)

/-- One new slice of the stochastic forward flow. -/
def torchStochSliceA (env : Env ρ K) (G : Mat d N K) (c : Cfg d N M K) (_ti : Nat) (tt : K) (x : Mat d N K) :
    RandM ρ (Mat d N K) := do
  let raw ← noisyStepA env G c.f x (tt - dtc)
  if c.reweight then (liftM (torchStochRw env c.U raw) : RandM ρ (Mat d N K)) else pure raw

theorem torchOttoBodyA_succ (env : Env ρ K) (G : Mat d N K) (v : Fin d → K) (c : Cfg d N M K) (ti : Nat) (tt : K) (Z : Traj d N K)
    (x : Mat d N K) (h1 : 1 ≤ ti) (hl : ti < Z.length) (hx : Z[ti-1]? = some x) :
    torchOttoBodyG env (elemLines G v) c ti tt Z = (do let y ← torchOttoSliceA env G c ti tt x; pure (Z.set ti y)) := by
  obtain ⟨hg, hg2⟩ := slice_access h1 hl hx
  have hs : ∀ y : Mat d N K, setSlice Z (ti : Int) y = .ok (Z.set ti y) :=
    fun y => setSlice_nat _ hl _
  have hs2 : ∀ y w : Mat d N K, setSlice (Z.set ti w) (ti : Int) y = .ok (Z.set ti y) := by
    intro y w
    rw [setSlice_nat _ (by simpa using hl), List.set_set]
  have h0 : ¬ ti = 0 := by omega
  have hp : decide (0 < ti) = true := decide_eq_true (by omega)
  unfold torchOttoBodyG torchOttoSliceA noisyStepA torchOttoStepA
  by_cases hi : ti = 1
  · simp only [if_neg h0, if_pos hi, hp, hg, hs, Bool.and_true, RandM.liftM_ok, pure_bind, bind_assoc,
      elemLines]
    congr 1; funext y
    by_cases hr : c.reweight = true
    · simp only [if_pos hr, hg2, hs2, RandM.liftM_ok, pure_bind, torchOttoRw]
      cases c.U <;> rfl
    · simp only [if_neg hr, pure_bind]
  · simp only [if_neg h0, if_neg hi, hp, hg, hs, Bool.and_true, RandM.liftM_ok, pure_bind, bind_assoc,
      elemLines]
    congr 1; funext y
    by_cases hr : c.reweight = true
    · simp only [if_pos hr, hg2, hs2, RandM.liftM_ok, pure_bind, torchOttoRw]
      cases c.U <;> rfl
    · simp only [if_neg hr, pure_bind]

theorem torchOttoBodyA_zero (env : Env ρ K) (G : Mat d N K) (v : Fin d → K) (c : Cfg d N M K) (tt : K)
    (Z : Traj d N K) (h0 : 0 < Z.length) :
    torchOttoBodyG env (elemLines G v) c 0 tt Z = pure (if c.brownBridge then
        (Z.set 0 (pt N c.y1)).set (Z.length - 1) (pt N c.y2) else Z.set 0 (pt N c.y1)) := by
  rw [torchOttoBodyG_zero, torchOttoBody_zero _ _ _ _ h0]

theorem torchForwardA_eq (env : Env ρ K) (G : Mat d N K) (v : Fin d → K) (c : Cfg d N M K) (t0 t1 : K) (ts : List K)
    (Z0 : Traj d N K) (h : Z0.length = ts.length + 2) :
    enumLoop (torchOttoBodyG env (elemLines G v) c) 0 (t0 :: t1 :: ts) Z0
      = (do let ys ← chain (torchOttoSliceA env G c) 1 (t1 :: ts) (pt N c.y1)
            pure (pt N c.y1 :: ys)) := by
  rw [enumLoop, torchOttoBodyA_zero _ _ _ _ _ _ (by omega), pure_bind,
    enumLoop_chain (torchOttoBodyG env (elemLines G v) c) (torchOttoSliceA env G c) (torchOttoBodyA_succ env G v c)
      (t1 :: ts) 1 _ (pt N c.y1)
      (by omega) (by split <;> simp <;> omega) (by
        split
        · rw [List.getElem?_set_ne (by omega)]; simp [show 0 < Z0.length by omega]
        · simp [show 0 < Z0.length by omega])]
  congr 1; funext ys
  congr 1
  obtain ⟨a, b, Z, rfl⟩ : ∃ a b Z, Z0 = a :: b :: Z := by
    match Z0, h with
    | a :: b :: Z, _ => exact ⟨a, b, Z, rfl⟩
  split <;> simp

theorem torchTrueBodyA_succ (env : Env ρ K) (G : Mat d N K) (v : Fin d → K) (c : Cfg d N M K) (ti : Nat) (tt : K) (Z : Traj d N K)
    (x : Mat d N K) (h1 : 1 ≤ ti) (hl : ti < Z.length) (hx : Z[ti-1]? = some x) :
    torchTrueBodyG env (elemLines G v) c ti tt Z = (do let y ← torchTrueSliceA env G c ti tt x; pure (Z.set ti y)) := by
  obtain ⟨hg, hg2⟩ := slice_access h1 hl hx
  have hs : ∀ y : Mat d N K, setSlice Z (ti : Int) y = .ok (Z.set ti y) :=
    fun y => setSlice_nat _ hl _
  have h0 : ¬ ti = 0 := by omega
  unfold torchTrueBodyG torchTrueSliceA noisyStepA torchTrueStepA
  simp only [if_neg h0, hg, RandM.liftM_ok, pure_bind]
  cases c.fTrue with
  | none => rfl
  | some ft =>
    by_cases hi : ti = 1
    · simp only [hs, if_pos hi, RandM.liftM_ok, elemLines, bind_assoc, pure_bind]
    · simp only [hs, if_neg hi, RandM.liftM_ok, elemLines, bind_assoc, pure_bind]

theorem torchTrueA_eq (env : Env ρ K) (G : Mat d N K) (v : Fin d → K) (c : Cfg d N M K) (t0 : K) (ts : List K)
    (Z0 : Traj d N K) (h : Z0.length = ts.length + 1) :
    enumLoop (torchTrueBodyG env (elemLines G v) c) 0 (t0 :: ts) Z0
      = (do let ys ← chain (torchTrueSliceA env G c) 1 ts (pt N c.y1); pure (pt N c.y1 :: ys)) := by
  have hz : torchTrueBodyG env (elemLines G v) c 0 t0 Z0 = pure (Z0.set 0 (pt N c.y1)) := by
    unfold torchTrueBodyG
    rw [if_pos rfl, pinRows_ok _ _ 0 (pyIdx_zero (by omega)), RandM.liftM_ok]
  rw [enumLoop, hz, pure_bind,
    enumLoop_chain (torchTrueBodyG env (elemLines G v) c) (torchTrueSliceA env G c) (torchTrueBodyA_succ env G v c) ts 1 _
      (pt N c.y1) (by omega) (by simp; omega) (by simp [show 0 < Z0.length by omega])]
  congr 1; funext ys
  congr 1
  obtain ⟨a, Z, rfl⟩ : ∃ a Z, Z0 = a :: Z := by
    match Z0, h with
    | a :: Z, _ => exact ⟨a, Z, rfl⟩
  simp

theorem torchStochBodyA_succ (env : Env ρ K) (G : Mat d N K) (v : Fin d → K) (c : Cfg d N M K) (ti : Nat) (tt : K) (Z : Traj d N K)
    (x : Mat d N K) (h1 : 1 ≤ ti) (hl : ti < Z.length) (hx : Z[ti-1]? = some x) :
    torchStochBodyG env (elemLines G v) c ti tt Z = (do let y ← torchStochSliceA env G c ti tt x; pure (Z.set ti y)) := by
  obtain ⟨hg, hg2⟩ := slice_access h1 hl hx
  have hs : ∀ y : Mat d N K, setSlice Z (ti : Int) y = .ok (Z.set ti y) :=
    fun y => setSlice_nat _ hl _
  have hs2 : ∀ y w : Mat d N K, setSlice (Z.set ti w) (ti : Int) y = .ok (Z.set ti y) := by
    intro y w
    rw [setSlice_nat _ (by simpa using hl), List.set_set]
  have h0 : ¬ ti = 0 := by omega
  unfold torchStochBodyG torchStochSliceA noisyStepA
  simp only [if_neg h0, hg, hs, RandM.liftM_ok, pure_bind, bind_assoc, elemLines]
  congr 1; funext y
  by_cases hr : c.reweight = true
  · simp only [if_pos hr, hg2, hs2, RandM.liftM_ok, pure_bind, torchStochRw]
    cases c.U with
    | none => rfl
    | some U => rcases U with ⟨u2, _ | u1⟩ <;> rfl
  · simp only [if_neg hr, pure_bind]

theorem torchStochBodyA_zero (env : Env ρ K) (G : Mat d N K) (v : Fin d → K) (c : Cfg d N M K) (tt : K) (Z : Traj d N K) :
    torchStochBodyG env (elemLines G v) c 0 tt Z = stochBody env c 0 tt Z := rfl

theorem torchStochA_eq (env : Env ρ K) (G : Mat d N K) (v : Fin d → K) (c : Cfg d N M K) (t0 : K) (ts : List K) (hd : 2 ≤ d) :
    enumLoop (torchStochBodyG env (elemLines G v) c) 0 (t0 :: ts) (zerosT d N (ts.length+1))
      = (do let ys ← chain (torchStochSliceA env G c) 1 ts (stochInit N c.y1)
            pure (stochInit N c.y1 :: ys)) := by
  have hl : (zerosT d N (ts.length+1) : Traj d N K).length = ts.length + 1 := by simp [zerosT]
  rw [enumLoop, torchStochBodyA_zero, stochBody_zero _ _ _ _ hd, pure_bind,
    enumLoop_chain (torchStochBodyG env (elemLines G v) c) (torchStochSliceA env G c) (torchStochBodyA_succ env G v c) ts 1 _
      (stochInit N c.y1) (by omega) (by simp [hl]; omega) (by simp [hl])]
  rfl

/-- One backward step of the torch class. -/
abbrev torchBackA (env : Env ρ K) (G : Mat d N K) (c : Cfg d N M K) :
    Nat → Mat d N K × K → Mat d N K → RandM ρ (Mat d N K) :=
  backStepA env (torchDensityAt env M (effKern c.kern)) (torchBwDensityAt env M (effKern c.kern)) c.f G
    c.deterministic

theorem torchBackwardSimA_eq (env : Env ρ K) (G : Mat d N K) (v : Fin d → K) (c : Cfg d N M K)
    (grid : List K) (Z B : Traj d N K)
    (hZ : Z.length = grid.length) (hB : B.length = grid.length) (h2 : 2 ≤ grid.length) :
    torchBackwardSimG env (elemLines G v) c grid Z B = (do
        let ys ← chain (torchBackA env G c) 1 (visits Z grid) (pt N c.y2)
        pure (pt N c.y1 :: (ys.reverse ++ [pt N c.y2]))) := by
  rw [← backA_eq env _ _ G v c grid Z B hZ hB h2]
  unfold torchBackwardSimG
  have e1 : (fun i B => torchDensityEst env M (effKern c.kern) Z B i)
      = liftEst (torchDensityAt env M (effKern c.kern)) Z := by
    funext i B
    simp only [torchDensityEst, torchDensityAt, liftEst, bind_assoc]
  have e2 : (fun i B => torchBwDensityEst env M (effKern c.kern) Z B i)
      = liftEst (torchBwDensityAt env M (effKern c.kern)) Z := by
    funext i B
    simp only [torchBwDensityEst, torchBwDensityAt, liftEst, bind_assoc]
  rw [e1, e2]

/-- The optional true-drift flow. -/
def torchTrueFlowA (env : Env ρ K) (G : Mat d N K) (c : Cfg d N M K) (grid : List K) :
    RandM ρ (Option (Traj d N K)) :=
  if c.reweight && c.brownBridge then do
    let ys ← chain (torchTrueSliceA env G c) 1 grid.tail (pt N c.y1)
    pure (some (pt N c.y1 :: ys))
  else pure none

/-- Successful deterministic construction (torch) on a grid of at least two points. -/
theorem torchConstructA_det (env : Env ρ K) (G : Mat d N K) (v : Fin d → K) (c : Cfg d N M K) (hdet : c.deterministic = true)
    (grid : List K) (hg : torchGrid c.t1 c.t2 = .ok grid)
    (hk : 2 ≤ grid.length) (r r' : ρ) (o : Obj d N M K) :
    torchConstructL env (elemLines G v) c r = .ok (o, r') ↔
      ∃ (ys : Traj d N K) (r1 : ρ) (zt : Option (Traj d N K)) (r2 : ρ) (bs : Traj d N K),
        chain (torchOttoSliceA env G c) 1 grid.tail (pt N c.y1) r = .ok (ys, r1) ∧
        torchTrueFlowA env G c grid r1 = .ok (zt, r2) ∧
        chain (torchBackA env G c) 1 (visits (pt N c.y1 :: ys) grid) (pt N c.y2) r2
          = .ok (bs, r') ∧
        o = ⟨c, grid, pt N c.y1 :: ys, pt N c.y1 :: (bs.reverse ++ [pt N c.y2]), zt⟩ := by
  unfold torchConstructL
  rw [hg, RandM.liftM_ok, pure_bind]
  obtain ⟨t0, t1, ts, rfl⟩ : ∃ t0 t1 ts, grid = t0 :: t1 :: ts := by
    match grid, hk with
    | a :: b :: l, _ => exact ⟨a, b, l, rfl⟩
  simp only [if_pos hdet]
  rw [torchForwardA_eq env G v c t0 t1 ts _ (by simp [zerosT_length])]
  simp only [bind_assoc, pure_bind]
  have hback : ∀ {a : Traj d N K} {r0 r1 : ρ},
      chain (torchOttoSliceA env G c) 1 (t1 :: ts) (pt N c.y1) r0 = .ok (a, r1) →
      torchBackwardSimG env (elemLines G v) c (t0 :: t1 :: ts) (pt N c.y1 :: a) (zerosT d N (t0 :: t1 :: ts).length)
        = (do
        let ys ← chain (torchBackA env G c) 1 (visits (pt N c.y1 :: a) (t0 :: t1 :: ts)) (pt N c.y2)
        pure (pt N c.y1 :: (ys.reverse ++ [pt N c.y2]))) := by
    intro a r0 r1 h
    exact torchBackwardSimA_eq _ _ _ _ _ _ _ (by simp [chain_length h]) (by simp [zerosT_length]) hk
  by_cases h : (c.reweight && c.brownBridge) = true
  · simp only [if_pos h, torchTrueFlowA, List.tail_cons]
    rw [torchTrueA_eq env G v c t0 (t1 :: ts) _ (by simp [zerosT_length])]
    simp only [RandM.bind_ok, bind_assoc, pure_bind, RandM.pure_ok]
    constructor
    · rintro ⟨ys, r1, h1, zs, r2, h2, B, r3, h3, rfl, rfl⟩
      rw [hback h1] at h3
      simp only [RandM.bind_ok, RandM.pure_ok] at h3
      obtain ⟨bs, r4, h4, rfl, rfl⟩ := h3
      exact ⟨ys, r1, _, r2, bs, h1, ⟨zs, r2, h2, rfl, rfl⟩, h4, rfl⟩
    · rintro ⟨ys, r1, zt, r2, bs, h1, ⟨zs, r3, h2, rfl, rfl⟩, h4, rfl⟩
      refine ⟨ys, r1, h1, zs, r3, h2, _, r', ?_, rfl, rfl⟩
      rw [hback h1]
      simp only [RandM.bind_ok, RandM.pure_ok]
      exact ⟨bs, r', h4, rfl, rfl⟩
  · simp only [if_neg h, torchTrueFlowA, List.tail_cons]
    simp only [RandM.bind_ok, bind_assoc, pure_bind, RandM.pure_ok]
    constructor
    · rintro ⟨ys, r1, h1, B, r3, h3, rfl, rfl⟩
      rw [hback h1] at h3
      simp only [RandM.bind_ok, RandM.pure_ok] at h3
      obtain ⟨bs, r4, h4, rfl, rfl⟩ := h3
      exact ⟨ys, r1, _, r1, bs, h1, ⟨rfl, rfl⟩, h4, rfl⟩
    · rintro ⟨ys, r1, zt, r2, bs, h1, ⟨rfl, rfl⟩, h4, rfl⟩
      refine ⟨ys, r1, h1, _, r', ?_, rfl, rfl⟩
      rw [hback h1]
      simp only [RandM.bind_ok, RandM.pure_ok]
      exact ⟨bs, r', h4, rfl, rfl⟩

/-- Successful stochastic construction (torch) on a grid of at least two points. -/
theorem torchConstructA_stoch (env : Env ρ K) (G : Mat d N K) (v : Fin d → K) (c : Cfg d N M K) (hdet : c.deterministic = false)
    (grid : List K) (hg : torchGrid c.t1 c.t2 = .ok grid)
    (hk : 2 ≤ grid.length) (hd : 2 ≤ d) (r r' : ρ) (o : Obj d N M K) :
    torchConstructL env (elemLines G v) c r = .ok (o, r') ↔
      ∃ (ys : Traj d N K) (r1 : ρ) (bs : Traj d N K),
        chain (torchStochSliceA env G c) 1 grid.tail (stochInit N c.y1) r = .ok (ys, r1) ∧
        chain (torchBackA env G c) 1 (visits (stochInit N c.y1 :: ys) grid) (pt N c.y2) r1
          = .ok (bs, r') ∧
        o = ⟨c, grid, stochInit N c.y1 :: ys, pt N c.y1 :: (bs.reverse ++ [pt N c.y2]),
          if c.reweight && c.brownBridge then some (zerosT d N grid.length) else none⟩ := by
  unfold torchConstructL
  rw [hg, RandM.liftM_ok, pure_bind]
  obtain ⟨t0, t1, ts, rfl⟩ : ∃ t0 t1 ts, grid = t0 :: t1 :: ts := by
    match grid, hk with
    | a :: b :: l, _ => exact ⟨a, b, l, rfl⟩
  simp only [hdet, Bool.false_eq_true, if_false, bind_assoc, List.length_cons]
  rw [show ts.length + 1 + 1 = (t1 :: ts).length + 1 from rfl,
    torchStochA_eq env G v c t0 (t1 :: ts) hd]
  simp only [bind_assoc, pure_bind, List.tail_cons]
  rw [RandM.bind_ok]
  have hback : ∀ {a : Traj d N K} {r0 r1 : ρ},
      chain (torchStochSliceA env G c) 1 (t1 :: ts) (stochInit N c.y1) r0 = .ok (a, r1) →
      torchBackwardSimG env (elemLines G v) c (t0 :: t1 :: ts) (stochInit N c.y1 :: a)
          (zerosT d N ((t1 :: ts).length+1)) = (do
        let ys ← chain (torchBackA env G c) 1
          (visits (stochInit N c.y1 :: a) (t0 :: t1 :: ts)) (pt N c.y2)
        pure (pt N c.y1 :: (ys.reverse ++ [pt N c.y2]))) := by
    intro a r0 r1 h
    have hl := chain_length h
    exact torchBackwardSimA_eq _ _ _ _ _ _ _ (by simp at hl ⊢; omega) (by simp [zerosT_length]) hk
  constructor
  · rintro ⟨ys, r1, h1, h2⟩
    rw [hback h1] at h2
    simp only [RandM.bind_ok, bind_assoc, pure_bind, RandM.pure_ok] at h2
    obtain ⟨bs, r2, h3, rfl, rfl⟩ := h2
    exact ⟨ys, r1, bs, h1, h3, rfl⟩
  · rintro ⟨ys, r1, bs, h1, h3, rfl⟩
    refine ⟨ys, r1, h1, ?_⟩
    rw [hback h1]
    simp only [RandM.bind_ok, bind_assoc, pure_bind, RandM.pure_ok]
    exact ⟨bs, r', h3, rfl, rfl⟩

end

section
variable {ρ : Type} {N M d : ℕ}

theorem noisyStepA_real (env : Env ρ ℝ) (G : Mat d N ℝ) (f : Drift d N ℝ) (x : Mat d N ℝ) (t : ℝ) (r : ρ) :
    noisyStepA env G f x t r = .ok (noisyA f G x t (normals env d N r), normalsNext env d N r) := by
  unfold noisyStepA
  rw [RandM.bind_app, normalMat_real]
  simp only [RandM.pure_app, dtc_real, real_sqrt]
  rfl

theorem torchOttoStepA_ok (env : Env ρ ℝ) (hN : 0 < N) (hd : 2 ≤ d) (G : Mat d N ℝ) (f : Drift d N ℝ)
    (x y : Mat d N ℝ) (t : ℝ) (r r' : ρ) (h : torchOttoStepA env M G f x t r = .ok (y, r')) :
    (∀ a, lo (x a) < hi (x a)) ∧ r' = tunifsNext env d M r ∧
    y = fun a n => x a n + 1/1000 * (f.call2 x t a n - (G a n)^2/2 * tcloudScore x
      (tinducing (fun a => lo (x a)) (fun a => hi (x a)) (tunifs env d M r)) x a n) := by
  unfold torchOttoStepA at h
  rw [torchBox_real hN, RandM.liftM_ok, pure_bind] at h
  obtain ⟨S, r1, hS, h⟩ := RandM.bind_ok.1 h
  obtain ⟨hlt, hS, hr⟩ := torchInducing_lt hS
  rw [torchScore_real _ _ _ _ (classify_tensor hd _), RandM.liftM_ok, pure_bind] at h
  obtain ⟨h1, h2⟩ := RandM.pure_ok.1 h
  refine ⟨hlt, by rw [← h2, hr], ?_⟩
  rw [← h1, hS]
  funext a n
  simp only [dtc_real, real_lit_half, real_sq, tcloudScore, cloudScoreL, torchLengthScales_real, LS.at]
  have : (1/2 * (G a n)^2 : ℝ) = (G a n)^2/2 := by ring
  rw [this]
  rfl

theorem torchTrueStepA_ok (env : Env ρ ℝ) (hN : 0 < N) (hd : 2 ≤ d) (G : Mat d N ℝ) (f : Drift d N ℝ)
    (x y : Mat d N ℝ) (t : ℝ) (r r' : ρ) (h : torchTrueStepA env M G f x t r = .ok (y, r')) :
    (∀ a, lo (x a) < hi (x a)) ∧ r' = tunifsNext env d M r ∧
    ∀ a n, ∃ w, SwappedScore x (tinducing (fun a => lo (x a)) (fun a => hi (x a)) (tunifs env d M r)) a n w ∧
      y a n = x a n + 1/1000 * (f.call2 x t a n - (G a n)^2/2 * w) := by
  unfold torchTrueStepA at h
  rw [torchBox_real hN, RandM.liftM_ok, pure_bind] at h
  obtain ⟨S, r1, hS, hv⟩ := RandM.bind_ok.1 h
  obtain ⟨hlt, hS, hr⟩ := torchInducing_lt hS
  obtain ⟨gp, r2, hg, hv⟩ := RandM.bind_ok.1 hv
  obtain ⟨hg, hr2⟩ := RandM.lift_ok.1 hg
  obtain ⟨h1, h2⟩ := RandM.pure_ok.1 hv
  refine ⟨hlt, by rw [← h2, ← hr2, hr], fun a n => ⟨gp a n, ?_, ?_⟩⟩
  · have := torchTrueScore_ok hd hg a n
    rw [hS] at this
    exact this
  · rw [← h1]
    simp only [dtc_real, real_lit_half, real_sq]
    ring

theorem torchOttoSliceA_bind {K : Type} [Add K] [Sub K] [Mul K] [Div K] [Neg K] [NumOps K]
    (env : Env ρ K) (G : Mat d N K) (c : Cfg d N M K) (i : Nat) (t : K) (x : Mat d N K) :
    torchOttoSliceA env G c i t x = ((if i = 1 then noisyStepA env G c.f x (t - dtc)
      else torchOttoStepA env M G c.f x (t - dtc)) >>= fun raw =>
        if c.reweight then (liftM (torchOttoRw env c.U raw t) : RandM ρ (Mat d N K)) else pure raw) := by
  unfold torchOttoSliceA
  by_cases h : i = 1
  · simp only [if_pos h]
  · simp only [if_neg h]

theorem torchOttoChainA_prefix (env : Env ρ ℝ) (G : Mat d N ℝ) (c : Cfg d N M ℝ) (hN : 0 < N)
    (ts : List ℝ) (hd : 2 ≤ ts.length → 2 ≤ d) (hp : ts <+: (mkGrid c.t1 c.t2).tail) (ys : Traj d N ℝ) (r r' : ρ)
    (h : chain (torchOttoSliceA env G c) 1 ts (pt N c.y1) r = .ok (ys, r')) :
    ∃ rs : ℕ → ρ, rs 0 = r ∧ rs ts.length = r' ∧
      TorchForwardRecA env c G (fun i => (pt N c.y1 :: ys)[i]?) (fun i => (mkGrid c.t1 c.t2)[i]?) rs := by
  obtain ⟨hl, rs, h0, h1, hs⟩ := chain_ok_iff.1 h
  have hpl := hp.length_le
  rw [List.length_tail] at hpl
  refine ⟨rs, h0, h1, ?_⟩
  intro i x y ti hx hy ht
  have hit : i < ts.length := by
    have := (List.getElem?_eq_some_iff.1 hy).1
    rw [List.length_cons] at this; omega
  have hi : i + 1 < (mkGrid c.t1 c.t2).length := by omega
  obtain ⟨tt, htt⟩ := grid_get hi
  have htt' : ts[i]? = some tt := by
    rw [List.getElem?_eq_getElem hit, ← List.prefix_iff_getElem?.1 hp i hit, List.getElem?_tail]
    exact htt
  have hst := hs i tt x y htt' hx hy
  have hti : tt - dtc = ti := by rw [grid_time ht htt, dtc_real]; ring
  rw [torchOttoSliceA_bind, hti] at hst
  obtain ⟨raw, rm, hraw, hrw⟩ := RandM.bind_ok.1 hst
  have hrm : rm = rs (i+1) := by
    split at hrw
    · exact ((RandM.lift_ok).1 hrw).2
    · exact ((RandM.pure_ok).1 hrw).2
  refine ⟨raw, ⟨fun hi0 => ?_, fun hi0 => ?_⟩, ?_, ?_⟩
  · subst hi0
    rw [if_pos rfl, noisyStepA_real] at hraw
    injection hraw with hraw
    injection hraw with h1 h2
    exact ⟨h1.symm, by rw [← hrm, ← h2]⟩
  · rw [if_neg (by omega)] at hraw
    obtain ⟨hlt, hr, hvv⟩ := torchOttoStepA_ok env hN (hd (by omega)) G c.f x raw ti _ _ hraw
    exact ⟨hlt, by rw [← hrm, hr], hvv⟩
  · intro hf
    rw [hf] at hrw
    exact ((RandM.pure_ok).1 hrw).1.symm
  · intro hf
    rw [hf, if_pos rfl] at hrw
    have := ((RandM.lift_ok).1 hrw).1
    rw [grid_time ht htt] at this
    cases hU : c.U with
    | none => rw [hU] at this; cases this
    | some U =>
      rw [hU] at this
      simp only [torchOttoRw, dtc_real] at this
      exact ⟨U, rfl, torchReweight_ok env hN _ raw y this⟩

theorem torchStochChainA_spec (env : Env ρ ℝ) (G : Mat d N ℝ) (c : Cfg d N M ℝ) (hN : 0 < N)
    (ys : Traj d N ℝ) (r r' : ρ) (h2 : 2 ≤ (mkGrid c.t1 c.t2).length)
    (h : chain (torchStochSliceA env G c) 1 (mkGrid c.t1 c.t2).tail (stochInit N c.y1) r = .ok (ys, r')) :
    ∃ rs : ℕ → ρ, rs 0 = r ∧ rs ((mkGrid c.t1 c.t2).length - 1) = r' ∧
      TorchStochRecA env c G (fun i => (stochInit N c.y1 :: ys)[i]?) (fun i => (mkGrid c.t1 c.t2)[i]?) rs := by
  obtain ⟨hl, rs, h0, h1, hs⟩ := chain_ok_iff.1 h
  rw [List.length_tail] at h1 hl
  refine ⟨rs, h0, h1, ?_⟩
  intro i x y ti hx hy ht
  have hi : i + 1 < (mkGrid c.t1 c.t2).length := by
    have := (List.getElem?_eq_some_iff.1 hy).1
    rw [List.length_cons] at this; omega
  obtain ⟨tt, htt⟩ := grid_get hi
  have htt' : (mkGrid c.t1 c.t2).tail[i]? = some tt := by
    rw [List.getElem?_tail]; exact htt
  have hst := hs i tt x y htt' hx hy
  have hti : tt - dtc = ti := by rw [grid_time ht htt, dtc_real]; ring
  unfold torchStochSliceA at hst
  rw [hti, RandM.bind_app, noisyStepA_real] at hst
  simp only at hst
  have hrm : rs (i+1) = normalsNext env d N (rs i) := by
    split at hst
    · exact ((RandM.lift_ok).1 hst).2.symm
    · exact ((RandM.pure_ok).1 hst).2.symm
  refine ⟨_, rfl, hrm, ?_, ?_⟩
  · intro hf
    rw [hf] at hst
    exact ((RandM.pure_ok).1 hst).1.symm
  · intro hf
    rw [hf, if_pos rfl] at hst
    have := ((RandM.lift_ok).1 hst).1
    cases hU : c.U with
    | none => rw [hU] at this; cases this
    | some U =>
      cases hv : U.call1 with
      | none => rw [hU] at this; simp only [torchStochRw, hv] at this; cases this
      | some v =>
        rw [hU] at this
        simp only [torchStochRw, hv] at this
        exact ⟨U, v, rfl, hv, torchReweight_ok env hN _ _ y this⟩

theorem torchBackChainA_spec (env : Env ρ ℝ) (G : Mat d N ℝ) (c : Cfg d N M ℝ) (hN : 0 < N)
    (hk : effKern c.kern = "RBF")
    (Z bs : Traj d N ℝ) (grid : List ℝ) (hd : 3 ≤ grid.length → 2 ≤ d) (r r' : ρ) (h2 : 2 ≤ grid.length)
    (hZ : Z.length = grid.length)
    (h : chain (torchBackA env G c) 1 (visits Z grid) (pt N c.y2) r = .ok (bs, r')) :
    ∃ rs : ℕ → ρ, rs (grid.length - 2) = r ∧ rs 0 = r' ∧
      TorchBackwardRecA env c G grid.length (fun i => Z[i]?)
        (fun i => (pt N c.y1 :: (bs.reverse ++ [pt N c.y2]))[i]?) (fun i => grid[i]?) rs := by
  obtain ⟨hl, rs, h0, h1, hs⟩ := chain_ok_iff.1 h
  rw [visits_length hZ] at h1 hl
  refine ⟨fun j => rs (grid.length - 2 - j), by simp [h0], by simpa using h1, ?_⟩
  intro j z b y tj hj1 hj2 hz hb hy ht
  simp only at hz hb hy ht
  have key : ∀ i, i ≤ bs.length → (pt N c.y1 :: (bs.reverse ++ [pt N c.y2]))[i+1]?
      = (pt N c.y2 :: bs)[bs.length - i]? := by
    intro i hi
    rw [List.getElem?_cons_succ]
    by_cases he : i = bs.length
    · subst he
      rw [List.getElem?_append_right (by simp)]
      simp
    · rw [List.getElem?_append_left (by simp; omega), List.getElem?_reverse (by omega)]
      obtain ⟨m, hm⟩ : ∃ m, bs.length - i = m + 1 := ⟨bs.length - i - 1, by omega⟩
      rw [hm, List.getElem?_cons_succ]
      congr 1; omega
  have hs' : (grid.length - 2 - j) + 2 < grid.length := by omega
  have hzt := visits_get hZ (s := grid.length - 2 - j) (z := z) (t := tj) hs'
    (by rw [show grid.length - 1 - (grid.length - 2 - j) = j + 1 by omega]; exact hz)
    (by rw [show grid.length - 1 - (grid.length - 2 - j) = j + 1 by omega]; exact ht)
  have hb' : (pt N c.y2 :: bs)[grid.length - 2 - j]? = some b := by
    have := key j (by omega)
    rw [hb, hl] at this
    rw [← this]
  have hy' : (pt N c.y2 :: bs)[grid.length - 2 - j + 1]? = some y := by
    obtain ⟨i, rfl⟩ : ∃ i, j = i + 1 := ⟨j - 1, by omega⟩
    have := key i (by omega)
    rw [hy, hl] at this
    rw [← show grid.length - 2 - i = grid.length - 2 - (i+1) + 1 by omega, ← this]
  have hst := hs _ _ b y hzt hb' hy'
  have hnext : grid.length - 2 - (j - 1) = grid.length - 2 - j + 1 := by omega
  simp only [hnext]
  simp only [torchBackA, backStepA, hk] at hst
  obtain ⟨gro, r1, hgro, hst⟩ := RandM.bind_ok.1 hst
  obtain ⟨rfl, rfl⟩ := torchDensityAt_ok env hN (hd (by omega)) z b gro _ _ hgro
  have hiff : ((1 + (grid.length - 2 - j) = 1 ∧ c.deterministic = true) ∨ c.deterministic = false)
      ↔ (j + 2 = grid.length ∨ c.deterministic = false) := by
    cases c.deterministic
    · simp
    · simp; omega
  refine ⟨fun hc => ?_, fun hc => ?_⟩
  · rw [if_pos (hiff.2 hc), RandM.bind_app, normalMat_real] at hst
    simp only [RandM.pure_app, dtc_real, real_sq, real_sqrt] at hst
    injection hst with hst
    injection hst with hst1 hst2
    exact ⟨fun _ => hst1.symm, hst2.symm⟩
  · rw [if_neg (fun h => hc (hiff.1 h))] at hst
    obtain ⟨grb, r2, hgrb, hst⟩ := RandM.bind_ok.1 hst
    obtain ⟨rfl, rfl⟩ := torchBwDensityAt_ok env hN (hd (by omega)) _ z b grb _ _ hgrb
    simp only [RandM.pure_app, dtc_real, real_sq, real_lit_half] at hst
    injection hst with hst
    injection hst with hst1 hst2
    refine ⟨fun _ _ => ?_, hst2.symm⟩
    rw [← hst1]
    funext a n
    ring

theorem torchTrueChainA_prefix (env : Env ρ ℝ) (G : Mat d N ℝ) (c : Cfg d N M ℝ) (hN : 0 < N) {ft : Drift d N ℝ}
    (hf : c.fTrue = some ft)
    (ts : List ℝ) (hd : 2 ≤ ts.length → 2 ≤ d) (hp : ts <+: (mkGrid c.t1 c.t2).tail) (ys : Traj d N ℝ) (r r' : ρ)
    (h : chain (torchTrueSliceA env G c) 1 ts (pt N c.y1) r = .ok (ys, r')) :
    ∃ rs : ℕ → ρ, rs 0 = r ∧ rs ts.length = r' ∧
      TorchTrueRecA env c G (fun i => (pt N c.y1 :: ys)[i]?) (fun i => (mkGrid c.t1 c.t2)[i]?) rs := by
  obtain ⟨hl, rs, h0, h1, hs⟩ := chain_ok_iff.1 h
  have hpl := hp.length_le
  rw [List.length_tail] at hpl
  refine ⟨rs, h0, h1, ft, hf, ?_⟩
  intro i x y ti hx hy ht
  have hit : i < ts.length := by
    have := (List.getElem?_eq_some_iff.1 hy).1
    rw [List.length_cons] at this; omega
  have hi : i + 1 < (mkGrid c.t1 c.t2).length := by omega
  obtain ⟨tt, htt⟩ := grid_get hi
  have htt' : ts[i]? = some tt := by
    rw [List.getElem?_eq_getElem hit, ← List.prefix_iff_getElem?.1 hp i hit, List.getElem?_tail]
    exact htt
  have hst := hs i tt x y htt' hx hy
  have hti : tt - dtc = ti := by rw [grid_time ht htt, dtc_real]; ring
  unfold torchTrueSliceA at hst
  rw [hf, hti] at hst
  refine ⟨fun hi0 => ?_, fun hi0 => ?_⟩
  · subst hi0
    simp only [Nat.add_zero, if_true, noisyStepA_real] at hst
    injection hst with hst
    injection hst with h1 h2
    exact ⟨h1.symm, h2.symm⟩
  · simp only [if_neg (show ¬ 1 + i = 1 by omega)] at hst
    exact torchTrueStepA_ok env hN (hd (by omega)) G ft x y ti _ _ hst

end
end DPFC
