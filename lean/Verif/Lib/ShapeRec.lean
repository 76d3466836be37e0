import Verif.Lib.ShapeFlow
import Verif.Spec.Arrays

/-! The deterministic numpy run with elementwise coefficients. -/

namespace DPFC
open NArr Spec

set_option linter.unusedSectionVars false

section
variable {K ρ : Type} [Add K] [Sub K] [Mul K] [Div K] [Neg K] [NumOps K]
variable {N M d : Nat}

/-- A step before reweighting. -/
def rawA (pl : Bool) (env : Env ρ K) (M : Nat) (kern : String) (G : Mat d N K) (f : Drift d N K) (ti : Nat)
    (x : Mat d N K) (t : K) : RandM ρ (Mat d N K) :=
  if ti = 1 then do
    let xi ← normalMat env (NumOps.sqrt dtc) d N
    pure fun i n => x i n + dtc * f.call2 x t i n + G i n * xi i n
  else do
    let gpsi ← scoreAtParticles pl env M kern x
    pure fun i n => x i n + dtc * (f.call2 x t i n - lit 1 2 * sq (G i n) * gpsi i n)

/-- One new slice of the deterministic forward flow. -/
def ottoSliceA (env : Env ρ K) (G : Mat d N K) (c : Cfg d N M K) (ti : Nat) (tt : K) (x : Mat d N K) :
    RandM ρ (Mat d N K) := do
  let raw ← rawA true env M (effKern c.kern) G c.f ti x (tt - dtc)
  if c.reweight then (liftM (ottoReweight env c.U raw tt) : RandM ρ (Mat d N K)) else pure raw

/-- One new slice of the true-drift flow. -/
def trueSliceA (env : Env ρ K) (G : Mat d N K) (c : Cfg d N M K) (ti : Nat) (tt : K) (x : Mat d N K) :
    RandM ρ (Mat d N K) :=
  match c.fTrue with
  | none => RandM.raise .typeError
  | some ft => rawA false env M (effKern c.kern) G ft ti x (tt - dtc)

theorem ottoBodyA_succ (env : Env ρ K) (G : Mat d N K) (v : Fin d → K) (c : Cfg d N M K) (ti : Nat)
    (tt : K) (Z : Traj d N K)
    (x : Mat d N K) (h1 : 1 ≤ ti) (hl : ti < Z.length) (hx : Z[ti-1]? = some x) :
    ottoBodyG env (elemLines G v) c ti tt Z
      = (do let y ← ottoSliceA env G c ti tt x; pure (Z.set ti y)) := by
  obtain ⟨hg, hg2⟩ := slice_access h1 hl hx
  have hs : ∀ y : Mat d N K, setSlice Z (ti : Int) y = .ok (Z.set ti y) :=
    fun y => setSlice_nat _ hl _
  have hs2 : ∀ y w : Mat d N K, setSlice (Z.set ti w) (ti : Int) y = .ok (Z.set ti y) := by
    intro y w
    rw [setSlice_nat _ (by simpa using hl), List.set_set]
  have h0 : ¬ ti = 0 := by omega
  have hp : decide (0 < ti) = true := decide_eq_true (by omega)
  unfold ottoBodyG ottoSliceA rawA
  by_cases hi : ti = 1
  · simp only [if_neg h0, if_pos hi, hp, hg, hs, Bool.and_true, RandM.liftM_ok, pure_bind, bind_assoc,
      elemLines]
    congr 1; funext y
    by_cases hr : c.reweight = true
    · simp only [if_pos hr, hg2, hs2, RandM.liftM_ok, pure_bind]
    · simp only [if_neg hr, pure_bind]
  · simp only [if_neg h0, if_neg hi, hp, hg, hs, Bool.and_true, RandM.liftM_ok, pure_bind, bind_assoc,
      elemLines]
    congr 1; funext y
    by_cases hr : c.reweight = true
    · simp only [if_pos hr, hg2, hs2, RandM.liftM_ok, pure_bind]
    · simp only [if_neg hr, pure_bind]

theorem forwardA_eq (env : Env ρ K) (G : Mat d N K) (v : Fin d → K) (c : Cfg d N M K) (t0 t1 : K)
    (ts : List K) (Z0 : Traj d N K) (h : Z0.length = ts.length + 2) :
    enumLoop (ottoBodyG env (elemLines G v) c) 0 (t0 :: t1 :: ts) Z0
      = (do let ys ← chain (ottoSliceA env G c) 1 (t1 :: ts) (pt N c.y1); pure (pt N c.y1 :: ys)) := by
  rw [enumLoop, ottoBodyG_zero, ottoBody_zero _ _ _ _ (by omega), pure_bind,
    enumLoop_chain (ottoBodyG env (elemLines G v) c) (ottoSliceA env G c) (ottoBodyA_succ env G v c)
      (t1 :: ts) 1 _ (pt N c.y1)
      (by omega) (by split <;> simp <;> omega) (by
        split
        · rw [List.getElem?_set_ne (by omega)]; simp [show 0 < Z0.length by omega]
        · simp [show 0 < Z0.length by omega])]
  congr 1; funext ys
  congr 1
  obtain ⟨a, b, Z, rfl⟩ : ∃ a b Z, Z0 = a :: b :: Z := by
    match Z0, h with
    | a :: b :: Z, _ => exact ⟨a, b, Z, rfl⟩
  split <;> simp

theorem trueBodyA_succ (env : Env ρ K) (G : Mat d N K) (v : Fin d → K) (c : Cfg d N M K) (ti : Nat)
    (tt : K) (Z : Traj d N K)
    (x : Mat d N K) (h1 : 1 ≤ ti) (hl : ti < Z.length) (hx : Z[ti-1]? = some x) :
    ottoTrueBodyG env (elemLines G v) c ti tt Z
      = (do let y ← trueSliceA env G c ti tt x; pure (Z.set ti y)) := by
  obtain ⟨hg, hg2⟩ := slice_access h1 hl hx
  have hs : ∀ y : Mat d N K, setSlice Z (ti : Int) y = .ok (Z.set ti y) :=
    fun y => setSlice_nat _ hl _
  have h0 : ¬ ti = 0 := by omega
  unfold ottoTrueBodyG trueSliceA
  simp only [if_neg h0, hg, RandM.liftM_ok, pure_bind]
  cases c.fTrue with
  | none => rfl
  | some ft =>
    unfold rawA
    by_cases hi : ti = 1
    · simp only [hs, if_pos hi, RandM.liftM_ok, elemLines, bind_assoc, pure_bind]
    · simp only [hs, if_neg hi, RandM.liftM_ok, elemLines, bind_assoc, pure_bind]

theorem trueA_eq (env : Env ρ K) (G : Mat d N K) (v : Fin d → K) (c : Cfg d N M K) (t0 : K) (ts : List K)
    (Z0 : Traj d N K) (h : Z0.length = ts.length + 1) :
    enumLoop (ottoTrueBodyG env (elemLines G v) c) 0 (t0 :: ts) Z0
      = (do let ys ← chain (trueSliceA env G c) 1 ts (pt N c.y1); pure (pt N c.y1 :: ys)) := by
  have hz : ottoTrueBodyG env (elemLines G v) c 0 t0 Z0 = pure (Z0.set 0 (pt N c.y1)) := by
    unfold ottoTrueBodyG
    rw [if_pos rfl, pinRows_ok _ _ 0 (pyIdx_zero (by omega)), RandM.liftM_ok]
  rw [enumLoop, hz, pure_bind,
    enumLoop_chain (ottoTrueBodyG env (elemLines G v) c) (trueSliceA env G c) (trueBodyA_succ env G v c)
      ts 1 _ (pt N c.y1)
      (by omega) (by simp; omega) (by simp [show 0 < Z0.length by omega])]
  congr 1; funext ys
  congr 1
  obtain ⟨a, Z, rfl⟩ : ∃ a Z, Z0 = a :: Z := by
    match Z0, h with
    | a :: Z, _ => exact ⟨a, Z, rfl⟩
  simp

/-- One backward step. -/
def backStepA (env : Env ρ K) (dens bw : Mat d N K → Mat d N K → RandM ρ (Mat d N K))
    (f : Drift d N K) (G : Mat d N K) (det : Bool) (ti : Nat) (zt : Mat d N K × K) (b : Mat d N K) :
    RandM ρ (Mat d N K) := do
  let gro ← dens zt.1 b
  if (ti = 1 ∧ det = true) ∨ det = false then do
    let xi ← normalMat env (NumOps.sqrt dtc) d N
    pure fun i n => b i n - f.call2 b zt.2 i n * dtc + dtc * sq (G i n) * gro i n + G i n * xi i n
  else do
    let grb ← bw zt.1 b
    pure fun i n =>
      b i n - (f.call2 b zt.2 i n - sq (G i n) * gro i n + lit 1 2 * sq (G i n) * grb i n) * dtc

/-- The estimators of the numpy class as functions of the index and the array. -/
def liftEst (est : Mat d N K → Mat d N K → RandM ρ (Mat d N K)) (Z : Traj d N K) (i : Int)
    (B : Traj d N K) : RandM ρ (Mat d N K) := do
  let z ← (pyGet Z i : Except PyErr (Mat d N K))
  let b ← (pyGet B i : Except PyErr (Mat d N K))
  est z b

theorem backBodyA_succ (env : Env ρ K)
    (dens bw : Mat d N K → Mat d N K → RandM ρ (Mat d N K)) (G : Mat d N K) (v : Fin d → K)
    (c : Cfg d N M K)
    (grid : List K) (Z : Traj d N K) (hZ : Z.length = grid.length)
    (ti : Nat) (tt : K) (B : Traj d N K) (x : Mat d N K) (u : Mat d N K × K)
    (h1 : 1 ≤ ti) (hk : ti < grid.length) (hB : B.length = grid.length)
    (hx : B[grid.length - ti]? = some x) (hu : (visits Z grid)[ti-1]? = some u) :
    backwardBodyG env (liftEst dens Z) (liftEst bw Z) (elemLines G v) c grid ti tt B
      = (do let y ← backStepA env dens bw c.f G c.deterministic ti u x
            pure (B.set (grid.length - ti - 1) y)) := by
  have hti : ti - 1 < (visits Z grid).length := by
    rw [List.getElem?_eq_some_iff] at hu; exact hu.1
  have hlen : (visits Z grid).length = grid.length - 2 := by
    simp [visits, hZ]
  have hzt : (Z.zip grid)[grid.length - ti]? = some u := by
    rw [← hu]
    unfold visits
    rw [List.getElem?_reverse (by simpa [visits] using hti), List.getElem?_drop]
    congr 1
    simp [hZ]; omega
  rw [List.getElem?_zip_eq_some] at hzt
  have ez : pyGet Z ((grid.length : Int) - ti - 1 + 1) = .ok u.1 := by
    rw [show (grid.length : Int) - ti - 1 + 1 = ((grid.length - ti : Nat) : Int) by omega]
    exact pyGet_of_getElem? hzt.1
  have et : pyGet grid ((grid.length : Int) - ti - 1 + 1) = .ok u.2 := by
    rw [show (grid.length : Int) - ti - 1 + 1 = ((grid.length - ti : Nat) : Int) by omega]
    exact pyGet_of_getElem? hzt.2
  have eb : pyGet B ((grid.length : Int) - ti - 1 + 1) = .ok x := by
    rw [show (grid.length : Int) - ti - 1 + 1 = ((grid.length - ti : Nat) : Int) by omega]
    exact pyGet_of_getElem? hx
  have es : ∀ S : Mat d N K, setSlice B ((grid.length : Int) - ti - 1) S
      = .ok (B.set (grid.length - ti - 1) S) := by
    intro S
    rw [show (grid.length : Int) - ti - 1 = ((grid.length - ti - 1 : Nat) : Int) by omega]
    exact setSlice_nat _ (by omega) _
  unfold backwardBodyG backStepA
  simp only [if_neg (show ¬ ti = 0 by omega), liftEst, ez, et, eb, es, RandM.liftM_ok, pure_bind,
    bind_assoc, elemLines]
  congr 1; funext gro
  by_cases hc : (ti = 1 ∧ c.deterministic = true) ∨ c.deterministic = false
  · simp only [if_pos hc, bind_assoc, pure_bind]
  · simp only [if_neg hc, bind_assoc, pure_bind]

theorem backA_eq (env : Env ρ K)
    (dens bw : Mat d N K → Mat d N K → RandM ρ (Mat d N K)) (G : Mat d N K) (v : Fin d → K)
    (c : Cfg d N M K)
    (grid : List K) (Z B : Traj d N K) (hZ : Z.length = grid.length) (hB : B.length = grid.length)
    (h2 : 2 ≤ grid.length) :
    (do let B ← enumLoop (backwardBodyG env (liftEst dens Z) (liftEst bw Z) (elemLines G v) c grid) 0
          grid.dropLast B
        (liftM (pinRows B 0 c.y1) : RandM ρ (Traj d N K)))
      = (do
        let ys ← chain (backStepA env dens bw c.f G c.deterministic) 1 (visits Z grid) (pt N c.y2)
        pure (pt N c.y1 :: (ys.reverse ++ [pt N c.y2]))) := by
  obtain ⟨t0, t1, ts, rfl⟩ : ∃ t0 t1 ts, grid = t0 :: t1 :: ts := by
    match grid, h2 with
    | a :: b :: l, _ => exact ⟨a, b, l, rfl⟩
  have hk : (t0 :: t1 :: ts).length = ts.length + 2 := rfl
  have hB' : B.length = ts.length + 2 := hB
  have hv : (visits Z (t0 :: t1 :: ts)).length = ts.length := by simp [visits, hZ]
  have hz : backwardBodyG env (liftEst dens Z) (liftEst bw Z) (elemLines G v) c (t0 :: t1 :: ts) 0 t0 B
      = pure (B.set (B.length - 1) (pt N c.y2)) := by
    unfold backwardBodyG
    rw [if_pos rfl, pinRows_ok _ _ _ (pyIdx_neg_one (by omega)), RandM.liftM_ok]
  rw [List.dropLast_cons_cons, enumLoop, hz, pure_bind,
    enumLoop_chain_rev (backwardBodyG env (liftEst dens Z) (liftEst bw Z) (elemLines G v) c
        (t0 :: t1 :: ts))
      (backStepA env dens bw c.f G c.deterministic) (t0 :: t1 :: ts).length
      (visits Z (t0 :: t1 :: ts))
      (fun ti tt B x u h1 hk hB hx hu =>
        backBodyA_succ env dens bw G v c (t0 :: t1 :: ts) Z hZ ti tt B x u h1 hk hB hx hu)
      (visits Z (t0 :: t1 :: ts)) (t1 :: ts).dropLast 1 _ (pt N c.y2) (by omega) rfl
      (by simp [hv]) (by rw [hv, hk]; omega) (by simpa using hB)
      (by rw [hk, List.getElem?_set]; simp [hB'])]
  simp only [bind_assoc, pure_bind]
  congr 1; funext ys
  rw [pinRows_ok _ _ 0 (pyIdx_zero (by simp [hB', hv])), RandM.liftM_ok]
  congr 1
  rw [hv, hk, show ts.length + 2 - 1 - ts.length = 1 by omega]
  obtain ⟨a, b, Bs, rfl⟩ : ∃ a b Bs, B = a :: b :: Bs := by
    match B, hB' with
    | a :: b :: Z, _ => exact ⟨a, b, Z, rfl⟩
  have hl : Bs.length = ts.length := by simpa using hB'
  have e : List.drop (ts.length + 2 - 1) ((a :: b :: Bs).set ((a :: b :: Bs).length - 1) (pt N c.y2))
      = [pt N c.y2] := by
    rw [List.drop_eq_getElem_cons (by simp [hl])]
    simp [hl]
  rw [e]
  simp

/-- One backward step of the numpy class. -/
abbrev npBackA (env : Env ρ K) (G : Mat d N K) (c : Cfg d N M K) :
    Nat → Mat d N K × K → Mat d N K → RandM ρ (Mat d N K) :=
  backStepA env (densityAt env M (effKern c.kern)) (bwDensityAt env M (effKern c.kern)) c.f G
    c.deterministic

theorem backwardSimA_eq (env : Env ρ K) (G : Mat d N K) (v : Fin d → K) (c : Cfg d N M K) (grid : List K)
    (Z B : Traj d N K)
    (hZ : Z.length = grid.length) (hB : B.length = grid.length) (h2 : 2 ≤ grid.length) :
    backwardSimG env (elemLines G v) c grid Z B = (do
        let ys ← chain (npBackA env G c) 1 (visits Z grid) (pt N c.y2)
        pure (pt N c.y1 :: (ys.reverse ++ [pt N c.y2]))) := by
  rw [← backA_eq env _ _ G v c grid Z B hZ hB h2]
  unfold backwardSimG
  have e1 : (fun i B => densityEst env M (effKern c.kern) Z B i)
      = liftEst (densityAt env M (effKern c.kern)) Z := by
    funext i B
    simp only [densityEst, densityAt, liftEst]
  have e2 : (fun i B => bwDensityEst env M (effKern c.kern) Z B i)
      = liftEst (bwDensityAt env M (effKern c.kern)) Z := by
    funext i B
    simp only [bwDensityEst, bwDensityAt, liftEst]
  rw [e1, e2]

/-- The optional true-drift flow. -/
def trueFlowA (env : Env ρ K) (G : Mat d N K) (c : Cfg d N M K) (grid : List K) :
    RandM ρ (Option (Traj d N K)) :=
  if c.reweight && c.brownBridge then do
    let ys ← chain (trueSliceA env G c) 1 grid.tail (pt N c.y1)
    pure (some (pt N c.y1 :: ys))
  else pure none

theorem npConstructA_det (env : Env ρ K) (G : Mat d N K) (v : Fin d → K) (c : Cfg d N M K)
    (hdet : c.deterministic = true)
    (hk : 2 ≤ (mkGrid c.t1 c.t2).length) (r r' : ρ) (o : Obj d N M K) :
    npConstructL env (elemLines G v) c r = .ok (o, r') ↔
      ∃ (ys : Traj d N K) (r1 : ρ) (zt : Option (Traj d N K)) (r2 : ρ) (bs : Traj d N K),
        chain (ottoSliceA env G c) 1 (mkGrid c.t1 c.t2).tail (pt N c.y1) r = .ok (ys, r1) ∧
        trueFlowA env G c (mkGrid c.t1 c.t2) r1 = .ok (zt, r2) ∧
        chain (npBackA env G c) 1 (visits (pt N c.y1 :: ys) (mkGrid c.t1 c.t2)) (pt N c.y2) r2
          = .ok (bs, r') ∧
        o = ⟨c, mkGrid c.t1 c.t2, pt N c.y1 :: ys, pt N c.y1 :: (bs.reverse ++ [pt N c.y2]), zt⟩ := by
  unfold npConstructL
  generalize mkGrid c.t1 c.t2 = grid at hk ⊢
  obtain ⟨t0, t1, ts, rfl⟩ : ∃ t0 t1 ts, grid = t0 :: t1 :: ts := by
    match grid, hk with
    | a :: b :: l, _ => exact ⟨a, b, l, rfl⟩
  simp only [if_pos hdet]
  rw [forwardA_eq env G v c t0 t1 ts _ (by simp [zerosT_length])]
  simp only [bind_assoc, pure_bind]
  have hback : ∀ {a : Traj d N K} {r0 r1 : ρ},
      chain (ottoSliceA env G c) 1 (t1 :: ts) (pt N c.y1) r0 = .ok (a, r1) →
      backwardSimG env (elemLines G v) c (t0 :: t1 :: ts) (pt N c.y1 :: a)
          (zerosT d N (t0 :: t1 :: ts).length) = (do
        let ys ← chain (npBackA env G c) 1 (visits (pt N c.y1 :: a) (t0 :: t1 :: ts)) (pt N c.y2)
        pure (pt N c.y1 :: (ys.reverse ++ [pt N c.y2]))) := by
    intro a r0 r1 h
    exact backwardSimA_eq _ _ _ _ _ _ _ (by simp [chain_length h]) (by simp [zerosT_length]) hk
  by_cases h : (c.reweight && c.brownBridge) = true
  · simp only [if_pos h, trueFlowA, List.tail_cons]
    rw [trueA_eq env G v c t0 (t1 :: ts) _ (by simp [zerosT_length])]
    simp only [RandM.bind_ok, bind_assoc, pure_bind, RandM.pure_ok]
    constructor
    · rintro ⟨ys, r1, h1, zs, r2, h2, B, r3, h3, rfl, rfl⟩
      rw [hback h1] at h3
      simp only [RandM.bind_ok, RandM.pure_ok] at h3
      obtain ⟨bs, r4, h4, rfl, rfl⟩ := h3
      exact ⟨ys, r1, _, r2, bs, h1, ⟨zs, r2, h2, rfl, rfl⟩, h4, rfl⟩
    · rintro ⟨ys, r1, zt, r2, bs, h1, ⟨zs, r3, h2, rfl, rfl⟩, h4, rfl⟩
      refine ⟨ys, r1, h1, zs, r3, h2, _, r', ?_, rfl, rfl⟩
      rw [hback h1]
      simp only [RandM.bind_ok, RandM.pure_ok]
      exact ⟨bs, r', h4, rfl, rfl⟩
  · simp only [if_neg h, trueFlowA, List.tail_cons]
    simp only [RandM.bind_ok, bind_assoc, pure_bind, RandM.pure_ok]
    constructor
    · rintro ⟨ys, r1, h1, B, r3, h3, rfl, rfl⟩
      rw [hback h1] at h3
      simp only [RandM.bind_ok, RandM.pure_ok] at h3
      obtain ⟨bs, r4, h4, rfl, rfl⟩ := h3
      exact ⟨ys, r1, _, r1, bs, h1, ⟨rfl, rfl⟩, h4, rfl⟩
    · rintro ⟨ys, r1, zt, r2, bs, h1, ⟨rfl, rfl⟩, h4, rfl⟩
      refine ⟨ys, r1, h1, _, r', ?_, rfl, rfl⟩
      rw [hback h1]
      simp only [RandM.bind_ok, RandM.pure_ok]
      exact ⟨bs, r', h4, rfl, rfl⟩

end

section
variable {ρ : Type} {N M d : ℕ}

theorem rawA_spec (pl : Bool) (env : Env ρ ℝ) (hN : 0 < N) (G : Mat d N ℝ) (f : Drift d N ℝ) (i : ℕ) (t : ℝ)
    (x y : Mat d N ℝ) (r r' : ρ) (h : rawA pl env M "RBF" G f (1 + i) x t r = .ok (y, r')) :
    ForwardStepA env M f G i t x y r r' := by
  unfold rawA at h
  by_cases hi : i = 0
  · subst hi
    rw [if_pos rfl, RandM.bind_app, normalMat_real] at h
    cases h
    refine ⟨fun _ => ⟨fun a n => ?_, rfl⟩, fun h => absurd rfl h⟩
    simp only [dtc_real, real_sqrt]
  · rw [if_neg (by omega), RandM.bind_app, scoreAtParticles_real _ env hN] at h
    cases h
    refine ⟨fun h => absurd h hi, fun _ => ⟨fun _ a n => ?_, rfl⟩⟩
    simp only [dtc_real, real_sq, real_lit_half]
    ring

theorem ottoChainA_spec (env : Env ρ ℝ) (G : Mat d N ℝ) (c : Cfg d N M ℝ) (hN : 0 < N)
    (hk : effKern c.kern = "RBF")
    (ys : Traj d N ℝ) (r r' : ρ) (h2 : 2 ≤ (mkGrid c.t1 c.t2).length)
    (h : chain (ottoSliceA env G c) 1 (mkGrid c.t1 c.t2).tail (pt N c.y1) r = .ok (ys, r')) :
    ∃ rs : ℕ → ρ, rs 0 = r ∧ rs ((mkGrid c.t1 c.t2).length - 1) = r' ∧
      ForwardRecA env c G (fun i => (pt N c.y1 :: ys)[i]?) (fun i => (mkGrid c.t1 c.t2)[i]?) rs := by
  obtain ⟨hl, rs, h0, h1, hs⟩ := chain_ok_iff.1 h
  rw [List.length_tail] at h1 hl
  refine ⟨rs, h0, h1, ?_⟩
  intro i x y ti hx hy ht
  have hi : i + 1 < (mkGrid c.t1 c.t2).length := by
    have := (List.getElem?_eq_some_iff.1 hy).1
    rw [List.length_cons] at this; omega
  obtain ⟨tt, htt⟩ := grid_get hi
  have htt' : (mkGrid c.t1 c.t2).tail[i]? = some tt := by
    rw [List.getElem?_tail]; exact htt
  have hst := hs i tt x y htt' hx hy
  have hti : tt - dtc = ti := by rw [grid_time ht htt, dtc_real]; ring
  rw [ottoSliceA, hk, hti] at hst
  obtain ⟨raw, rm, hraw, hrw⟩ := RandM.bind_ok.1 hst
  refine ⟨raw, ?_, ?_, ?_⟩
  · have := rawA_spec _ env hN G c.f i ti x raw (rs i) rm hraw
    have hrm : rm = rs (i+1) := by
      split at hrw
      · exact ((RandM.lift_ok).1 hrw).2
      · exact ((RandM.pure_ok).1 hrw).2
    rwa [hrm] at this
  · intro hf
    rw [hf] at hrw
    exact ((RandM.pure_ok).1 hrw).1.symm
  · intro hf
    rw [hf, if_pos rfl] at hrw
    have := ((RandM.lift_ok).1 hrw).1
    rw [grid_time ht htt] at this
    exact (ottoReweight_ok env c.U raw y _).1 this

theorem trueChainA_spec (env : Env ρ ℝ) (G : Mat d N ℝ) (c : Cfg d N M ℝ) (hN : 0 < N)
    (hk : effKern c.kern = "RBF")
    (ys : Traj d N ℝ) (r r' : ρ) (h2 : 2 ≤ (mkGrid c.t1 c.t2).length)
    (h : chain (trueSliceA env G c) 1 (mkGrid c.t1 c.t2).tail (pt N c.y1) r = .ok (ys, r')) :
    ∃ rs : ℕ → ρ, rs 0 = r ∧ rs ((mkGrid c.t1 c.t2).length - 1) = r' ∧
      TrueRecA env c G (fun i => (pt N c.y1 :: ys)[i]?) (fun i => (mkGrid c.t1 c.t2)[i]?) rs := by
  obtain ⟨hl, rs, h0, h1, hs⟩ := chain_ok_iff.1 h
  rw [List.length_tail] at h1 hl
  cases hf : c.fTrue with
  | none =>
    exfalso
    obtain ⟨tt, htt⟩ := grid_get (t1 := c.t1) (t2 := c.t2) (i := 1) (by omega)
    have hy : (pt N c.y1 :: ys)[0+1]? = some (ys[0]'(by omega)) := by
      simp
    have := hs 0 tt _ _ (by rw [List.getElem?_tail]; exact htt) rfl hy
    simp [trueSliceA, hf] at this
  | some ft =>
    refine ⟨rs, h0, h1, ft, hf, ?_⟩
    intro i x y ti hx hy ht
    have hi : i + 1 < (mkGrid c.t1 c.t2).length := by
      have := (List.getElem?_eq_some_iff.1 hy).1
      rw [List.length_cons] at this; omega
    obtain ⟨tt, htt⟩ := grid_get hi
    have htt' : (mkGrid c.t1 c.t2).tail[i]? = some tt := by
      rw [List.getElem?_tail]; exact htt
    have hst := hs i tt x y htt' hx hy
    have hti : tt - dtc = ti := by rw [grid_time ht htt, dtc_real]; ring
    simp only [trueSliceA, hf, hk, hti] at hst
    exact rawA_spec _ env hN G ft i ti x y _ _ hst

theorem backChainA_spec (env : Env ρ ℝ) (G : Mat d N ℝ) (c : Cfg d N M ℝ) (hN : 0 < N)
    (hdet : c.deterministic = true) (hk : effKern c.kern = "RBF")
    (Z bs : Traj d N ℝ) (grid : List ℝ) (r r' : ρ) (h2 : 2 ≤ grid.length)
    (hZ : Z.length = grid.length)
    (h : chain (npBackA env G c) 1 (visits Z grid) (pt N c.y2) r = .ok (bs, r')) :
    ∃ rs : ℕ → ρ, rs (grid.length - 2) = r ∧ rs 0 = r' ∧
      BackwardRecA env c G grid.length (fun i => Z[i]?)
        (fun i => (pt N c.y1 :: (bs.reverse ++ [pt N c.y2]))[i]?) (fun i => grid[i]?) rs := by
  obtain ⟨hl, rs, h0, h1, hs⟩ := chain_ok_iff.1 h
  rw [visits_length hZ] at h1 hl
  refine ⟨fun j => rs (grid.length - 2 - j), by simp [h0], by simpa using h1, ?_⟩
  intro j z b y tj hj1 hj2 hz hb hy ht
  simp only at hz hb hy ht
  have key : ∀ i, i ≤ bs.length → (pt N c.y1 :: (bs.reverse ++ [pt N c.y2]))[i+1]?
      = (pt N c.y2 :: bs)[bs.length - i]? := by
    intro i hi
    rw [List.getElem?_cons_succ]
    by_cases he : i = bs.length
    · subst he
      rw [List.getElem?_append_right (by simp)]
      simp
    · rw [List.getElem?_append_left (by simp; omega), List.getElem?_reverse (by omega)]
      obtain ⟨m, hm⟩ : ∃ m, bs.length - i = m + 1 := ⟨bs.length - i - 1, by omega⟩
      rw [hm, List.getElem?_cons_succ]
      congr 1; omega
  have hs' : (grid.length - 2 - j) + 2 < grid.length := by omega
  have hzt := visits_get hZ (s := grid.length - 2 - j) (z := z) (t := tj) hs'
    (by rw [show grid.length - 1 - (grid.length - 2 - j) = j + 1 by omega]; exact hz)
    (by rw [show grid.length - 1 - (grid.length - 2 - j) = j + 1 by omega]; exact ht)
  have hb' : (pt N c.y2 :: bs)[grid.length - 2 - j]? = some b := by
    have := key j (by omega)
    rw [hb, hl] at this
    rw [← this]
  have hy' : (pt N c.y2 :: bs)[grid.length - 2 - j + 1]? = some y := by
    obtain ⟨i, rfl⟩ : ∃ i, j = i + 1 := ⟨j - 1, by omega⟩
    have := key i (by omega)
    rw [hy, hl] at this
    rw [← show grid.length - 2 - i = grid.length - 2 - (i+1) + 1 by omega, ← this]
  have hst := hs _ _ b y hzt hb' hy'
  have hnext : grid.length - 2 - (j - 1) = grid.length - 2 - j + 1 := by omega
  simp only [hnext]
  simp only [npBackA, backStepA, hk] at hst
  rw [RandM.bind_app, densityAt_real env hN] at hst
  simp only at hst
  have hiff : ((1 + (grid.length - 2 - j) = 1 ∧ c.deterministic = true) ∨ c.deterministic = false)
      ↔ j + 2 = grid.length := by
    rw [hdet]
    simp; omega
  refine ⟨fun hc => ?_, fun hc => ?_⟩
  · rw [if_pos (hiff.2 hc), RandM.bind_app, normalMat_real] at hst
    simp only [RandM.pure_app, dtc_real, real_sq, real_sqrt] at hst
    injection hst with hst
    injection hst with hst1 hst2
    exact ⟨fun _ a n => by rw [← hst1]; rfl, hst2.symm⟩
  · rw [if_neg (fun h => hc (hiff.1 h)), RandM.bind_app, bwDensityAt_real env hN] at hst
    simp only [RandM.pure_app, dtc_real, real_sq, real_lit_half] at hst
    injection hst with hst
    injection hst with hst1 hst2
    refine ⟨fun _ _ a n => ?_, hst2.symm⟩
    rw [← hst1]
    simp only [scoreRho, scoreB]
    ring

theorem rawA_total (pl : Bool) (env : Env ρ ℝ) (hN : 0 < N) (G : Mat d N ℝ) (f : Drift d N ℝ) (i : ℕ) (t : ℝ)
    (x : Mat d N ℝ) : Total (rawA pl env M "RBF" G f i x t) := by
  unfold rawA
  split
  · exact Total.bind (fun r => ⟨_, _, normalMat_real env _ r⟩) fun _ => Total.pure _
  · exact Total.bind (fun r => ⟨_, _, scoreAtParticles_real _ env hN _ r⟩) fun _ => Total.pure _

theorem npConstructA_total (env : Env ρ ℝ) (G : Mat d N ℝ) (v : Fin d → ℝ) (c : Cfg d N M ℝ) (hN : 0 < N)
    (hdet : c.deterministic = true) (hg : 2 ≤ (mkGrid c.t1 c.t2).length)
    (hk : effKern c.kern = "RBF") (hU : c.reweight = true → c.U ≠ none ∧ EmdTotal env)
    (hf : c.reweight = true → c.brownBridge = true → c.fTrue ≠ none) :
    Total (npConstructL env (elemLines G v) c) := by
  intro r
  have t1 : ∀ i t x, Total (ottoSliceA env G c i t x) := by
    intro i t x
    unfold ottoSliceA
    rw [hk]
    refine Total.bind (rawA_total _ env hN G _ _ _ _) fun raw => ?_
    split
    · rename_i hr
      obtain ⟨h1, h2⟩ := hU hr
      intro r
      cases hu : c.U with
      | none => exact absurd hu h1
      | some U =>
        obtain ⟨T, hT⟩ := h2 N (normWeights fun n => NumOps.exp (U.call2 raw t n * dtc))
          (fun _ => lit 1 1 / lit N 1) (fun i j => if i = j then lit 0 1 else
            NumOps.sqrt (NumOps.sum fun k => sq (tr raw i k - tr raw j k)))
        exact ⟨_, r, liftM_ok_app (a := mm raw fun i j => T i j * lit N 1)
          (by simp only [ottoReweight, reweightOT, hT, Except.ok_bind']) r⟩
    · exact Total.pure _
  obtain ⟨ys, r1, h1⟩ := Total.chain t1 (mkGrid c.t1 c.t2).tail 1 (pt N c.y1) r
  have ht : ∃ zt r2, trueFlowA env G c (mkGrid c.t1 c.t2) r1 = .ok (zt, r2) := by
    unfold trueFlowA
    split
    · rename_i h
      simp only [Bool.and_eq_true] at h
      refine (Total.chain (fun i t x => ?_) _ 1 _).bind (fun _ => Total.pure _) r1
      unfold trueSliceA
      cases h' : c.fTrue with
      | none => exact absurd h' (hf h.1 h.2)
      | some ft =>
        rw [hk]
        exact rawA_total _ env hN G _ _ _ _
    · exact ⟨_, _, rfl⟩
  obtain ⟨zt, r2, h2⟩ := ht
  have t3 : ∀ i zt b, Total (npBackA env G c i zt b) := by
    intro i zt b
    unfold npBackA backStepA
    rw [hk]
    refine Total.bind (fun r => ⟨_, _, densityAt_real env hN _ _ r⟩) fun gro => ?_
    split
    · exact Total.bind (fun r => ⟨_, _, normalMat_real env _ r⟩) fun _ => Total.pure _
    · exact Total.bind (fun r => ⟨_, _, bwDensityAt_real env hN _ _ r⟩) fun _ => Total.pure _
  obtain ⟨bs, r3, h3⟩ := Total.chain t3
    (visits (pt N c.y1 :: ys) (mkGrid c.t1 c.t2)) 1 (pt N c.y2) r2
  exact ⟨_, r3, (npConstructA_det env G v c hdet hg r r3 _).2 ⟨ys, r1, zt, r2, bs, h1, h2, h3, rfl⟩⟩

end

section
variable {K ρ : Type} [Add K] [Sub K] [Mul K] [Div K] [Neg K] [NumOps K]
variable {N M d : Nat}

/-- In deterministic mode only the lines on whole slices are used. -/
theorem npConstructG_det_lines (env : Env ρ K) {g : NArr K} {G : Mat d N K} (hg : IsMat d N g G)
    (c : Cfg d N M K) (hdet : c.deterministic = true) (v : Fin d → K) :
    npConstructG env g c = npConstructL env (elemLines G v) c := by
  have h : ∀ L L' : GLines d N K, L.noisy = L'.noisy → L.otto = L'.otto → L.backNoisy = L'.backNoisy →
      L.backDet = L'.backDet → npConstructL env L c = npConstructL env L' c := by
    rintro ⟨a, b, s, e, f⟩ ⟨a', b', s', e', f'⟩ rfl rfl rfl rfl
    unfold npConstructL
    simp only [if_pos hdet]
    rfl
  refine h _ _ ?_ ?_ ?_ ?_
  · funext x fx xi; exact noisyG_fit hg _ x fx xi
  · funext x fx xi; exact ottoG_fit hg _ x fx xi
  · funext b fb gro xi; exact backNoisyG_fit hg _ b fb gro xi
  · funext b fb gro xi; exact backDetG_fit hg _ b fb gro xi

/-- The torch class uses only the lines on whole slices. -/
theorem torchConstructG_lines (env : Env ρ K) {g : NArr K} {G : Mat d N K} (hg : IsMat d N g G)
    (c : Cfg d N M K) (v : Fin d → K) :
    torchConstructG env g c = torchConstructL env (elemLines G v) c := by
  have h : ∀ L L' : GLines d N K, L.noisy = L'.noisy → L.otto = L'.otto → L.backNoisy = L'.backNoisy →
      L.backDet = L'.backDet → torchConstructL env L c = torchConstructL env L' c := by
    rintro ⟨a, b, s, e, f⟩ ⟨a', b', s', e', f'⟩ rfl rfl rfl rfl
    rfl
  refine h _ _ ?_ ?_ ?_ ?_
  · funext x fx xi; exact noisyG_fit hg _ x fx xi
  · funext x fx xi; exact ottoG_fit hg _ x fx xi
  · funext b fb gro xi; exact backNoisyG_fit hg _ b fb gro xi
  · funext b fb gro xi; exact backDetG_fit hg _ b fb gro xi

end
end DPFC
