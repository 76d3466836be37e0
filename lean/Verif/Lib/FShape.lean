import Verif.Spec.FShape
import Verif.Lib.ShapeFlow
import Verif.Props.Shapes

set_option linter.unusedSectionVars false

/-! Helper lemmas for C107. -/

namespace DPFC
open NArr Spec
variable {K ρ : Type} [Add K] [Sub K] [Mul K] [Div K] [Neg K] [NumOps K]
variable {N M d : Nat}

theorem noisyA_fit {g : NArr K} {G : Mat d N K} (hg : IsMat d N g G) {F : NArr K} {V : Mat d N K} (hF : IsMat d N F V)
    (e : PyErr) (x xi : Mat d N K) : noisyA e g x F xi = noisyG e g x V xi := by
  rw [noisyG_fit hg]
  unfold noisyA
  obtain ⟨A, hA, iA⟩ := (isMat_scal (dtc : K)).op e (· * ·) hF
  obtain ⟨B, hB, iB⟩ := (isMat_ofMat x).op e (· + ·) iA
  obtain ⟨C, hC, iC⟩ := hg.op e (· * ·) (isMat_ofMat xi)
  obtain ⟨D, hD, iD⟩ := iB.op e (· + ·) iC
  simp only [hA, hB, hC, hD, Except.ok_bind', iD.toMat]

theorem ottoA_fit {g : NArr K} {G : Mat d N K} (hg : IsMat d N g G) {F : NArr K} {V : Mat d N K} (hF : IsMat d N F V)
    (e : PyErr) (x xi : Mat d N K) : ottoA e g x F xi = ottoG e g x V xi := by
  rw [ottoG_fit hg]
  unfold ottoA
  obtain ⟨A, hA, iA⟩ := (isMat_scal (lit 1 2 : K)).op e (· * ·) hg.sq'
  obtain ⟨B, hB, iB⟩ := iA.op e (· * ·) (isMat_ofMat xi)
  obtain ⟨C, hC, iC⟩ := hF.op e (· - ·) iB
  obtain ⟨D, hD, iD⟩ := (isMat_scal (dtc : K)).op e (· * ·) iC
  obtain ⟨E, hE, iE⟩ := (isMat_ofMat x).op e (· + ·) iD
  simp only [hA, hB, hC, hD, hE, Except.ok_bind', iE.toMat]

theorem stochA_fit {g : NArr K} {v : Fin d → K} (hg : IsVec d g v) {F : NArr K} {V : Fin d → K} (hF : IsVec d F V)
    (e : PyErr) (x xi : Fin d → K) : stochA e g x F xi = stochG e g x V xi := by
  rw [stochG_fit hg]
  unfold stochA
  obtain ⟨A, hA, iA⟩ := (isVec_scal (dtc : K)).op e (· * ·) hF
  obtain ⟨B, hB, iB⟩ := (isVec_ofVec x).op e (· + ·) iA
  obtain ⟨C, hC, iC⟩ := hg.op e (· * ·) (isVec_ofVec xi)
  obtain ⟨D, hD, iD⟩ := iB.op e (· + ·) iC
  simp only [hA, hB, hC, hD, Except.ok_bind', iD.toVec]

theorem backNoisyA_fit {g : NArr K} {G : Mat d N K} (hg : IsMat d N g G) {F : NArr K} {V : Mat d N K}
    (hF : IsMat d N F V) (e : PyErr) (b gro xi : Mat d N K) :
    backNoisyA e g b F gro xi = backNoisyG e g b V gro xi := by
  rw [backNoisyG_fit hg]
  unfold backNoisyA
  obtain ⟨A, hA, iA⟩ := hF.op e (· * ·) (isMat_scal (dtc : K))
  obtain ⟨B, hB, iB⟩ := (isMat_ofMat b).op e (· - ·) iA
  obtain ⟨C, hC, iC⟩ := (isMat_scal (dtc : K)).op e (· * ·) hg.sq'
  obtain ⟨D, hD, iD⟩ := iC.op e (· * ·) (isMat_ofMat gro)
  obtain ⟨E, hE, iE⟩ := iB.op e (· + ·) iD
  obtain ⟨H, hH, iH⟩ := hg.op e (· * ·) (isMat_ofMat xi)
  obtain ⟨I, hI, iI⟩ := iE.op e (· + ·) iH
  simp only [hA, hB, hC, hD, hE, hH, hI, Except.ok_bind', iI.toMat]

theorem backDetA_fit {g : NArr K} {G : Mat d N K} (hg : IsMat d N g G) {F : NArr K} {V : Mat d N K}
    (hF : IsMat d N F V) (e : PyErr) (b gro grb : Mat d N K) :
    backDetA e g b F gro grb = backDetG e g b V gro grb := by
  rw [backDetG_fit hg]
  unfold backDetA
  obtain ⟨A, hA, iA⟩ := hg.sq'.op e (· * ·) (isMat_ofMat gro)
  obtain ⟨B, hB, iB⟩ := hF.op e (· - ·) iA
  obtain ⟨C, hC, iC⟩ := (isMat_scal (lit 1 2 : K)).op e (· * ·) hg.sq'
  obtain ⟨D, hD, iD⟩ := iC.op e (· * ·) (isMat_ofMat grb)
  obtain ⟨E, hE, iE⟩ := iB.op e (· + ·) iD
  obtain ⟨H, hH, iH⟩ := iE.op e (· * ·) (isMat_scal (dtc : K))
  obtain ⟨I, hI, iI⟩ := (isMat_ofMat b).op e (· - ·) iH
  simp only [hA, hB, hC, hD, hE, hH, hI, Except.ok_bind', iI.toMat]

theorem noisyA_bad {F : NArr K} (h : fits F.rshape [N, d] = false) (e : PyErr) (g : NArr K) (x xi : Mat d N K) :
    noisyA e g x F xi = .error e := by
  unfold noisyA
  refine Bad.then (op_bad_right e _ _ h) fun C hC => Bad.then (op_bad_right e _ _ hC) fun C hC => ?_
  cases hb : op e (· * ·) g (ofMat xi) with
  | error e' =>
    have : e' = e := by
      unfold op at hb
      split at hb
      · cases hb; rfl
      · cases hb
    rw [this]; rfl
  | ok B => exact Bad.then (op_bad_left e _ _ hC) fun C hC => toMat_bad hC

theorem stochA_bad {F : NArr K} (h : fits F.rshape [d] = false) (e : PyErr) (g : NArr K) (x xi : Fin d → K) :
    stochA e g x F xi = .error e := by
  unfold stochA
  refine Bad.then (op_bad_right e _ _ h) fun C hC => Bad.then (op_bad_right e _ _ hC) fun C hC => ?_
  cases hb : op e (· * ·) g (ofVec xi) with
  | error e' =>
    have : e' = e := by
      unfold op at hb
      split at hb
      · cases hb; rfl
      · cases hb
    rw [this]; rfl
  | ok B => exact Bad.then (op_bad_left e _ _ hC) fun C hC => toVec_bad hC

/-! ### Loop bodies with functions of good shapes -/

section
variable {g : NArr K} {F : AFns d N K} {e : PyErr}

theorem ottoReweightA_eq (env : Env ρ K) (hF : GoodShapes F) (x : Mat d N K) (tt : K) :
    ottoReweightA env e F.U x tt = ottoReweight env (F.U.map readConstraint) x tt := by
  cases hU : F.U with
  | none => rfl
  | some U =>
    have := (isVec_coeff ((hF.2.2 U hU).1 x tt)).toVec e
    simp only [ottoReweightA, ottoReweight, Option.map_some, this, Except.ok_bind']
    rfl

theorem stochReweightA_eq (env : Env ρ K) (hF : GoodShapes F) (x : Mat d N K) :
    stochReweightA env e F.U x = stochReweight env (F.U.map readConstraint) x := by
  cases hU : F.U with
  | none => rfl
  | some U =>
    cases hu : U.call1 with
    | none => simp only [stochReweightA, stochReweight, Option.map_some, readConstraint, hu, Option.map_none]
    | some u =>
      have := (isVec_coeff ((hF.2.2 U hU).2 u hu x)).toVec e
      simp only [stochReweightA, stochReweight, Option.map_some, readConstraint, hu, this, Except.ok_bind']

theorem ottoBodyA_eq (env : Env ρ K) (hg : BroadcastsTo g.rshape [N, d]) (hF : GoodShapes F) (c : Cfg d N M K) :
    ottoBodyA env e g F c = ottoBodyG env (arrayLines e g) (readCfg c F) := by
  have h1 := fun x t xi => noisyA_fit (isMat_coeff hg) (isMat_coeff (hF.1 x t)) e x xi
  have h2 := fun x t xi => ottoA_fit (isMat_coeff hg) (isMat_coeff (hF.1 x t)) e x xi
  funext ti tt Z
  simp only [ottoBodyA, ottoBodyG, arrayLines, readCfg, readDrift, h1, h2, ottoReweightA_eq env hF]
  rfl

theorem ottoTrueBodyA_eq (env : Env ρ K) (hg : BroadcastsTo g.rshape [N, d]) (hF : GoodShapes F) (c : Cfg d N M K) :
    ottoTrueBodyA env e g F c = ottoTrueBodyG env (arrayLines e g) (readCfg c F) := by
  funext ti tt Z
  cases hf : F.fTrue with
  | none => simp only [ottoTrueBodyA, ottoTrueBodyG, arrayLines, readCfg, hf, Option.map_none]
  | some ft =>
    have h1 := fun x t xi => noisyA_fit (isMat_coeff hg) (isMat_coeff (hF.2.1 ft hf x t)) e x xi
    have h2 := fun x t xi => ottoA_fit (isMat_coeff hg) (isMat_coeff (hF.2.1 ft hf x t)) e x xi
    simp only [ottoTrueBodyA, ottoTrueBodyG, arrayLines, readCfg, readDrift, hf, Option.map_some, h1, h2]

theorem stochBodyA_eq (env : Env ρ K) (hg : BroadcastsTo g.rshape [d]) (hF : GoodShapes F)
    (h1 : ∀ f1, F.f.call1 = some f1 → ∀ x, BroadcastsTo (f1 x).rshape [d]) (c : Cfg d N M K) :
    stochBodyA env e g F c = stochBodyG env (arrayLines e g) (readCfg c F) := by
  have hm : stochMoveA env e g F c = stochMoveG env (arrayLines e g) (readCfg c F) := by
    funext ti Z
    cases hf : F.f.call1 with
    | none => simp only [stochMoveA, stochMoveG, arrayLines, readCfg, readDrift, hf, Option.map_none]
    | some f1 =>
      have h := fun x y xi => stochA_fit (isVec_coeff hg) (isVec_coeff (h1 f1 hf x)) e y xi
      simp only [stochMoveA, stochMoveG, arrayLines, readCfg, readDrift, hf, Option.map_some, h]
  funext ti tt Z
  simp only [stochBodyA, stochBodyG, hm, stochReweightA_eq env hF]
  rfl

theorem backwardBodyA_eq (env : Env ρ K) (dens bw : Int → Traj d N K → RandM ρ (Mat d N K))
    (hg : BroadcastsTo g.rshape [N, d]) (hF : GoodShapes F) (c : Cfg d N M K) (grid : List K) :
    backwardBodyA env dens bw e g F c grid = backwardBodyG env dens bw (arrayLines e g) (readCfg c F) grid := by
  have h1 := fun x t gro xi => backNoisyA_fit (isMat_coeff hg) (isMat_coeff (hF.1 x t)) e x gro xi
  have h2 := fun x t gro xi => backDetA_fit (isMat_coeff hg) (isMat_coeff (hF.1 x t)) e x gro xi
  funext ti tt Z
  simp only [backwardBodyA, backwardBodyG, arrayLines, readCfg, readDrift, h1, h2]
  rfl

theorem torchOttoBodyA_eq (env : Env ρ K) (hg : BroadcastsTo g.rshape [N, d]) (hF : GoodShapes F) (c : Cfg d N M K) :
    torchOttoBodyA env e g F c = torchOttoBodyG env (arrayLines e g) (readCfg c F) := by
  have h1 := fun x t xi => noisyA_fit (isMat_coeff hg) (isMat_coeff (hF.1 x t)) e x xi
  have h2 := fun x t xi => ottoA_fit (isMat_coeff hg) (isMat_coeff (hF.1 x t)) e x xi
  funext ti tt Z
  cases hU : F.U with
  | none => simp only [torchOttoBodyA, torchOttoBodyG, arrayLines, readCfg, readDrift, h1, h2, hU, Option.map_none]
  | some U =>
    have h3 := fun x t => (isVec_coeff ((hF.2.2 U hU).1 x t)).toVec e
    simp only [torchOttoBodyA, torchOttoBodyG, arrayLines, readCfg, readDrift, h1, h2, hU, Option.map_some, h3,
      readConstraint, RandM.liftM_ok, pure_bind]

theorem torchTrueBodyA_eq (env : Env ρ K) (hg : BroadcastsTo g.rshape [N, d]) (hF : GoodShapes F) (c : Cfg d N M K) :
    torchTrueBodyA env e g F c = torchTrueBodyG env (arrayLines e g) (readCfg c F) := by
  funext ti tt Z
  cases hf : F.fTrue with
  | none => simp only [torchTrueBodyA, torchTrueBodyG, arrayLines, readCfg, hf, Option.map_none]
  | some ft =>
    have h1 := fun x t xi => noisyA_fit (isMat_coeff hg) (isMat_coeff (hF.2.1 ft hf x t)) e x xi
    have h2 := fun x t xi => ottoA_fit (isMat_coeff hg) (isMat_coeff (hF.2.1 ft hf x t)) e x xi
    simp only [torchTrueBodyA, torchTrueBodyG, arrayLines, readCfg, readDrift, hf, Option.map_some, h1, h2]

theorem torchStochBodyA_eq (env : Env ρ K) (hg : BroadcastsTo g.rshape [N, d]) (hF : GoodShapes F) (c : Cfg d N M K) :
    torchStochBodyA env e g F c = torchStochBodyG env (arrayLines e g) (readCfg c F) := by
  have h1 := fun x t xi => noisyA_fit (isMat_coeff hg) (isMat_coeff (hF.1 x t)) e x xi
  funext ti tt Z
  cases hU : F.U with
  | none => simp only [torchStochBodyA, torchStochBodyG, arrayLines, readCfg, readDrift, h1, hU, Option.map_none]
  | some U =>
    cases hu : U.call1 with
    | none =>
      simp only [torchStochBodyA, torchStochBodyG, arrayLines, readCfg, readDrift, h1, hU, Option.map_some, readConstraint,
        hu, Option.map_none]
    | some u =>
      have h3 := fun x => (isVec_coeff ((hF.2.2 U hU).2 u hu x)).toVec e
      simp only [torchStochBodyA, torchStochBodyG, arrayLines, readCfg, readDrift, h1, hU, Option.map_some, h3,
        readConstraint, hu, RandM.liftM_ok, pure_bind]
end

theorem npConstructAL_eq (env : Env ρ K) {g : NArr K} {F : AFns d N K} {e : PyErr} (hg : BroadcastsTo g.rshape [N, d])
    (hF : GoodShapes F) (c : Cfg d N M K)
    (hs : c.deterministic = false → BroadcastsTo g.rshape [d] ∧ ∀ f1, F.f.call1 = some f1 → ∀ x, BroadcastsTo (f1 x).rshape [d]) :
    npConstructAL env e g F c = (fun o => { o with cfg := c }) <$> npConstructL env (arrayLines e g) (readCfg c F) := by
  have hB : ∀ grid Z B, backwardSimA env e g F c grid Z B = backwardSimG env (arrayLines e g) (readCfg c F) grid Z B := by
    intro grid Z B
    simp only [backwardSimA, backwardSimG, backwardBodyA_eq env _ _ hg hF]
    rfl
  unfold npConstructAL npConstructL
  cases hdet : c.deterministic with
  | true =>
    have h2 : (readCfg c F).deterministic = true := hdet
    simp only [h2, if_true, ottoBodyA_eq env hg hF, ottoTrueBodyA_eq env hg hF, hB]
    cases hb : (c.reweight && c.brownBridge) with
    | true =>
      have hb2 : ((readCfg c F).reweight && (readCfg c F).brownBridge) = true := hb
      simp only [hb2, if_true, map_bind, map_pure]; rfl
    | false =>
      have hb2 : ((readCfg c F).reweight && (readCfg c F).brownBridge) = false := hb
      simp only [hb2, Bool.false_eq_true, if_false, map_bind, map_pure]; rfl
  | false =>
    obtain ⟨h1, h3⟩ := hs hdet
    have h2 : (readCfg c F).deterministic = false := hdet
    simp only [h2, Bool.false_eq_true, if_false, stochBodyA_eq env h1 hF h3, hB, map_bind, map_pure]
    rfl

theorem torchConstructAL_eq (env : Env ρ K) {g : NArr K} {F : AFns d N K} {e : PyErr} (hg : BroadcastsTo g.rshape [N, d])
    (hF : GoodShapes F) (c : Cfg d N M K) :
    torchConstructAL env e g F c = (fun o => { o with cfg := c }) <$> torchConstructL env (arrayLines e g) (readCfg c F) := by
  have hB : ∀ grid Z B, torchBackwardSimA env e g F c grid Z B
      = torchBackwardSimG env (arrayLines e g) (readCfg c F) grid Z B := by
    intro grid Z B
    simp only [torchBackwardSimA, torchBackwardSimG, backwardBodyA_eq env _ _ hg hF]
    rfl
  unfold torchConstructAL torchConstructL
  cases hdet : c.deterministic with
  | true =>
    have h2 : (readCfg c F).deterministic = true := hdet
    simp only [h2, if_true, torchOttoBodyA_eq env hg hF, torchTrueBodyA_eq env hg hF, hB]
    cases hb : (c.reweight && c.brownBridge) with
    | true =>
      have hb2 : ((readCfg c F).reweight && (readCfg c F).brownBridge) = true := hb
      simp only [hb2, if_true, map_bind, map_pure]; rfl
    | false =>
      have hb2 : ((readCfg c F).reweight && (readCfg c F).brownBridge) = false := hb
      simp only [hb2, Bool.false_eq_true, if_false, map_bind, map_pure]; rfl
  | false =>
    have h2 : (readCfg c F).deterministic = false := hdet
    simp only [h2, Bool.false_eq_true, if_false, torchStochBodyA_eq env hg hF, hB, map_bind, map_pure]
    rfl

/-! ### Values of bad shapes -/

theorem ottoBodyA_one_bad (env : Env ρ K) {e : PyErr} (g : NArr K) (F : AFns d N K) (c : Cfg d N M K)
    (hf : ∀ x t, fits (F.f.call2 x t).rshape [N, d] = false) (tt : K) (Z : Traj d N K) (hl : 1 < Z.length) (r : ρ) :
    ottoBodyA env e g F c 1 tt Z r = .error e := by
  unfold ottoBodyA
  rw [if_neg (by omega), if_pos rfl]
  rw [show ((1 : Nat) : Int) - 1 = ((0 : Nat) : Int) from rfl, pyGet_nat _ (by omega), RandM.liftM_ok]
  simp only [pure_bind, bind_assoc]
  refine bind_total_error (normalMat_total env _ d N) (fun a r => ?_) r
  simp only [noisyA_bad (hf _ _), RandM.liftM_error, RandM.raise_bind, RandM.raise_app]

theorem torchOttoBodyA_one_bad (env : Env ρ K) {e : PyErr} (g : NArr K) (F : AFns d N K) (c : Cfg d N M K)
    (hf : ∀ x t, fits (F.f.call2 x t).rshape [N, d] = false) (tt : K) (Z : Traj d N K) (hl : 1 < Z.length) (r : ρ) :
    torchOttoBodyA env e g F c 1 tt Z r = .error e := by
  unfold torchOttoBodyA
  rw [if_neg (by omega), if_pos rfl]
  rw [show ((1 : Nat) : Int) - 1 = ((0 : Nat) : Int) from rfl, pyGet_nat _ (by omega), RandM.liftM_ok]
  simp only [pure_bind, bind_assoc]
  refine bind_total_error (normalMat_total env _ d N) (fun a r => ?_) r
  simp only [noisyA_bad (hf _ _), RandM.liftM_error, RandM.raise_bind, RandM.raise_app]

theorem torchStochBodyA_one_bad (env : Env ρ K) {e : PyErr} (g : NArr K) (F : AFns d N K) (c : Cfg d N M K)
    (hf : ∀ x t, fits (F.f.call2 x t).rshape [N, d] = false) (tt : K) (Z : Traj d N K) (hl : 1 < Z.length) (r : ρ) :
    torchStochBodyA env e g F c 1 tt Z r = .error e := by
  unfold torchStochBodyA
  rw [if_neg (by omega)]
  rw [show ((1 : Nat) : Int) - 1 = ((0 : Nat) : Int) from rfl, pyGet_nat _ (by omega), RandM.liftM_ok]
  simp only [pure_bind, bind_assoc]
  refine bind_total_error (normalMat_total env _ d N) (fun a r => ?_) r
  simp only [noisyA_bad (hf _ _), RandM.liftM_error, RandM.raise_bind, RandM.raise_app]

theorem two_points {grid : List K} (hk : 2 ≤ grid.length) : ∃ t0 t1 ts, grid = t0 :: t1 :: ts := by
  match grid, hk with
  | a :: b :: l, _ => exact ⟨a, b, l, rfl⟩

theorem npConstructF_bad (env : Env ρ K) (g : NArr K) (F : AFns d N K) (c : Cfg d N M K) (hdet : c.deterministic = true)
    (hk : 2 ≤ (mkGrid c.t1 c.t2).length) (hf : ∀ x t, fits (F.f.call2 x t).rshape [N, d] = false) (r : ρ) :
    npConstructF env g F c r = .error .valueError := by
  unfold npConstructF npConstructAL
  generalize mkGrid c.t1 c.t2 = grid at hk ⊢
  obtain ⟨t0, t1, ts, rfl⟩ := two_points hk
  simp only [if_pos hdet]
  apply bind_error
  rw [enumLoop, show ottoBodyA env .valueError g F c 0 t0 = ottoBody env c 0 t0 from by
      funext Z; simp [ottoBodyA, ottoBody],
    ottoBody_zero _ _ _ _ (by simp [zerosT_length]), pure_bind, enumLoop]
  apply bind_error
  exact ottoBodyA_one_bad _ _ _ _ hf _ _ (by split <;> simp [zerosT_length]) _

theorem torchConstructF_bad (env : Env ρ K) (g : NArr K) (F : AFns d N K) (c : Cfg d N M K) (grid : List K)
    (hgrid : torchGrid c.t1 c.t2 = .ok grid) (hk : 2 ≤ grid.length) (hd : c.deterministic = true ∨ 2 ≤ d)
    (hf : ∀ x t, fits (F.f.call2 x t).rshape [N, d] = false) (r : ρ) :
    torchConstructF env g F c r = .error .runtimeError := by
  unfold torchConstructF torchConstructAL
  rw [hgrid, RandM.liftM_ok, pure_bind]
  obtain ⟨t0, t1, ts, rfl⟩ := two_points hk
  by_cases hdet : c.deterministic = true
  · simp only [if_pos hdet]
    apply bind_error
    rw [enumLoop, show torchOttoBodyA env .runtimeError g F c 0 t0 = torchOttoBody env c 0 t0 from by
        funext Z; simp [torchOttoBodyA, torchOttoBody],
      torchOttoBody_zero _ _ _ _ (by simp [zerosT_length]), pure_bind, enumLoop]
    apply bind_error
    exact torchOttoBodyA_one_bad _ _ _ _ hf _ _ (by split <;> simp [zerosT_length]) _
  · simp only [if_neg hdet]
    apply bind_error
    have hd2 : 2 ≤ d := hd.resolve_left hdet
    rw [enumLoop]
    have hz : torchStochBodyA env PyErr.runtimeError g F c 0 t0 (zerosT d N (t0 :: t1 :: ts).length)
        = pure ((zerosT d N ((t1 :: ts).length + 1)).set 0 (stochInit N c.y1)) :=
      stochBody_zero env c t0 _ hd2
    rw [hz, pure_bind, enumLoop]
    apply bind_error
    exact torchStochBodyA_one_bad _ _ _ _ hf _ _ (by simp [zerosT_length]) _

theorem npConstructF_stoch_bad (env : Env ρ K) (g : NArr K) (F : AFns d N K) (c : Cfg d N M K)
    (hdet : c.deterministic = false) (hd : 2 ≤ d) (hN : 0 < N) (f1 : (Fin d → K) → NArr K) (hf1 : F.f.call1 = some f1)
    (hk : 2 ≤ (mkGrid c.t1 c.t2).length) (hf : ∀ x, fits (f1 x).rshape [d] = false) (r : ρ) :
    npConstructF env g F c r = .error .valueError := by
  unfold npConstructF npConstructAL
  generalize mkGrid c.t1 c.t2 = grid at hk ⊢
  obtain ⟨t0, t1, ts, rfl⟩ := two_points hk
  simp only [hdet, Bool.false_eq_true, if_false]
  apply bind_error
  rw [enumLoop]
  have hz : stochBodyA env PyErr.valueError g F c 0 t0 (zerosT d N (t0 :: t1 :: ts).length)
      = pure ((zerosT d N ((t1 :: ts).length + 1)).set 0 (stochInit N c.y1)) :=
    stochBody_zero env c t0 _ hd
  rw [hz, pure_bind, enumLoop]
  apply bind_error
  unfold stochBodyA
  rw [if_neg (by omega)]
  apply bind_error
  unfold stochMoveA
  obtain ⟨n, rfl⟩ : ∃ n, N = n + 1 := ⟨N - 1, by omega⟩
  rw [forFin]
  apply bind_error
  rw [show ((1 : Nat) : Int) - 1 = ((0 : Nat) : Int) from rfl, pyGet_nat _ (by simp [zerosT_length]),
    RandM.liftM_ok, pure_bind]
  simp only [hf1]
  refine bind_total_error (normalVec_total env _ d) (fun a r => ?_) r
  simp only [stochA_bad (hf _), RandM.liftM_error, RandM.raise_bind, RandM.raise_app]

/-- The second iteration raises when the values of `U` have a bad shape. -/
theorem ottoBodyA_one_badU (env : Env ρ K) {e : PyErr} {g : NArr K} {F : AFns d N K} (c : Cfg d N M K)
    (hg : BroadcastsTo g.rshape [N, d]) (hf : ∀ x t, BroadcastsTo (F.f.call2 x t).rshape [N, d])
    (hr : c.reweight = true) (U : AConstraint d N K) (hU : F.U = some U)
    (hu : ∀ x t, fits (U.call2 x t).rshape [N] = false) (tt : K) (Z : Traj d N K) (hl : 1 < Z.length) (r : ρ) :
    ottoBodyA env e g F c 1 tt Z r = .error e := by
  have h1 := fun x t xi => noisyA_fit (isMat_coeff hg) (isMat_coeff (hf x t)) e x xi
  unfold ottoBodyA
  rw [if_neg (by omega), if_pos rfl]
  rw [show ((1 : Nat) : Int) - 1 = ((0 : Nat) : Int) from rfl, pyGet_nat _ (by omega), RandM.liftM_ok]
  simp only [pure_bind, bind_assoc]
  refine bind_total_error (normalMat_total env _ d N) (fun a r => ?_) r
  simp only [h1, noisyG_fit (isMat_coeff hg), RandM.liftM_ok, pure_bind]
  rw [setSlice_nat _ hl _, RandM.liftM_ok, pure_bind]
  simp only [hr, show decide (0 < 1) = true from rfl, Bool.and_true, if_true]
  rw [pyGet_nat _ (by simpa using hl), RandM.liftM_ok, pure_bind]
  have h2 : ∀ x t, toVec e N (U.call2 x t) = .error e := fun x t => by simp [toVec, hu x t]
  simp only [ottoReweightA, hU, h2, Except.error_bind', RandM.liftM_error, RandM.raise_bind, RandM.raise_app]

theorem npConstructF_badU (env : Env ρ K) {g : NArr K} {F : AFns d N K} (c : Cfg d N M K) (hdet : c.deterministic = true)
    (hg : BroadcastsTo g.rshape [N, d]) (hf : ∀ x t, BroadcastsTo (F.f.call2 x t).rshape [N, d])
    (hr : c.reweight = true) (U : AConstraint d N K) (hU : F.U = some U)
    (hk : 2 ≤ (mkGrid c.t1 c.t2).length) (hu : ∀ x t, fits (U.call2 x t).rshape [N] = false) (r : ρ) :
    npConstructF env g F c r = .error .valueError := by
  unfold npConstructF npConstructAL
  generalize mkGrid c.t1 c.t2 = grid at hk ⊢
  obtain ⟨t0, t1, ts, rfl⟩ := two_points hk
  simp only [if_pos hdet]
  apply bind_error
  rw [enumLoop, show ottoBodyA env .valueError g F c 0 t0 = ottoBody env c 0 t0 from by
      funext Z; simp [ottoBodyA, ottoBody],
    ottoBody_zero _ _ _ _ (by simp [zerosT_length]), pure_bind, enumLoop]
  apply bind_error
  exact ottoBodyA_one_badU _ _ hg hf hr U hU hu _ _ (by split <;> simp [zerosT_length]) _

theorem torchOttoBodyA_one_badU (env : Env ρ K) {e : PyErr} {g : NArr K} {F : AFns d N K} (c : Cfg d N M K)
    (hg : BroadcastsTo g.rshape [N, d]) (hf : ∀ x t, BroadcastsTo (F.f.call2 x t).rshape [N, d])
    (hr : c.reweight = true) (U : AConstraint d N K) (hU : F.U = some U)
    (hu : ∀ x t, fits (U.call2 x t).rshape [N] = false) (tt : K) (Z : Traj d N K) (hl : 1 < Z.length) (r : ρ) :
    torchOttoBodyA env e g F c 1 tt Z r = .error e := by
  have h1 := fun x t xi => noisyA_fit (isMat_coeff hg) (isMat_coeff (hf x t)) e x xi
  unfold torchOttoBodyA
  rw [if_neg (by omega), if_pos rfl]
  rw [show ((1 : Nat) : Int) - 1 = ((0 : Nat) : Int) from rfl, pyGet_nat _ (by omega), RandM.liftM_ok]
  simp only [pure_bind, bind_assoc]
  refine bind_total_error (normalMat_total env _ d N) (fun a r => ?_) r
  simp only [h1, noisyG_fit (isMat_coeff hg), RandM.liftM_ok, pure_bind]
  rw [setSlice_nat _ hl _, RandM.liftM_ok, pure_bind]
  simp only [hr, show decide (0 < 1) = true from rfl, Bool.and_true, if_true, hU]
  rw [pyGet_nat _ (by simpa using hl), RandM.liftM_ok, pure_bind]
  have h2 : ∀ x t, toVec e N (U.call2 x t) = .error e := fun x t => by simp [toVec, hu x t]
  simp only [h2, RandM.liftM_error, RandM.raise_bind, RandM.raise_app]

theorem torchStochBodyA_one_badU (env : Env ρ K) {e : PyErr} {g : NArr K} {F : AFns d N K} (c : Cfg d N M K)
    (hg : BroadcastsTo g.rshape [N, d]) (hf : ∀ x t, BroadcastsTo (F.f.call2 x t).rshape [N, d])
    (hr : c.reweight = true) (U : AConstraint d N K) (hU : F.U = some U) (u : Mat d N K → NArr K) (hu1 : U.call1 = some u)
    (hu : ∀ x, fits (u x).rshape [N] = false) (tt : K) (Z : Traj d N K) (hl : 1 < Z.length) (r : ρ) :
    torchStochBodyA env e g F c 1 tt Z r = .error e := by
  have h1 := fun x t xi => noisyA_fit (isMat_coeff hg) (isMat_coeff (hf x t)) e x xi
  unfold torchStochBodyA
  rw [if_neg (by omega)]
  rw [show ((1 : Nat) : Int) - 1 = ((0 : Nat) : Int) from rfl, pyGet_nat _ (by omega), RandM.liftM_ok]
  simp only [pure_bind, bind_assoc]
  refine bind_total_error (normalMat_total env _ d N) (fun a r => ?_) r
  simp only [h1, noisyG_fit (isMat_coeff hg), RandM.liftM_ok, pure_bind]
  rw [setSlice_nat _ hl _, RandM.liftM_ok, pure_bind]
  simp only [hr, if_true, hU, hu1]
  rw [pyGet_nat _ (by simpa using hl), RandM.liftM_ok, pure_bind]
  have h2 : ∀ x, toVec e N (u x) = .error e := fun x => by simp [toVec, hu x]
  simp only [h2, RandM.liftM_error, RandM.raise_bind, RandM.raise_app]

theorem torchConstructF_badU (env : Env ρ K) {g : NArr K} {F : AFns d N K} (c : Cfg d N M K) (grid : List K)
    (hgrid : torchGrid c.t1 c.t2 = .ok grid) (hk : 2 ≤ grid.length)
    (hg : BroadcastsTo g.rshape [N, d]) (hf : ∀ x t, BroadcastsTo (F.f.call2 x t).rshape [N, d])
    (hr : c.reweight = true) (U : AConstraint d N K) (hU : F.U = some U)
    (hu : (c.deterministic = true ∧ ∀ x t, fits (U.call2 x t).rshape [N] = false) ∨
      (c.deterministic = false ∧ 2 ≤ d ∧ ∃ u, U.call1 = some u ∧ ∀ x, fits (u x).rshape [N] = false)) (r : ρ) :
    torchConstructF env g F c r = .error .runtimeError := by
  unfold torchConstructF torchConstructAL
  rw [hgrid, RandM.liftM_ok, pure_bind]
  obtain ⟨t0, t1, ts, rfl⟩ := two_points hk
  rcases hu with ⟨hdet, hu⟩ | ⟨hdet, hd2, u, hu1, hu⟩
  · simp only [if_pos hdet]
    apply bind_error
    rw [enumLoop, show torchOttoBodyA env .runtimeError g F c 0 t0 = torchOttoBody env c 0 t0 from by
        funext Z; simp [torchOttoBodyA, torchOttoBody],
      torchOttoBody_zero _ _ _ _ (by simp [zerosT_length]), pure_bind, enumLoop]
    apply bind_error
    exact torchOttoBodyA_one_badU _ _ hg hf hr U hU hu _ _ (by split <;> simp [zerosT_length]) _
  · simp only [hdet, Bool.false_eq_true, if_false]
    apply bind_error
    rw [enumLoop]
    have hz : torchStochBodyA env PyErr.runtimeError g F c 0 t0 (zerosT d N (t0 :: t1 :: ts).length)
        = pure ((zerosT d N ((t1 :: ts).length + 1)).set 0 (stochInit N c.y1)) :=
      stochBody_zero env c t0 _ hd2
    rw [hz, pure_bind, enumLoop]
    apply bind_error
    exact torchStochBodyA_one_badU _ _ hg hf hr U hU u hu1 hu _ _ (by simp [zerosT_length]) _

/-- Numpy stochastic: values of `U` of a bad shape. -/
theorem npConstructF_stoch_badU (env : Env ρ K) (g : NArr K) (F : AFns d N K) (c : Cfg d N M K)
    (hdet : c.deterministic = false) (hr : c.reweight = true) (U : AConstraint d N K) (hU : F.U = some U)
    (u : Mat d N K → NArr K) (hu1 : U.call1 = some u) (hk : 2 ≤ (mkGrid c.t1 c.t2).length)
    (hu : ∀ x, fits (u x).rshape [N] = false) (r : ρ) (p : Obj d N M K × ρ) :
    npConstructF env g F c r ≠ .ok p := by
  unfold npConstructF npConstructAL
  generalize mkGrid c.t1 c.t2 = grid at hk ⊢
  obtain ⟨t0, t1, ts, rfl⟩ := two_points hk
  simp only [hdet, Bool.false_eq_true, if_false]
  refine never_bind (fun r p => ?_) r p
  rw [enumLoop]
  refine bind_never (fun Z r p => ?_) r p
  rw [enumLoop]
  refine never_bind (fun r p => ?_) r p
  unfold stochBodyA
  rw [if_neg (by omega)]
  refine bind_never (fun Z r p => ?_) r p
  simp only [hr, if_true]
  refine bind_never (fun x r p => ?_) r p
  have h2 : ∀ x, toVec PyErr.valueError N (u x) = .error .valueError := fun x => by simp [toVec, hu x]
  simp only [stochReweightA, hU, hu1, h2, Except.error_bind', RandM.liftM_error, RandM.raise_bind, RandM.raise_app]
  intro h; cases h

end DPFC
