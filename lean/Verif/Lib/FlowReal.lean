import Verif.Lib.Flow
import Verif.Lib.ScoreReal
import Verif.Spec.Flow

/-! The building blocks of the flows over the reals: all are total and have closed forms. -/

namespace DPFC
open Spec

variable {ρ : Type} {N M d : Nat}

theorem amin_real {n : Nat} (v : Fin (n+1) → ℝ) : NumOps.amin v = lo v := by
  rw [real_amin, lo, Finset.inf'_univ_eq_ciInf]

theorem amax_real {n : Nat} (v : Fin (n+1) → ℝ) : NumOps.amax v = hi v := by
  rw [real_amax, hi, Finset.sup'_univ_eq_ciSup]

theorem npMin_real (hN : 0 < N) (v : Fin N → ℝ) : npMin v = .ok (lo v) := by
  cases N with
  | zero => omega
  | succ n => rw [npMin, amin_real]

theorem npMax_real (hN : 0 < N) (v : Fin N → ℝ) : npMax v = .ok (hi v) := by
  cases N with
  | zero => omega
  | succ n => rw [npMax, amax_real]

theorem pyMax_real (a b : ℝ) : pyMax a b = max a b := by
  unfold pyMax
  by_cases h : a < b
  · rw [if_pos (by simpa using h), max_eq_right h.le]
  · rw [if_neg (by simpa using h), max_eq_left (not_lt.1 h)]

theorem pyMin_real (a b : ℝ) : pyMin a b = min a b := by
  unfold pyMin
  by_cases h : b < a
  · rw [if_pos (by simpa using h), min_eq_right h.le]
  · rw [if_neg (by simpa using h), min_eq_left (not_lt.1 h)]

theorem npStd_real (v : Fin N → ℝ) : npStd v = sdev v := by
  simp [npStd, sdev, variance, avg]

theorem lengthScales_real (x : Mat d N ℝ) : lengthScales x = fun k => 2 * sdev (x k) := by
  funext k
  simp [lengthScales, npStd_real]

theorem boxOf_real (hN : 0 < N) (x : Mat d N ℝ) : boxOf x = .ok fun a => (lo (x a), hi (x a)) := by
  unfold boxOf
  rw [seqM_except_ok]
  intro i
  simp [npMin_real hN, npMax_real hN]

theorem interBox_real (hN : 0 < N) (z b : Mat d N ℝ) :
    interBox z b = .ok fun a => (max (lo (z a)) (lo (b a)), min (hi (z a)) (hi (b a))) := by
  unfold interBox
  rw [seqM_except_ok]
  intro i
  simp [npMin_real hN, npMax_real hN, pyMax_real, pyMin_real]

theorem npInducing_gen (env : Env ρ ℝ) : ∀ (d : Nat) (bnds : Fin d → ℝ × ℝ) (r : ρ),
    npInducing env bnds M r = .ok (fun a m => (bnds a).1 + ((bnds a).2 - (bnds a).1) * unifs env d M r a m,
      unifsNext env d M r)
  | 0, bnds, r => by
    simp only [npInducing, seqM, RandM.pure_app]
    congr 2
    funext a; exact a.elim0
  | d+1, bnds, r => by
    have ih := npInducing_gen env d (fun i => bnds i.succ) (drawVec env.uniform M r).2
    unfold npInducing at ih ⊢
    rw [seqM, RandM.bind_app]
    simp only [npUniform, real_isFinite, if_true]
    rw [RandM.bind_app, ih]
    simp only [RandM.pure_app]
    congr 2
    funext a m
    refine Fin.cases ?_ (fun i => ?_) a
    · rfl
    · rfl

theorem liftM_ok_app {α : Type} {x : Except PyErr α} {a : α} (h : x = .ok a) (r : ρ) :
    (liftM x : RandM ρ α) r = .ok (a, r) := by rw [h]; rfl

theorem liftSeq_real {α : Type} {n : Nat} {f : Fin n → Except PyErr α} {v : Fin n → α}
    (h : ∀ i, f i = .ok (v i)) (r : ρ) :
    seqM n (fun i => (liftM (f i) : RandM ρ α)) r = .ok (v, r) := by
  rw [← liftM_seqM, seqM_except_ok.2 h]; rfl

theorem milli_gt : (-1/1000 : ℝ) < 1/1000 := by norm_num

theorem particle_eq_tr (x : Mat d N ℝ) : particle x = tr x := rfl

theorem plotGuard_real (bn : Fin d → ℝ × ℝ) : plotGuard bn = .ok bn := plotGuard_finite (.inl rfl)

theorem optGuard_real (pl : Bool) (bn : Fin d → ℝ × ℝ) :
    (if pl = true then plotGuard bn else .ok bn) = .ok bn := optGuard_finite pl (.inl rfl)

theorem scoreAtParticles_real (pl : Bool) (env : Env ρ ℝ) (hN : 0 < N) (x : Mat d N ℝ) (r : ρ) :
    scoreAtParticles pl env M "RBF" x r
      = .ok (cloudScore x (inducing (fun a => lo (x a)) (fun a => hi (x a)) (unifs env d M r)) x,
          unifsNext env d M r) := by
  unfold scoreAtParticles
  rw [boxOf_real hN]
  simp only [RandM.liftM_ok, pure_bind, optGuard_real]
  change ((npInducing env (fun a => (lo (x a), hi (x a))) M) >>= _) r = _
  rw [RandM.bind_app, npInducing_gen]
  simp only
  apply liftSeq_real
  intro a
  rw [real_lit_milli, scoreSep_real milli_gt _ _ _ _ a (by rw [Int.add_sub_cancel]; exact pyIdx_nat d a.2)]
  simp only [lengthScales_real]
  rfl

theorem densityAt_real (env : Env ρ ℝ) (hN : 0 < N) (z b : Mat d N ℝ) (r : ρ) :
    densityAt env M "RBF" z b r
      = .ok (cloudScore z (inducing (fun a => max (lo (z a)) (lo (b a)))
            (fun a => min (hi (z a)) (hi (b a))) (unifs env d M r)) b,
          unifsNext env d M r) := by
  unfold densityAt
  rw [interBox_real hN]
  simp only [RandM.liftM_ok, pure_bind, plotGuard_real]
  change ((npInducing env (fun a => (max (lo (z a)) (lo (b a)), min (hi (z a)) (hi (b a)))) M)
    >>= _) r = _
  rw [RandM.bind_app, npInducing_gen]
  simp only
  apply liftSeq_real
  intro a
  rw [real_lit_milli, scoreSepFn_real milli_gt _ _ _ _ a
    (by rw [Int.add_sub_cancel]; exact pyIdx_nat d a.2)]
  simp only [lengthScales_real]
  rfl

theorem bwDensityAt_real (env : Env ρ ℝ) (hN : 0 < N) (z b : Mat d N ℝ) (r : ρ) :
    bwDensityAt env M "RBF" z b r
      = .ok (cloudScore b (inducing (fun a => max (lo (z a)) (lo (b a)))
            (fun a => min (hi (z a)) (hi (b a))) (unifs env d M r)) b,
          unifsNext env d M r) := by
  unfold bwDensityAt
  rw [interBox_real hN]
  change ((npInducing env (fun a => (max (lo (z a)) (lo (b a)), min (hi (z a)) (hi (b a)))) M)
    >>= _) r = _
  rw [RandM.bind_app, npInducing_gen]
  simp only
  apply liftSeq_real
  intro a
  rw [real_lit_milli, scoreSep_real milli_gt _ _ _ _ a
    (by rw [Int.add_sub_cancel]; exact pyIdx_nat d a.2)]
  simp only [lengthScales_real]
  rfl

theorem dtc_real : (dtc : ℝ) = 1/1000 := by simp [dtc]

theorem normalMat_real (env : Env ρ ℝ) (s : ℝ) (r : ρ) :
    normalMat env s d N r = .ok (fun a n => s * normals env d N r a n, normalsNext env d N r) := by
  simp [normalMat]

theorem noisyStep_real (env : Env ρ ℝ) (g : ℝ) (f : Drift d N ℝ) (x : Mat d N ℝ) (t : ℝ) (r : ρ) :
    noisyStep env g f x t r = .ok (fun a n => x a n + 1/1000 * f.call2 x t a n
      + g * (Real.sqrt (1/1000) * normals env d N r a n), normalsNext env d N r) := by
  unfold noisyStep
  rw [RandM.bind_app, normalMat_real]
  simp only [RandM.pure_app, dtc_real, real_sqrt]

theorem fSeperate_real (env : Env ρ ℝ) (hN : 0 < N) (g : ℝ) (f : Drift d N ℝ) (x : Mat d N ℝ) (t : ℝ)
    (r : ρ) :
    fSeperate pl env M "RBF" g f x t r = .ok (fun a n => f.call2 x t a n - g^2/2 *
      cloudScore x (inducing (fun a => lo (x a)) (fun a => hi (x a)) (unifs env d M r)) x a n,
        unifsNext env d M r) := by
  unfold fSeperate
  rw [RandM.bind_app, scoreAtParticles_real pl env hN]
  simp only [RandM.pure_app, real_sq, real_lit_half]
  congr 2
  funext a n
  ring

theorem ottoStep_real (pl : Bool) (env : Env ρ ℝ) (hN : 0 < N) (g : ℝ) (f : Drift d N ℝ) (x : Mat d N ℝ) (t : ℝ)
    (r : ρ) :
    ottoStep pl env M "RBF" g f x t r = .ok (fun a n => x a n + 1/1000 * (f.call2 x t a n - g^2/2 *
      cloudScore x (inducing (fun a => lo (x a)) (fun a => hi (x a)) (unifs env d M r)) x a n),
        unifsNext env d M r) := by
  unfold ottoStep
  rw [RandM.bind_app, fSeperate_real env hN]
  simp only [RandM.pure_app, dtc_real]

/-- The computation succeeds from every random state. -/
def Total {α : Type} (x : RandM ρ α) : Prop := ∀ r, ∃ a r', x r = .ok (a, r')

theorem Total.bind {α β : Type} {x : RandM ρ α} {f : α → RandM ρ β} (h : Total x)
    (hf : ∀ a, Total (f a)) : Total (x >>= f) := by
  intro r
  obtain ⟨a, r1, h1⟩ := h r
  obtain ⟨b, r2, h2⟩ := hf a r1
  exact ⟨b, r2, RandM.bind_ok.2 ⟨a, r1, h1, h2⟩⟩

theorem Total.pure {α : Type} (a : α) : Total (Pure.pure a : RandM ρ α) := fun r => ⟨a, r, rfl⟩

theorem Total.chain {τ S : Type} {step : Nat → τ → S → RandM ρ S}
    (h : ∀ i t x, Total (step i t x)) : ∀ (ts : List τ) (i : Nat) (x : S), Total (chain step i ts x)
  | [], _, _ => Total.pure _
  | t :: ts, i, x => by
    rw [DPFC.chain]
    exact (h i t x).bind fun y => (Total.chain h ts (i+1) y).bind fun ys => Total.pure _

/-- The transport solver never fails. -/
def EmdTotal (env : Env ρ ℝ) : Prop :=
  ∀ (n : Nat) (a b : Fin n → ℝ) (D : Mat n n ℝ), ∃ T, env.emd a b D = .ok T

theorem ottoSlice_bind {K : Type} [Add K] [Sub K] [Mul K] [Div K] [Neg K] [NumOps K]
    (env : Env ρ K) (c : Cfg d N M K) (i : Nat) (t : K) (x : Mat d N K) :
    ottoSlice env c i t x = ((if i = 1 then noisyStep env c.g c.f x (t - dtc)
      else ottoStep true env M (effKern c.kern) c.g c.f x (t - dtc)) >>= fun raw =>
        if c.reweight then (liftM (ottoReweight env c.U raw t) : RandM ρ (Mat d N K)) else pure raw) := by
  unfold ottoSlice
  by_cases h : i = 1
  · simp only [if_pos h]
  · simp only [if_neg h]

theorem ottoSlice_total (env : Env ρ ℝ) (c : Cfg d N M ℝ) (hN : 0 < N)
    (hk : effKern c.kern = "RBF") (hU : c.reweight = true → c.U ≠ none ∧ EmdTotal env)
    (i : Nat) (t : ℝ) (x : Mat d N ℝ) : Total (ottoSlice env c i t x) := by
  rw [ottoSlice_bind]
  refine Total.bind ?_ fun raw => ?_
  · split
    · exact fun r => ⟨_, _, noisyStep_real env _ _ _ _ r⟩
    · rw [hk]; exact fun r => ⟨_, _, ottoStep_real _ env hN _ _ _ _ r⟩
  · split
    · rename_i hr
      obtain ⟨h1, h2⟩ := hU hr
      intro r
      cases hu : c.U with
      | none => exact absurd hu h1
      | some U =>
        obtain ⟨T, hT⟩ := h2 N (normWeights fun n => NumOps.exp (U.call2 raw t n * dtc))
          (fun _ => lit 1 1 / lit N 1) (fun i j => if i = j then lit 0 1 else
            NumOps.sqrt (NumOps.sum fun k => sq (tr raw i k - tr raw j k)))
        exact ⟨_, r, liftM_ok_app (a := mm raw fun i j => T i j * lit N 1)
          (by simp only [ottoReweight, reweightOT, hT, Except.ok_bind']) r⟩
    · exact Total.pure _

theorem trueSlice_total (env : Env ρ ℝ) (c : Cfg d N M ℝ) (hN : 0 < N)
    (hk : effKern c.kern = "RBF") (hf : c.fTrue ≠ none)
    (i : Nat) (t : ℝ) (x : Mat d N ℝ) : Total (trueSlice env c i t x) := by
  unfold trueSlice
  cases h : c.fTrue with
  | none => exact absurd h hf
  | some ft =>
    simp only
    split
    · exact fun r => ⟨_, _, noisyStep_real env _ _ _ _ r⟩
    · rw [hk]; exact fun r => ⟨_, _, ottoStep_real _ env hN _ _ _ _ r⟩

theorem npBack_total (env : Env ρ ℝ) (c : Cfg d N M ℝ) (hN : 0 < N)
    (hk : effKern c.kern = "RBF") (i : Nat) (zt : Mat d N ℝ × ℝ) (b : Mat d N ℝ) :
    Total (npBack env c i zt b) := by
  unfold npBack backStep
  rw [hk]
  refine Total.bind (fun r => ⟨_, _, densityAt_real env hN _ _ r⟩) fun gro => ?_
  split
  · exact Total.bind (fun r => ⟨_, _, normalMat_real env _ r⟩) fun _ => Total.pure _
  · exact Total.bind (fun r => ⟨_, _, bwDensityAt_real env hN _ _ r⟩) fun _ => Total.pure _

theorem stochSlice_total (env : Env ρ ℝ) (c : Cfg d N M ℝ) (hf : c.f.call1 ≠ none)
    (hr : c.reweight = false) (i : Nat) (t : ℝ) (x : Mat d N ℝ) : Total (stochSlice env c i t x) := by
  unfold stochSlice stochRaw
  have hc : ∀ i, Total (stochCol env c x i) := by
    intro i
    unfold stochCol
    cases h : c.f.call1 with
    | none => exact absurd h hf
    | some f1 => exact Total.bind (fun r => ⟨_, _, rfl⟩) fun _ => Total.pure _
  have hs : ∀ (n : Nat) (F : Fin n → RandM ρ (Fin d → ℝ)), (∀ i, Total (F i)) → Total (seqM n F) := by
    intro n
    induction n with
    | zero => exact fun F _ => Total.pure _
    | succ n ih =>
      intro F hF
      rw [seqM]
      exact (hF 0).bind fun a => (ih _ fun i => hF i.succ).bind fun _ => Total.pure _
  refine Total.bind ((hs N _ hc).bind fun _ => Total.pure _) fun raw => ?_
  rw [if_neg (by simp [hr])]
  exact Total.pure _

/-- In exact arithmetic a deterministic numpy construction never fails on a grid of at least two
points. -/
theorem construct_det_total (env : Env ρ ℝ) (c : Cfg d N M ℝ) (hN : 0 < N)
    (hdet : c.deterministic = true) (hg : 2 ≤ (mkGrid c.t1 c.t2).length)
    (hk : effKern c.kern = "RBF") (hU : c.reweight = true → c.U ≠ none ∧ EmdTotal env)
    (hf : c.reweight = true → c.brownBridge = true → c.fTrue ≠ none) : Total (construct env c) := by
  intro r
  obtain ⟨ys, r1, h1⟩ := Total.chain (ottoSlice_total env c hN hk hU) (mkGrid c.t1 c.t2).tail 1
    (pt N c.y1) r
  have ht : ∃ zt r2, trueFlow env c (mkGrid c.t1 c.t2) r1 = .ok (zt, r2) := by
    unfold trueFlow
    split
    · rename_i h
      simp only [Bool.and_eq_true] at h
      exact (Total.chain (trueSlice_total env c hN hk (hf h.1 h.2)) _ 1 _).bind
        (fun _ => Total.pure _) r1
    · exact ⟨_, _, rfl⟩
  obtain ⟨zt, r2, h2⟩ := ht
  obtain ⟨bs, r3, h3⟩ := Total.chain (npBack_total env c hN hk)
    (visits (pt N c.y1 :: ys) (mkGrid c.t1 c.t2)) 1 (pt N c.y2) r2
  exact ⟨_, r3, (construct_det_iff env c hdet hg r r3 _).2 ⟨ys, r1, zt, r2, bs, h1, h2, h3, rfl⟩⟩

/-- In exact arithmetic a stochastic numpy construction without reweighting never fails if the drift
can be called without time (`d ≥ 2`). -/
theorem construct_stoch_total (env : Env ρ ℝ) (c : Cfg d N M ℝ) (hN : 0 < N) (hd : 2 ≤ d)
    (hdet : c.deterministic = false) (hg : 2 ≤ (mkGrid c.t1 c.t2).length)
    (hk : effKern c.kern = "RBF") (hr : c.reweight = false) (hf : c.f.call1 ≠ none) :
    Total (construct env c) := by
  intro r
  obtain ⟨ys, r1, h1⟩ := Total.chain (stochSlice_total env c hf hr) (mkGrid c.t1 c.t2).tail 1
    (stochInit N c.y1) r
  obtain ⟨bs, r3, h3⟩ := Total.chain (npBack_total env c hN hk)
    (visits (stochInit N c.y1 :: (ys.dropLast ++ [pt N c.y2])) (mkGrid c.t1 c.t2)) 1 (pt N c.y2) r1
  exact ⟨_, r3, (construct_stoch_iff env c hdet hg hd r r3 _).2 ⟨ys, r1, bs, h1, h3, rfl⟩⟩

end DPFC
