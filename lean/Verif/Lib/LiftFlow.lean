import Verif.Lib.Lift
import Verif.Lib.Affine

/-! The flows of the numpy class on numbers `em x`. -/

set_option linter.unusedSectionVars false

namespace DPFC
open Spec

section
variable {K ρ : Type} [Add K] [Sub K] [Mul K] [Div K] [Neg K] [NumOps K]
variable {em : ℝ → K} {N M d n m p : ℕ}

namespace Lift

/-! ### Random numbers and sequences -/

theorem drawVec {α β : Type} (φ : α → β) {dr : ρ → α × ρ} {dr' : ρ → β × ρ}
    (hd : ∀ r, dr' r = (φ (dr r).1, (dr r).2)) : ∀ (n : ℕ) (r : ρ),
    DPFC.drawVec dr' n r = (fun i => φ ((DPFC.drawVec dr n r).1 i), (DPFC.drawVec dr n r).2)
  | 0, r => by
    simp only [DPFC.drawVec]
    congr 1; funext i; exact i.elim0
  | n+1, r => by
    simp only [DPFC.drawVec, hd, drawVec φ hd n]
    congr 1
    funext i
    cases i using Fin.cases <;> rfl

theorem liftM_map {α β : Type} (A : α → β) (x : Except PyErr α) :
    (liftM (x.map A) : RandM ρ β) = (do let y ← (liftM x : RandM ρ α); pure (A y)) := by
  cases x <;> rfl

/-- Both sequences do the same, up to `A`. -/
theorem seqM {α β : Type} (A : α → β) {f : Fin n → RandM ρ α} {f' : Fin n → RandM ρ β}
    (hf : ∀ i, f' i = (do let y ← f i; pure (A y))) :
    DPFC.seqM n f' = (do let w ← DPFC.seqM n f; pure fun i => A (w i)) := by
  rw [show f' = fun i => (do let y ← f i; pure (A y)) from funext hf, seqM_map]

theorem seqME {α β : Type} (A : α → β) : ∀ {n : ℕ} {f : Fin n → Except PyErr α}
    {f' : Fin n → Except PyErr β} (_ : ∀ i, f' i = (f i).map A),
    DPFC.seqM n f' = (DPFC.seqM n f).map fun w i => A (w i)
  | 0, f, f', _ => by
    simp only [DPFC.seqM, Except.pure_eq, Except.map]
    congr 1; funext i; exact i.elim0
  | n+1, f, f', hf => by
    rw [DPFC.seqM, DPFC.seqM, hf 0]
    cases f 0 with
    | error e => rfl
    | ok a =>
      simp only [Except.map, Except.ok_bind']
      rw [seqME (n := n) A (fun i => hf i.succ)]
      cases DPFC.seqM n (fun i => f i.succ) with
      | error e => rfl
      | ok w =>
        simp only [Except.map, Except.ok_bind', Except.pure_eq]
        congr 1; funext i
        cases i using Fin.cases <;> rfl

/-- Both runs do the same, up to `A`, as long as the visited states satisfy `P`. -/
theorem chain {τ τ' S S' : Type} {step : ℕ → τ → S → RandM ρ S} {step' : ℕ → τ' → S' → RandM ρ S'}
    (φ : τ → τ') (A : S → S') (P : ℕ → τ → S → Prop)
    (h : ∀ i t x, P i t x → step' i (φ t) (A x) = (do let y ← step i t x; pure (A y))) :
    ∀ (ts : List τ) (i : ℕ) (x : S) (ys : List S) (r r' : ρ),
      DPFC.chain step i ts x r = .ok (ys, r') →
      (∀ j t y, ts[j]? = some t → (x :: ys)[j]? = some y → P (i+j) t y) →
      DPFC.chain step' i (ts.map φ) (A x) r = .ok (ys.map A, r')
  | [], i, x, ys, r, r', hr, hP => by
    simp only [DPFC.chain, RandM.pure_ok] at hr
    obtain ⟨rfl, rfl⟩ := hr
    rfl
  | t :: ts, i, x, ys, r, r', hr, hP => by
    rw [DPFC.chain, RandM.bind_ok] at hr
    obtain ⟨y, r1, h1, h2⟩ := hr
    rw [RandM.bind_ok] at h2
    obtain ⟨ys', r2, h2, h3⟩ := h2
    rw [RandM.pure_ok] at h3
    obtain ⟨rfl, rfl⟩ := h3
    rw [List.map_cons, DPFC.chain, RandM.bind_ok]
    refine ⟨A y, r1, ?_, ?_⟩
    · rw [h i t x (hP 0 t x rfl rfl), RandM.bind_ok]
      exact ⟨y, r1, h1, rfl⟩
    · rw [RandM.bind_ok]
      refine ⟨ys'.map A, r2, chain φ A P h ts (i+1) y ys' r1 r2 h2 fun j t' y' e1 e2 => ?_, rfl⟩
      have := hP (j+1) t' y' e1 e2
      rwa [show i + (j+1) = i + 1 + j by omega] at this

section
variable (h : Embeds em)
include h

omit h in
/-- Bounds of numbers. -/
def _root_.DPFC.emB (em : ℝ → K) (b : Fin d → ℝ × ℝ) : Fin d → K × K := fun a => (em (b a).1, em (b a).2)

theorem npUniform {env : Env ρ ℝ} {env' : Env ρ K} (he : SameEnv em env env') (lo hi : ℝ) (M : ℕ) :
    DPFC.npUniform env' (em lo) (em hi) M
      = (do let y ← DPFC.npUniform env lo hi M; pure (emV em y)) := by
  funext r
  rw [RandM.bind_app]
  simp only [DPFC.npUniform, h.sub, h.isFinite, real_isFinite, if_true]
  rw [drawVec em he.uniform]
  simp only [h.mul, h.add]
  rfl

theorem npInducing {env : Env ρ ℝ} {env' : Env ρ K} (he : SameEnv em env env') (b : Fin d → ℝ × ℝ) :
    DPFC.npInducing env' (emB em b) M
      = (do let y ← DPFC.npInducing env b M; pure (emM em y)) :=
  seqM (emV em) fun i => npUniform h he _ _ M

theorem normalMat {env : Env ρ ℝ} {env' : Env ρ K} (he : SameEnv em env env') (s : ℝ) (d n : ℕ) :
    DPFC.normalMat env' (em s) d n = (do let y ← DPFC.normalMat env s d n; pure (emM em y)) := by
  funext r
  rw [RandM.bind_app]
  simp only [DPFC.normalMat]
  rw [drawVec (fun v : Fin n → ℝ => fun i => em (v i)) (fun r => drawVec em he.normal n r)]
  simp only [h.mul, lit h, h.add]
  rfl

theorem boxOf (x : Mat d N ℝ) : DPFC.boxOf (emM em x) = (DPFC.boxOf x).map (emB em) := by
  unfold DPFC.boxOf
  rw [seqME (fun b : ℝ × ℝ => (em b.1, em b.2))]
  · rfl
  intro i
  change (do
    let lo ← DPFC.npMin (emV em (x i))
    let hi ← DPFC.npMax (emV em (x i))
    Except.ok (lo, hi)) = _
  rw [npMin h, npMax h]
  cases DPFC.npMin (x i) with
  | error e => rfl
  | ok a => cases DPFC.npMax (x i) <;> rfl

theorem interBox (z b : Mat d N ℝ) :
    DPFC.interBox (emM em z) (emM em b) = (DPFC.interBox z b).map (emB em) := by
  unfold DPFC.interBox
  rw [seqME (fun b : ℝ × ℝ => (em b.1, em b.2))]
  · rfl
  intro i
  change (do
    let zlo ← DPFC.npMin (emV em (z i))
    let blo ← DPFC.npMin (emV em (b i))
    let zhi ← DPFC.npMax (emV em (z i))
    let bhi ← DPFC.npMax (emV em (b i))
    Except.ok (DPFC.pyMax zlo blo, DPFC.pyMin zhi bhi)) = _
  rw [npMin h, npMax h, npMin h, npMax h]
  cases DPFC.npMin (z i) with
  | error e => rfl
  | ok a =>
    cases DPFC.npMin (b i) with
    | error e => rfl
    | ok a' =>
      cases DPFC.npMax (z i) with
      | error e => rfl
      | ok c =>
        cases DPFC.npMax (b i) with
        | error e => rfl
        | ok c' => simp only [Except.map, Except.ok_bind', pyMax h, pyMin h]

theorem plotGuard (b : Fin d → ℝ × ℝ) :
    DPFC.plotGuard (emB em b) = (DPFC.plotGuard b).map (emB em) := by
  rw [plotGuard_real]
  unfold DPFC.plotGuard
  rw [if_pos]
  · rfl
  · simp only [emB, h.add]
    rw [sum h, h.isFinite]

theorem optGuard (pl : Bool) (b : Fin d → ℝ × ℝ) :
    (if pl then DPFC.plotGuard (emB em b) else .ok (emB em b) : Except PyErr (Fin d → K × K))
      = (if pl then DPFC.plotGuard b else .ok b : Except PyErr (Fin d → ℝ × ℝ)).map (emB em) := by
  cases pl
  · rfl
  · exact plotGuard h b

theorem lsne (x : Mat d N ℝ) (hx : Spread x) : LSne (.vec (DPFC.lengthScales x)) := by
  intro a
  rw [lengthScales_real]
  exact mul_ne_zero two_ne_zero (hx a)

theorem scoreAtParticles (pl : Bool) {env : Env ρ ℝ} {env' : Env ρ K} (he : SameEnv em env env')
    (hN : 0 < N) {kern : String} (hk : kern ≠ "periodic") (x : Mat d N ℝ) (hx : Spread x) :
    DPFC.scoreAtParticles pl env' M kern (emM em x)
      = (do let y ← DPFC.scoreAtParticles pl env M kern x; pure (emM em y)) := by
  unfold DPFC.scoreAtParticles
  rw [boxOf h, liftM_map]
  simp only [bind_assoc, pure_bind]
  congr 1; funext b
  rw [optGuard h, liftM_map]
  simp only [bind_assoc, pure_bind]
  congr 1; funext b
  rw [npInducing h he]
  simp only [bind_assoc, pure_bind]
  congr 1; funext S
  refine seqM (emV em) fun i => ?_
  have hs := scoreSep h (DPFC.tr x) (DPFC.tr S) (NumOps.lit 1 1000) hk (.vec (DPFC.lengthScales x))
    (lsne h x hx) (i.val + 1)
  rw [lengthScales h hN, lit h 1 1000, ← liftM_map, ← hs]
  rfl

theorem ottoStep (pl : Bool) {env : Env ρ ℝ} {env' : Env ρ K} (he : SameEnv em env env')
    (hN : 0 < N) {kern : String} (hk : kern ≠ "periodic") (g : ℝ) {f : Drift d N ℝ} {f' : Drift d N K}
    (hf : SameDrift em f f') (x : Mat d N ℝ) (hx : Spread x) (t : ℝ) :
    DPFC.ottoStep pl env' M kern (em g) f' (emM em x) (em t)
      = (do let y ← DPFC.ottoStep pl env M kern g f x t; pure (emM em y)) := by
  unfold DPFC.ottoStep DPFC.fSeperate
  rw [scoreAtParticles h pl he hN hk x hx]
  simp only [bind_assoc, pure_bind]
  congr 1; funext S
  congr 1; funext i j
  simp only [hf.call2]
  simp only [emM, lit h, dtc h, sq h, h.mul, h.sub, h.add]

theorem noisyStep {env : Env ρ ℝ} {env' : Env ρ K} (he : SameEnv em env env')
    (g : ℝ) {f : Drift d N ℝ} {f' : Drift d N K} (hf : SameDrift em f f') (x : Mat d N ℝ) (t : ℝ) :
    DPFC.noisyStep env' (em g) f' (emM em x) (em t)
      = (do let y ← DPFC.noisyStep env g f x t; pure (emM em y)) := by
  unfold DPFC.noisyStep
  have hs : (NumOps.sqrt DPFC.dtc : K) = em (NumOps.sqrt DPFC.dtc) := by
    rw [dtc h, sqrt h]; simp [DPFC.dtc]
  rw [hs, normalMat h he]
  simp only [bind_assoc, pure_bind]
  congr 1; funext xi
  congr 1; funext i j
  simp only [hf.call2]
  simp only [emM, dtc h, h.mul, h.add]

theorem normWeights (hN : 0 < N) (v : Fin N → ℝ) (hv : ∀ n, 0 < v n) :
    DPFC.normWeights (emV em v) = emV em (DPFC.normWeights v) := by
  have hs : (NumOps.sum v : ℝ) ≠ 0 := by
    have : (0:ℝ) < NumOps.sum v := Finset.sum_pos (fun i _ => hv i) ⟨⟨0, hN⟩, Finset.mem_univ _⟩
    exact this.ne'
  funext i
  simp only [DPFC.normWeights]
  rw [show NumOps.sum (emV em v) = em (NumOps.sum v) from sum h v]
  exact h.div _ _ hs

theorem reweightOT {env : Env ρ ℝ} {env' : Env ρ K} (he : SameEnv em env env') (hN : 0 < N)
    (s : Mat N d ℝ) (w : Fin N → ℝ) :
    DPFC.reweightOT env' (emM em s) (emV em w) = (DPFC.reweightOT env s w).map (emM em) := by
  have hn : (NumOps.lit N 1 : ℝ) ≠ 0 := by simp; omega
  unfold DPFC.reweightOT
  have hc : (fun i j : Fin N => if i = j then (NumOps.lit 0 1 : K) else
      NumOps.sqrt (NumOps.sum fun k => DPFC.sq (emM em s i k - emM em s j k)))
      = emM em (fun i j => if i = j then NumOps.lit 0 1 else
      NumOps.sqrt (NumOps.sum fun k => DPFC.sq (s i k - s j k))) := by
    funext i j
    simp only [emM, h.sub, sq h]
    split
    · exact lit h 0 1
    · rw [sum h, sqrt h]
      simp only [real_sum, real_sq]
      exact Finset.sum_nonneg fun i _ => sq_nonneg _
  have hb : (fun _ : Fin N => (NumOps.lit 1 1 / NumOps.lit N 1 : K))
      = emV em fun _ => NumOps.lit 1 1 / NumOps.lit N 1 := by
    funext i
    rw [lit h, lit h N 1, h.div _ _ hn]; rfl
  simp only [hc, hb, he.emd]
  cases env.emd w _ _ with
  | error e => rfl
  | ok T =>
    simp only [Except.map, Except.ok_bind']
    congr 1
    funext i j
    simp only [emM, lit h, h.mul]

theorem ottoReweight {env : Env ρ ℝ} {env' : Env ρ K} (he : SameEnv em env env') (hN : 0 < N)
    {U : Option (Constraint d N ℝ)} {U' : Option (Constraint d N K)}
    (hU : SameOpt (SameConstraint em) U U') (x : Mat d N ℝ) (t : ℝ) :
    DPFC.ottoReweight env' U' (emM em x) (em t) = (DPFC.ottoReweight env U x t).map (emM em) := by
  cases U with
  | none => cases U' with
    | none => rfl
    | some U' => exact hU.elim
  | some U => cases U' with
    | none => exact hU.elim
    | some U' =>
      simp only [DPFC.ottoReweight]
      have hw : (DPFC.normWeights fun n => NumOps.exp (U'.call2 (emM em x) (em t) n * DPFC.dtc))
          = emV em (DPFC.normWeights fun n => NumOps.exp (U.call2 x t n * DPFC.dtc)) := by
        rw [← normWeights h hN (fun n => NumOps.exp (U.call2 x t n * DPFC.dtc)) fun n => Real.exp_pos _]
        simp only [(show SameConstraint em U U' from hU).call2]
        congr 1
        funext n
        simp only [emV, dtc h, h.mul, exp h]
      rw [hw, tr, reweightOT h he hN]
      cases DPFC.reweightOT env (DPFC.tr x) _ with
      | error e => rfl
      | ok T => exact congrArg Except.ok (mm h x T)

theorem ottoSlice {env : Env ρ ℝ} {env' : Env ρ K} (he : SameEnv em env env')
    (hN : 0 < N) {c : Cfg d N M ℝ} {c' : Cfg d N M K} (hc : SameCfg em c c') (i : ℕ) (t : ℝ) (x : Mat d N ℝ)
    (hx : i ≠ 1 → Spread x) :
    DPFC.ottoSlice env' c' i (em t) (emM em x)
      = (do let y ← DPFC.ottoSlice env c i t x; pure (emM em y)) := by
  rw [ottoSlice_bind, ottoSlice_bind]
  rw [hc.g, hc.kern, hc.reweight, dtc h, h.sub]
  have hraw : (if i = 1 then DPFC.noisyStep env' (em c.g) c'.f (emM em x) (em (t - DPFC.dtc))
      else DPFC.ottoStep true env' M (effKern c.kern) (em c.g) c'.f (emM em x) (em (t - DPFC.dtc)))
      = (if i = 1 then DPFC.noisyStep env c.g c.f x (t - DPFC.dtc)
          else DPFC.ottoStep true env M (effKern c.kern) c.g c.f x (t - DPFC.dtc)) >>= fun y =>
        pure (emM em y) := by
    split
    · exact noisyStep h he c.g hc.f x _
    · rename_i hi
      exact ottoStep h true he hN (by unfold effKern; split <;> simp_all) c.g hc.f x (hx hi) _
  rw [hraw]
  simp only [bind_assoc, pure_bind]
  congr 1; funext raw
  cases c.reweight with
  | false => simp
  | true =>
    simp only [if_true]
    rw [ottoReweight h he hN hc.U, liftM_map]

theorem trueSlice {env : Env ρ ℝ} {env' : Env ρ K} (he : SameEnv em env env')
    (hN : 0 < N) {c : Cfg d N M ℝ} {c' : Cfg d N M K} (hc : SameCfg em c c') (i : ℕ) (t : ℝ) (x : Mat d N ℝ)
    (hx : i ≠ 1 → Spread x) :
    DPFC.trueSlice env' c' i (em t) (emM em x)
      = (do let y ← DPFC.trueSlice env c i t x; pure (emM em y)) := by
  unfold DPFC.trueSlice
  rw [hc.g, hc.kern, dtc h, h.sub]
  have hf := hc.fTrue
  revert hf
  cases c.fTrue with
  | none => cases c'.fTrue with
    | none => intro _; rfl
    | some _ => intro hf; exact hf.elim
  | some ft => cases c'.fTrue with
    | none => intro hf; exact hf.elim
    | some ft' =>
      intro hf
      simp only []
      split
      · exact noisyStep h he c.g hf x _
      · rename_i hi
        exact ottoStep h false he hN (by unfold effKern; split <;> simp_all) c.g hf x (hx hi) _

theorem densityAt {env : Env ρ ℝ} {env' : Env ρ K} (he : SameEnv em env env')
    (hN : 0 < N) {kern : String} (hk : kern ≠ "periodic") (z b : Mat d N ℝ) (hz : Spread z) :
    DPFC.densityAt env' M kern (emM em z) (emM em b)
      = (do let y ← DPFC.densityAt env M kern z b; pure (emM em y)) := by
  unfold DPFC.densityAt
  rw [interBox h, liftM_map]
  simp only [bind_assoc, pure_bind]
  congr 1; funext bn
  rw [plotGuard h, liftM_map]
  simp only [bind_assoc, pure_bind]
  congr 1; funext bn
  rw [npInducing h he]
  simp only [bind_assoc, pure_bind]
  congr 1; funext S
  refine seqM (emV em) fun i => ?_
  have hs := scoreSepFn h (DPFC.tr z) (DPFC.tr S) (NumOps.lit 1 1000) hk (.vec (DPFC.lengthScales z))
    (lsne h z hz) (i.val + 1) (DPFC.tr b)
  rw [lengthScales h hN, lit h 1 1000, ← liftM_map, ← hs]
  rfl

theorem bwDensityAt {env : Env ρ ℝ} {env' : Env ρ K} (he : SameEnv em env env')
    (hN : 0 < N) {kern : String} (hk : kern ≠ "periodic") (z b : Mat d N ℝ) (hb : Spread b) :
    DPFC.bwDensityAt env' M kern (emM em z) (emM em b)
      = (do let y ← DPFC.bwDensityAt env M kern z b; pure (emM em y)) := by
  unfold DPFC.bwDensityAt
  rw [interBox h, liftM_map]
  simp only [bind_assoc, pure_bind]
  congr 1; funext bn
  rw [npInducing h he]
  simp only [bind_assoc, pure_bind]
  congr 1; funext S
  refine seqM (emV em) fun i => ?_
  have hs := scoreSep h (DPFC.tr b) (DPFC.tr S) (NumOps.lit 1 1000) hk (.vec (DPFC.lengthScales b))
    (lsne h b hb) (i.val + 1)
  rw [lengthScales h hN, lit h 1 1000, ← liftM_map, ← hs]
  rfl

theorem backStep {env : Env ρ ℝ} {env' : Env ρ K} (he : SameEnv em env env')
    {dens bw : Mat d N ℝ → Mat d N ℝ → RandM ρ (Mat d N ℝ)}
    {dens' bw' : Mat d N K → Mat d N K → RandM ρ (Mat d N K)} {f : Drift d N ℝ} {f' : Drift d N K}
    (hf : SameDrift em f f') (g : ℝ) (det : Bool) (i : ℕ) (zt : Mat d N ℝ × ℝ) (b : Mat d N ℝ)
    (hd : dens' (emM em zt.1) (emM em b) = (do let y ← dens zt.1 b; pure (emM em y)))
    (hb : ¬ ((i = 1 ∧ det = true) ∨ det = false) →
      bw' (emM em zt.1) (emM em b) = (do let y ← bw zt.1 b; pure (emM em y))) :
    DPFC.backStep env' dens' bw' f' (em g) det i (Prod.map (emM em) em zt) (emM em b)
      = (do let y ← DPFC.backStep env dens bw f g det i zt b; pure (emM em y)) := by
  have hs : (NumOps.sqrt DPFC.dtc : K) = em (NumOps.sqrt DPFC.dtc) := by
    rw [dtc h, sqrt h]; simp [DPFC.dtc]
  unfold DPFC.backStep
  simp only [Prod.map_fst, Prod.map_snd, hd, hf.call2, hs]
  simp only [bind_assoc, pure_bind]
  congr 1; funext gro
  by_cases hi : (i = 1 ∧ det = true) ∨ det = false
  · rw [if_pos hi, if_pos hi, normalMat h he]
    simp only [bind_assoc, pure_bind]
    congr 1; funext xi
    congr 1; funext a j
    simp only [emM, dtc h, sq h, h.mul, h.sub, h.add]
  · rw [if_neg hi, if_neg hi, hb hi]
    simp only [bind_assoc, pure_bind]
    congr 1; funext xi
    congr 1; funext a j
    simp only [emM, dtc h, lit h, sq h, h.mul, h.sub, h.add]

theorem npBack {env : Env ρ ℝ} {env' : Env ρ K} (he : SameEnv em env env') (hN : 0 < N)
    {c : Cfg d N M ℝ} {c' : Cfg d N M K} (hc : SameCfg em c c') (i : ℕ) (zt : Mat d N ℝ × ℝ)
    (b : Mat d N ℝ) (hz : Spread zt.1) (hb : c.deterministic = true → i ≠ 1 → Spread b) :
    DPFC.npBack env' c' i (Prod.map (emM em) em zt) (emM em b)
      = (do let y ← DPFC.npBack env c i zt b; pure (emM em y)) := by
  have hk : effKern c.kern ≠ "periodic" := by unfold effKern; split <;> simp_all
  unfold DPFC.npBack
  rw [hc.g, hc.kern, hc.deterministic]
  refine backStep h he hc.f c.g _ i zt b (densityAt h he hN hk _ _ hz) fun hi => ?_
  push Not at hi
  refine bwDensityAt h he hN hk _ _ (hb ?_ ?_)
  · simpa using hi.2
  · intro h1; exact hi.1 h1 (by simpa using hi.2)

end
end Lift
end
end DPFC
