import Verif.Lib.LiftTorch
import Verif.Lib.TorchFail
import Verif.Lib.LiftFlat
import Verif.Props.TorchFail

/-!
# Runs of the torch class in exact arithmetic and in a larger number system
-/

namespace DPFC
open Spec
variable {d N : ℕ}

theorem spread_of_gap {x : Mat d N ℝ} (h : ∀ a, ∃ n n', x a n < x a n') : Spread x := fun a h0 => by
  obtain ⟨n, n', hn⟩ := h a
  rw [sdev_zero_const h0 n n'] at hn
  exact lt_irrefl _ hn

namespace Lift
variable {K ρ : Type} [Add K] [Sub K] [Mul K] [Div K] [Neg K] [NumOps K] {em : ℝ → K}
variable {N M d n c : ℕ}

/-- Both runs do the same, up to `A`, as long as the visited states satisfy `P` and the new states `Q`. -/
theorem chain2 {τ τ' S S' : Type} {step : ℕ → τ → S → RandM ρ S} {step' : ℕ → τ' → S' → RandM ρ S'}
    (φ : τ → τ') (A : S → S') (P : ℕ → τ → S → Prop) (Q : S → Prop)
    (h : ∀ i t x y r r', P i t x → Q y → step i t x r = .ok (y, r') → step' i (φ t) (A x) r = .ok (A y, r')) :
    ∀ (ts : List τ) (i : ℕ) (x : S) (ys : List S) (r r' : ρ),
      DPFC.chain step i ts x r = .ok (ys, r') →
      (∀ j t y, ts[j]? = some t → (x :: ys)[j]? = some y → P (i+j) t y) → (∀ y ∈ ys, Q y) →
      DPFC.chain step' i (ts.map φ) (A x) r = .ok (ys.map A, r')
  | [], i, x, ys, r, r', hr, hP, hQ => by
    simp only [DPFC.chain, RandM.pure_ok] at hr
    obtain ⟨rfl, rfl⟩ := hr
    rfl
  | t :: ts, i, x, ys, r, r', hr, hP, hQ => by
    rw [DPFC.chain, RandM.bind_ok] at hr
    obtain ⟨y, r1, h1, h2⟩ := hr
    rw [RandM.bind_ok] at h2
    obtain ⟨ys', r2, h2, h3⟩ := h2
    rw [RandM.pure_ok] at h3
    obtain ⟨rfl, rfl⟩ := h3
    rw [List.map_cons, DPFC.chain, RandM.bind_ok]
    refine ⟨A y, r1, h i t x y r r1 (hP 0 t x rfl rfl) (hQ y (by simp)) h1, ?_⟩
    rw [RandM.bind_ok]
    refine ⟨ys'.map A, r2, chain2 φ A P Q h ts (i+1) y ys' r1 r2 h2 (fun j t' y' e1 e2 => ?_)
      (fun y' hy' => hQ y' (by simp [hy'])), rfl⟩
    have := hP (j+1) t' y' e1 e2
    rwa [show i + (j+1) = i + 1 + j by omega] at this

section
variable (h : Embeds em)
include h

theorem torchReweight {env : Env ρ ℝ} {env' : Env ρ K} (he : SameEnv em env env') (x : Mat d N ℝ)
    (e : Fin N → ℝ) (hpos : ∀ n, 0 < e n) (hne : ∃ i j a, x a i ≠ x a j) :
    DPFC.torchReweight env' (emM em x) (emV em e) = (DPFC.torchReweight env x e).map (emM em) := by
  obtain ⟨i0, j0, a0, hne⟩ := hne
  obtain ⟨m, rfl⟩ : ∃ m, N = m + 1 := ⟨N - 1, by have := i0.2; omega⟩
  unfold DPFC.torchReweight
  have hD : (fun i j : Fin (m+1) => NumOps.sum fun k => DPFC.sq (emM em x k i - emM em x k j))
      = emM em (fun i j => NumOps.sum fun k => DPFC.sq (x k i - x k j)) := by
    funext i j
    simp only [emM, h.sub, sq h]
    rw [sum h]
  have hn : (NumOps.lit ((m+1 : ℕ) : ℤ) 1 : ℝ) ≠ 0 := by simp; positivity
  have hb : (fun _ : Fin (m+1) => (NumOps.lit 1 1 / NumOps.lit ((m+1 : ℕ) : ℤ) 1 : K))
      = emV em fun _ => NumOps.lit 1 1 / NumOps.lit ((m+1 : ℕ) : ℤ) 1 := by
    funext i
    rw [lit h, lit h ((m+1 : ℕ) : ℤ) 1, h.div _ _ hn]; rfl
  simp only [hD, hb]
  set D : Mat (m+1) (m+1) ℝ := fun i j => NumOps.sum fun k => DPFC.sq (x k i - x k j) with hDdef
  have hmx : torchMatMax (emM em D) = .ok (em (NumOps.amax fun i => NumOps.amax (D i))) := by
    simp only [torchMatMax]
    rw [← amax h]
    congr 2
    funext i
    exact amax h (D i)
  have hmx' : torchMatMax D = .ok (NumOps.amax fun i => NumOps.amax (D i)) := rfl
  have hpos' : (0 : ℝ) < NumOps.amax fun i => NumOps.amax (D i) := by
    have h1 : 0 < D i0 j0 := by
      simp only [hDdef, real_sum, real_sq]
      refine lt_of_lt_of_le (pow_pos (abs_pos.2 (sub_ne_zero.2 hne)) 2) ?_
      rw [sq_abs]
      exact Finset.single_le_sum (f := fun k => (x k i0 - x k j0) ^ 2) (fun k _ => sq_nonneg _) (Finset.mem_univ a0)
    have h2 : D i0 j0 ≤ NumOps.amax (D i0) := by
      rw [real_amax]; exact Finset.le_sup' (D i0) (Finset.mem_univ j0)
    have h3 : (NumOps.amax (D i0) : ℝ) ≤ NumOps.amax fun i => NumOps.amax (D i) := by
      rw [real_amax (v := fun i => NumOps.amax (D i))]
      exact Finset.le_sup' (fun i => (NumOps.amax (D i) : ℝ)) (Finset.mem_univ i0)
    linarith
  rw [hmx, hmx', normWeights h (by omega) e hpos]
  simp only [Except.ok_bind']
  have hC : (fun i j : Fin (m+1) => (NumOps.sum fun k => DPFC.sq (emM em x k i - emM em x k j))
        / em (NumOps.amax fun i => NumOps.amax (D i)))
      = emM em fun i j => D i j / NumOps.amax fun i => NumOps.amax (D i) := by
    funext i j
    rw [congrFun (congrFun hD i) j]
    exact h.div _ _ hpos'.ne'
  rw [hC, he.emd]
  cases env.emd (DPFC.normWeights e) _ _ with
  | error e => rfl
  | ok T =>
    simp only [Except.map, Except.ok_bind']
    have hx : (fun a n => NumOps.lit ((m+1 : ℕ) : ℤ) 1 * emM em x a n)
        = emM em fun a n => NumOps.lit ((m+1 : ℕ) : ℤ) 1 * x a n := by
      funext a n
      simp only [emM, lit h, h.mul]
    rw [hx, mm h]

theorem torchOttoRw {env : Env ρ ℝ} {env' : Env ρ K} (he : SameEnv em env env')
    {U : Option (Constraint d N ℝ)} {U' : Option (Constraint d N K)}
    (hU : SameOpt (SameConstraint em) U U') (x : Mat d N ℝ) (t : ℝ) (hne : ∃ i j a, x a i ≠ x a j) :
    DPFC.torchOttoRw env' U' (emM em x) (em t) = (DPFC.torchOttoRw env U x t).map (emM em) := by
  cases U with
  | none => cases U' with
    | none => rfl
    | some U' => exact hU.elim
  | some U => cases U' with
    | none => exact hU.elim
    | some U' =>
      simp only [DPFC.torchOttoRw]
      rw [← torchReweight h he x (fun n => NumOps.exp (U.call2 x t n * DPFC.dtc)) (fun n => Real.exp_pos _) hne]
      simp only [(show SameConstraint em U U' from hU).call2]
      congr 1
      funext n
      simp only [emV, dtc h, h.mul, exp h]

theorem torchScore (X : Mat N d ℝ) (Z : Mat M d ℝ) (l : Fin d → ℝ) (hl : ∀ a, l a ≠ 0) (C : ℝ) (kern : String)
    (C' : K) :
    DPFC.torchScore (emM em X) (emM em Z) (.tensor (emV em l)) C' kern
      = (DPFC.torchScore X Z (.tensor l) C kern).map (emM em) := by
  unfold DPFC.torchScore
  rw [torchCommon h X Z l hl]
  cases DPFC.torchCommon X Z (.tensor l) with
  | error e => rfl
  | ok p =>
    obtain ⟨ls, p, g⟩ := p
    simp only [Except.map, Except.ok_bind']
    rw [lit h]
    have e := seqME (emV em) (f := fun di => DPFC.directOut (NumOps.lit 1 1000) p fun m => g m di)
      (fun di => directOut h (NumOps.lit 1 1000) p fun m => g m di)
    refine (congrArg (fun w => w >>= fun cols => Except.ok fun n di => cols di n) e).trans ?_
    cases DPFC.seqM d (fun di => DPFC.directOut (NumOps.lit 1 1000) p fun m => g m di) <;> rfl

theorem torchBox (x : Mat d N ℝ) : DPFC.torchBox (emM em x) = (DPFC.torchBox x).map (emB em) := by
  unfold DPFC.torchBox
  rw [seqME (fun b : ℝ × ℝ => (em b.1, em b.2))]
  · rfl
  intro i
  change (do
    let lo ← DPFC.torchMin (emV em (x i))
    let hi ← DPFC.torchMax (emV em (x i))
    Except.ok (lo, hi)) = _
  rw [torchMin h, torchMax h]
  cases DPFC.torchMin (x i) with
  | error e => rfl
  | ok a => cases DPFC.torchMax (x i) <;> rfl

theorem densityBox (z b : Mat d N ℝ) :
    DPFC.densityBox (emM em z) (emM em b) = (DPFC.densityBox z b).map (emB em) := by
  unfold DPFC.densityBox
  rw [seqME (fun b : ℝ × ℝ => (em b.1, em b.2))]
  · rfl
  intro i
  change (do
    let blo ← DPFC.torchMin (emV em (b i))
    let bhi ← DPFC.torchMax (emV em (b i))
    let zlo ← DPFC.torchMin (emV em (z i))
    let zhi ← DPFC.torchMax (emV em (z i))
    if NumOps.eqB blo bhi then Except.ok (zlo, zhi) else Except.ok (DPFC.pyMin zlo blo, DPFC.pyMax zhi bhi)) = _
  rw [torchMin h, torchMax h, torchMin h, torchMax h]
  cases DPFC.torchMin (b i) with
  | error e => rfl
  | ok a =>
    cases DPFC.torchMax (b i) with
    | error e => rfl
    | ok a' =>
      cases DPFC.torchMin (z i) with
      | error e => rfl
      | ok c =>
        cases DPFC.torchMax (z i) with
        | error e => rfl
        | ok c' =>
          simp only [Except.map, Except.ok_bind', pyMax h, pyMin h, eqB h]
          split <;> rfl

theorem torchOttoStep {env : Env ρ ℝ} {env' : Env ρ K} (he : SameEnv em env env')
    (hN : 2 ≤ N) (g : ℝ) {f : Drift d N ℝ} {f' : Drift d N K}
    (hf : SameDrift em f f') (x : Mat d N ℝ) (hx : Spread x) (t : ℝ) :
    DPFC.torchOttoStep env' M (em g) f' (emM em x) (em t)
      = (do let y ← DPFC.torchOttoStep env M g f x t; pure (emM em y)) := by
  unfold DPFC.torchOttoStep DPFC.torchFSeperate
  rw [torchBox h, liftM_map]
  simp only [bind_assoc, pure_bind]
  congr 1; funext b
  rw [torchInducing h he]
  simp only [bind_assoc, pure_bind]
  congr 1; funext S
  rw [tr, torchLengthScales h hN, torchScore h _ S _ (tls_ne hx) (NumOps.lit 1 1000), liftM_map]
  simp only [bind_assoc, pure_bind]
  congr 1; funext G
  congr 1; funext i j
  simp only [hf.call2]
  simp only [emM, lit h, dtc h, sq h, h.mul, h.sub, h.add]

theorem torchOttoSlice {env : Env ρ ℝ} {env' : Env ρ K} (he : SameEnv em env env')
    (hN : 2 ≤ N) (hd : 0 < d) {c : Cfg d N M ℝ} {c' : Cfg d N M K} (hc : SameCfg em c c')
    (hs : c.reweight = true → SolverCouples env) (i : ℕ) (t : ℝ)
    (x y : Mat d N ℝ) (r r' : ρ) (hx : i ≠ 1 → Spread x) (hy : ∀ a, ∃ n n', y a n < y a n')
    (hxy : DPFC.torchOttoSlice env c i t x r = .ok (y, r')) :
    DPFC.torchOttoSlice env' c' i (em t) (emM em x) r = .ok (emM em y, r') := by
  rw [torchOttoSlice_bind] at hxy ⊢
  rw [hc.g, hc.reweight, dtc h, h.sub]
  have hraw : (if i = 1 then DPFC.noisyStep env' (em c.g) c'.f (emM em x) (em (t - DPFC.dtc))
      else DPFC.torchOttoStep env' M (em c.g) c'.f (emM em x) (em (t - DPFC.dtc)))
      = (if i = 1 then DPFC.noisyStep env c.g c.f x (t - DPFC.dtc)
          else DPFC.torchOttoStep env M c.g c.f x (t - DPFC.dtc)) >>= fun y =>
        pure (emM em y) := by
    split
    · exact noisyStep h he c.g hc.f x _
    · rename_i hi
      exact torchOttoStep h he hN c.g hc.f x (hx hi) _
  rw [hraw]
  obtain ⟨raw, r1, h1, h2⟩ := RandM.bind_ok.1 hxy
  rw [RandM.bind_ok]
  refine ⟨emM em raw, r1, RandM.bind_ok.2 ⟨raw, r1, h1, rfl⟩, ?_⟩
  cases hrw : c.reweight with
  | false =>
    rw [hrw] at h2
    simp only [Bool.false_eq_true, if_false] at h2 ⊢
    obtain ⟨rfl, rfl⟩ := RandM.pure_ok.1 h2
    rfl
  | true =>
    rw [hrw] at h2
    simp only [if_true] at h2 ⊢
    have hne : ∃ i j a, raw a i ≠ raw a j := by
      by_contra hcon
      push Not at hcon
      have q1 : DPFC.torchOttoRw env c.U raw t = .ok y := by
        cases hq : DPFC.torchOttoRw env c.U raw t with
        | error e => rw [hq] at h2; cases h2
        | ok w =>
          rw [hq, RandM.liftM_ok] at h2
          rw [(RandM.pure_ok.1 h2).1]
      cases hU : c.U with
      | none => rw [hU] at q1; cases q1
      | some U =>
        rw [hU] at q1
        have := torchReweight_flat (by omega) (hs hrw) q1 ⟨0, hd⟩ (fun p q => hcon p q ⟨0, hd⟩)
        obtain ⟨p, q, hpq⟩ := hy ⟨0, hd⟩
        rw [this p q] at hpq
        exact lt_irrefl _ hpq
    rw [torchOttoRw h he hc.U raw t hne, liftM_map, RandM.bind_ok]
    exact ⟨y, r', h2, rfl⟩

theorem torchDensityAt {env : Env ρ ℝ} {env' : Env ρ K} (he : SameEnv em env env')
    (hN : 2 ≤ N) (kern : String) (z b : Mat d N ℝ) (hz : Spread z) :
    DPFC.torchDensityAt env' M kern (emM em z) (emM em b)
      = (do let y ← DPFC.torchDensityAt env M kern z b; pure (emM em y)) := by
  unfold DPFC.torchDensityAt
  rw [densityBox h, liftM_map]
  simp only [bind_assoc, pure_bind]
  congr 1; funext bn
  rw [torchInducing h he]
  simp only [bind_assoc, pure_bind]
  congr 1; funext S
  rw [tr, tr, torchLengthScales h hN, torchScoreFn h _ S _ (tls_ne hz) (NumOps.lit 1 1000), liftM_map]
  simp only [bind_assoc, pure_bind]
  rfl

theorem torchBwDensityAt {env : Env ρ ℝ} {env' : Env ρ K} (he : SameEnv em env env')
    (hN : 2 ≤ N) (kern : String) (z b : Mat d N ℝ) (hb : Spread b) :
    DPFC.torchBwDensityAt env' M kern (emM em z) (emM em b)
      = (do let y ← DPFC.torchBwDensityAt env M kern z b; pure (emM em y)) := by
  unfold DPFC.torchBwDensityAt
  rw [hullBox h, liftM_map]
  simp only [bind_assoc, pure_bind]
  congr 1; funext bn
  rw [torchInducing h he]
  simp only [bind_assoc, pure_bind]
  congr 1; funext S
  rw [tr, torchLengthScales h hN, torchScore h _ S _ (tls_ne hb) (NumOps.lit 1 1000), liftM_map]
  simp only [bind_assoc, pure_bind]
  rfl

theorem torchBack {env : Env ρ ℝ} {env' : Env ρ K} (he : SameEnv em env env') (hN : 2 ≤ N)
    {c : Cfg d N M ℝ} {c' : Cfg d N M K} (hc : SameCfg em c c') (i : ℕ) (zt : Mat d N ℝ × ℝ)
    (b : Mat d N ℝ) (hz : Spread zt.1) (hb : c.deterministic = true → i ≠ 1 → Spread b) :
    DPFC.torchBack env' c' i (Prod.map (emM em) em zt) (emM em b)
      = (do let y ← DPFC.torchBack env c i zt b; pure (emM em y)) := by
  unfold DPFC.torchBack
  rw [hc.g, hc.kern, hc.deterministic]
  refine backStep h he hc.f c.g _ i zt b (torchDensityAt h he hN _ _ _ hz) fun hi => ?_
  push Not at hi
  refine torchBwDensityAt h he hN _ _ _ (hb ?_ ?_)
  · simpa using hi.2
  · intro h1; exact hi.1 h1 (by simpa using hi.2)

theorem torchGrid (t1 t2 : ℝ) :
    DPFC.torchGrid (em t1) (em t2) = (DPFC.torchGrid t1 t2).map (List.map em) := by
  have h2 : (NumOps.lit 2 1 : ℝ) ≠ 0 := by simp
  have h3 : (DPFC.dtc : ℝ) ≠ 0 := by simp [DPFC.dtc]
  unfold DPFC.torchGrid DPFC.torchPoints arange
  rw [dtc h, lit h, h.div _ _ h2, h.add, ltB h, h.sub, h.div _ _ h3, h.ceilNat]
  split
  · rfl
  · simp only [Except.map, List.map_map]
    congr 1
    refine List.map_congr_left fun i _ => ?_
    simp only [Function.comp]
    rw [lit h, h.mul, h.add]

theorem lift_torchConstruct_det {env : Env ρ ℝ} {env' : Env ρ K} (he : SameEnv em env env') (hN : 2 ≤ N) (hd : 0 < d)
    {c : Cfg d N M ℝ} {c' : Cfg d N M K} (hc : SameCfg em c c') (hdet : c.deterministic = true)
    (hs : c.reweight = true → SolverCouples env) (hbb : (c.reweight && c.brownBridge) = false) {r r' : ρ}
    {o : Obj d N M ℝ} (hr : torchConstruct env c r = .ok (o, r')) (hk : 3 ≤ o.timegrid.length)
    (hB : ∀ i b, 2 ≤ i → i + 2 ≤ o.B.length → o.B[i]? = some b → Spread b) :
    ∃ o', torchConstruct env' c' r = .ok (o', r') ∧ SameObj em o o' := by
  have hdet' : c'.deterministic = true := by rw [hc.deterministic, hdet]
  have hZ' := torch_slices_spread hdet hr hk
  have hg := (torchConstruct_fields hr).2.1
  have hgrid : DPFC.torchGrid c'.t1 c'.t2 = .ok (o.timegrid.map em) := by
    rw [hc.t1, hc.t2, torchGrid h, hg]; rfl
  obtain ⟨ys, r1, zt, r2, bs, h1, h2, h3, ho⟩ :=
    (torchConstruct_det_iff env c hdet _ hg (by omega) r r' o).1 hr
  set grid := o.timegrid with hgr
  have hoZ : o.Z = pt N c.y1 :: ys := by rw [ho]
  have hoB : o.B = pt N c.y1 :: (bs.reverse ++ [pt N c.y2]) := by rw [ho]
  have hoT : o.Ztr = zt := by rw [ho]
  rw [hoZ] at hZ'
  have hZ : ∀ i z, 1 ≤ i → (pt N c.y1 :: ys)[i]? = some z → Spread z := fun i z hi hz =>
    spread_of_gap (hZ' i hi z hz)
  rw [hoB] at hB
  have hly := chain_length h1
  have hlb := chain_length h3
  rw [visits_length (by simp [hly]; omega)] at hlb
  rw [List.length_tail] at hly
  simp only [List.length_cons, List.length_append, List.length_reverse, List.length_nil, hlb] at hB
  have e1 := chain2 em (emM em) (fun i _ x => i ≠ 1 → Spread x) (fun y => ∀ a, ∃ n n', y a n < y a n')
    (fun i t x y r r' hx hy hxy => torchOttoSlice h he hN hd hc hs i t x y r r' hx hy hxy)
    _ _ _ _ _ _ h1 (fun j t y hj hy hi => hZ j y (by omega) hy) (fun y hy => by
      obtain ⟨j, hj⟩ := List.getElem?_of_mem hy
      exact hZ' (j+1) (by omega) y (by simpa using hj))
  have e2 : torchTrueFlow env c grid r1 = .ok (none, r1) := by
    unfold torchTrueFlow; rw [hbb]; rfl
  have e2' : torchTrueFlow env' c' (grid.map em) r1 = .ok (none, r1) := by
    unfold torchTrueFlow; rw [hc.reweight, hc.brownBridge, hbb]; rfl
  rw [e2] at h2
  obtain ⟨rfl, rfl⟩ : none = zt ∧ r1 = r2 := by
    injection h2 with h2; exact ⟨congrArg Prod.fst h2, congrArg Prod.snd h2⟩
  have e3 := Lift.chain (Prod.map (emM em) em) (emM em)
    (fun i (zt : Mat d N ℝ × ℝ) b => Spread zt.1 ∧ (c.deterministic = true → i ≠ 1 → Spread b))
    (fun i zt b hx => torchBack h he hN hc i zt b hx.1 hx.2) _ _ _ _ _ _ h3 fun j t y hj hy => by
      obtain ⟨q1, q2⟩ := visits_get_inv (by simp [hly]; omega) (t := t.2) (z := t.1) hj
      refine ⟨hZ _ _ (by omega) q2, fun _ hi => ?_⟩
      refine hB (grid.length - 2 - j + 1) y (by omega) (by omega) ?_
      rw [back_order _ _ _ _ (by omega), ← hy]
      congr 1; omega
  rw [← visits_mapK] at e3
  refine ⟨_, (torchConstruct_det_iff env' c' hdet' _ hgrid (by simp; omega) r r' _).2
    ⟨ys.map (emM em), r1, none, r1, bs.map (emM em), ?_, e2', ?_, rfl⟩, ?_⟩
  · rw [← List.map_tail, hc.y1, pt_em]; exact e1
  · rw [hc.y1, hc.y2, pt_em, pt_em, ← List.map_cons]; exact e3
  · refine ⟨rfl, ?_, ?_, ?_⟩
    · rw [hoZ]; simp only [hc.y1, pt_em, List.map_cons]
    · rw [hoB]; simp only [hc.y1, hc.y2, pt_em, List.map_cons, List.map_append, List.map_reverse, List.map_nil]
    · rw [hoT]; rfl

end
end Lift
end DPFC
