import Verif.Lib.LiftFlow
import Verif.Lib.NanFlow

/-! A cloud that lost its spread in a coordinate: NaN in the next slice, an exception one step later. -/

set_option linter.unusedSectionVars false

namespace DPFC
open Spec

section
variable {K ρ : Type} [Add K] [Sub K] [Mul K] [Div K] [Neg K] [NumOps K]
variable {em : ℝ → K} {N M d n m p : ℕ}

/-- each entry is NaN -/
def AllNan (I : Ieee K) {n m : ℕ} (x : Mat n m K) : Prop := ∀ i j, I.nan (x i j)

theorem sdev_zero_const {v : Fin N → ℝ} (h : sdev v = 0) (i j : Fin N) : v i = v j := by
  by_contra hn
  exact sdev_ne_zero hn h

theorem lo_hi_const (hN : 0 < N) {v : Fin N → ℝ} (h : sdev v = 0) (i : Fin N) : lo v = v i ∧ hi v = v i := by
  haveI : Nonempty (Fin N) := ⟨⟨0, hN⟩⟩
  have hc : v = fun _ => v i := funext fun j => sdev_zero_const h j i
  constructor
  · rw [hc]; simp [lo]
  · rw [hc]; simp [hi]

section
variable (I : Ieee K) (h : Embeds em) (hfin : ∀ x, I.fin (em x))
include h hfin

omit hfin in
theorem em_zero : I.zero (em 0) := by
  have := I.lit_zero
  rw [h.lit] at this
  simpa using this

theorem nan_rbfK_flat {x : Mat N d ℝ} {y : Mat M d ℝ} {l : Fin d → ℝ} (a : Fin d) (hl : l a = 0)
    (hxy : ∀ i j, x i a = y j a) : AllNan I (rbfK (emM em x) (emM em y) (.vec (emV em l))) := by
  intro i j
  refine nan_foldl_mul I (fun ii => rbfFactor (emM em x i ii) (emM em y j ii) (emV em l ii)) _ a
    (nan_rbfFactor_zero I ?_ ?_)
  · simp only [emM, hxy i j]
    exact I.sub_self (hfin _)
  · simp only [emV, hl]
    exact em_zero I h

omit h hfin in
theorem nan_ridge {A : Mat M M K} (hA : AllNan I A) : AllNan I (ridge A) := fun i j => I.nan_add_left (hA i j)

omit h hfin in
theorem nan_innerMat (hM : 0 < M) {C : K} {S A : Mat M M K} (hA : AllNan I A) : AllNan I (innerMat C S A) :=
  fun i j => I.nan_add_left (I.nan_add_right (I.nan_sum ⟨0, hM⟩ (I.nan_mul_right (hA _ j))))

omit h hfin in
/-- With kernel matrices full of NaN the estimate is NaN. -/
theorem scoreSep_flat (hinv : InvOfNan I) (hN : 0 < N) (hM : 0 < M) {X : Mat N d K} {Z : Mat M d K} {C : K}
    {l : LS d K} (di : Fin d) (h1 : AllNan I (rbfK X Z l)) (h2 : AllNan I (rbfK Z Z l)) :
    ∃ v, scoreSep X Z C "RBF" l (di.val + 1) = .ok v ∧ ∀ i, I.nan (v i) := by
  obtain ⟨S, hS⟩ := hinv M _ (nan_ridge I h2)
  have hA : AllNan I (mm (tr (rbfK X Z l)) (rbfK X Z l)) :=
    fun i j => I.nan_sum ⟨0, hN⟩ (I.nan_mul_left (h1 _ _))
  obtain ⟨J, hJ⟩ := hinv M _ (nan_innerMat I hM (C := C) (S := S) hA)
  have hidx : pyIdx d ((di.val : Int) + 1 - 1) = .ok di.val := by
    rw [show ((di.val : Int) + 1 - 1) = (di.val : Int) by omega, pyIdx_nat _ di.2]
  have hcom : sepCommon X Z "RBF" l (di.val + 1)
      = .ok (⟨rbfK X Z l, S, mm (tr (rbfK X Z l)) (rbfK X Z l)⟩, sumGrad (rbfGrad X Z di l)) := by
    unfold sepCommon scorePre
    rw [if_pos rfl, hS, hidx]
    simp only [Except.ok_bind', dif_pos di.2]
  have hs : scoreSep X Z C "RBF" l (di.val + 1)
      = .ok (mv (mm (mm (negM (rbfK X Z l)) J) S) (sumGrad (rbfGrad X Z di l))) := by
    unfold scoreSep
    rw [hcom]
    simp only [Except.ok_bind', directOut, hJ]
  refine ⟨_, hs, fun i => ?_⟩
  refine nan_mv_row I ⟨0, hM⟩ (nan_mm_row I ⟨0, hM⟩ (nan_mm_row I ⟨0, hM⟩ (I.nan_neg (h1 _ _)) _) _)

/-- One probability-flow step from a cloud without spread in coordinate `a` yields NaN everywhere. -/
theorem ottoStep_flat (hinv : InvOfNan I) (hN : 0 < N) (hM : 0 < M) (pl : Bool) {env : Env ρ ℝ}
    {env' : Env ρ K} (he : SameEnv em env env') (g : K) (f : Drift d N K) (x : Mat d N ℝ) (a : Fin d)
    (hx : sdev (x a) = 0) (t : K) (r : ρ) :
    ∃ y, ottoStep pl env' M "RBF" g f (emM em x) t r = .ok (y, unifsNext env d M r) ∧ AllNan I y := by
  have hS : ∃ S : Mat d M ℝ, (∀ m j, S a m = x a j) ∧
      npInducing env' (emB em fun a => (lo (x a), hi (x a))) M r = .ok (emM em S, unifsNext env d M r) := by
    refine ⟨fun a m => lo (x a) + (hi (x a) - lo (x a)) * unifs env d M r a m, ?_, ?_⟩
    rotate_left
    · rw [Lift.npInducing h he, RandM.bind_app, npInducing_gen]
      rfl
    · intro m j
      obtain ⟨e1, e2⟩ := lo_hi_const hN hx j
      simp only [e1, e2]; ring
  obtain ⟨S, hSa, hS⟩ := hS
  have hl : lengthScales x a = 0 := by rw [lengthScales_real]; simp [hx]
  have hk1 := nan_rbfK_flat I h hfin (x := tr x) (y := tr S) a hl fun i j => (hSa j i).symm
  have hk2 := nan_rbfK_flat I h hfin (x := tr S) (y := tr S) a hl
    fun i j => (hSa i ⟨0, hN⟩).trans (hSa j ⟨0, hN⟩).symm
  choose v hv hvn using fun di : Fin d => scoreSep_flat I hinv hN hM (C := (lit 1 1000 : K)) di hk1 hk2
  have hsc : scoreAtParticles pl env' M "RBF" (emM em x) r = .ok (v, unifsNext env d M r) := by
    unfold scoreAtParticles
    rw [Lift.boxOf h, boxOf_real hN]
    simp only [Except.map, RandM.liftM_ok, pure_bind]
    rw [Lift.optGuard h, plotGuard_real, ite_self]
    simp only [Except.map, RandM.liftM_ok, pure_bind]
    rw [RandM.bind_app, hS]
    simp only []
    rw [Lift.lengthScales h hN, ← liftM_seqM]
    exact RandM.lift_ok.2 ⟨seqM_except_ok.2 hv, rfl⟩
  refine ⟨fun i j => emM em x i j + dtc * (f.call2 (emM em x) t i j - lit 1 2 * sq g * v i j), ?_, fun i j =>
    I.nan_add_right (I.nan_mul_right (I.nan_sub_right (I.nan_mul_right (hvn i j))))⟩
  unfold ottoStep fSeperate
  rw [RandM.bind_app, RandM.bind_app, hsc]
  rfl

omit h hfin in
theorem ottoStep_nan (pl : Bool) (env : Env ρ K) (kern : String) (g : K) (f : Drift d N K) (x : Mat d N K)
    (t : K) (a : Fin d) (j : Fin N) (hx : I.nan (x a j)) (r : ρ) :
    ottoStep pl env M kern g f x t r = .error (if pl = true ∧ d < 2 then .indexError else .overflowError) := by
  unfold ottoStep
  rw [RandM.bind_app, fSeperate_nan I pl env kern g f x t a j hx r]

omit h hfin in
theorem densityAt_nan (env : Env ρ K) (kern : String) (z b : Mat d N K) (a : Fin d) (p : Fin N)
    (hz : I.nan (z a p)) (r : ρ) :
    densityAt env M kern z b r = .error (if d < 2 then .indexError else .overflowError) := by
  have hN : 0 < N := by have := p.2; omega
  unfold densityAt
  obtain ⟨bn, hb⟩ := interBox_total hN z b
  rw [hb, RandM.liftM_ok, pure_bind]
  obtain ⟨zl, bl, zh, bh, e1, e2, e3, e4, he⟩ := interBox_get hb a
  have hn : I.nan (bn a).1 := by
    rw [he]
    have hzl := nan_npMin I e1 p hz
    show I.nan (pyMax zl bl)
    rw [pyMax_nan_left I hzl]; exact hzl
  by_cases hd : d < 2
  · have hg : plotGuard bn = .error .indexError := by
      unfold plotGuard
      rw [if_neg, if_neg (by omega)]
      rw [I.isFinite_nan (I.nan_sum a (I.nan_add_left hn))]
      simp
    rw [if_pos hd, hg]
    rfl
  rw [if_neg hd, plotGuard_finite (.inr (by omega)), RandM.liftM_ok, pure_bind]
  have : npInducing env bn M r = .error .overflowError := by
    unfold npInducing
    refine seqM_error_of a (fun j r e' => npUniform_error) (fun r => ?_) r
    unfold npUniform
    rw [if_neg]
    rw [I.isFinite_nan (I.nan_sub_right hn)]
    simp
  rw [RandM.bind_app, this]

/-- The exception of the numpy class for a flow with NaN. -/
def _root_.DPFC.flatErr (pl : Bool) (d : ℕ) : PyErr := if pl = true ∧ d < 2 then .indexError else .overflowError

omit h hfin in
/-- Runs that lose their spread: `flat` steps give NaN, NaN makes the next step fail. -/
theorem chain_flat {step : ℕ → ℝ → Mat d N ℝ → RandM ρ (Mat d N ℝ)}
    {step' : ℕ → K → Mat d N K → RandM ρ (Mat d N K)} (err : PyErr)
    (good : ∀ i t x, (i ≠ 1 → Spread x) → step' i (em t) (emM em x) = (do let y ← step i t x; pure (emM em y)))
    (flat : ∀ i t x r, 1 < i → ¬ Spread x → ∀ y r', step i t x r = .ok (y, r') →
      ∃ w, step' i (em t) (emM em x) r = .ok (w, r') ∧ AllNan I w)
    (bad : ∀ i t (w : Mat d N K) r, 1 < i → AllNan I w → step' i t w r = .error err) :
    ∀ (ts : List ℝ) (i : ℕ) (x : Mat d N ℝ) (ys : List (Mat d N ℝ)) (r r' : ρ), 1 ≤ i →
      chain step i ts x r = .ok (ys, r') →
      (∃ j y, j < ts.length ∧ i + j ≠ 1 ∧ (x :: ys)[j]? = some y ∧ ¬ Spread y) →
      (chain step' i (ts.map em) (emM em x) r = .error err ∧
        ∃ j y, j + 1 < ts.length ∧ i + j ≠ 1 ∧ (x :: ys)[j]? = some y ∧ ¬ Spread y) ∨
      ∃ w, AllNan I w ∧ (∀ j y, j + 1 < ts.length → i + j ≠ 1 → (x :: ys)[j]? = some y → Spread y) ∧
        chain step' i (ts.map em) (emM em x) r = .ok (ys.dropLast.map (emM em) ++ [w], r')
  | [], i, x, ys, r, r', _, _, hj => by
    obtain ⟨j, _, hj, _⟩ := hj
    simp at hj
  | t :: ts, i, x, ys, r, r', hi, hr, hj => by
    rw [chain, RandM.bind_ok] at hr
    obtain ⟨y, r1, h1, h2⟩ := hr
    rw [RandM.bind_ok] at h2
    obtain ⟨ys', r2, h2, h3⟩ := h2
    rw [RandM.pure_ok] at h3
    obtain ⟨rfl, rfl⟩ := h3
    rw [List.map_cons, chain, RandM.bind_app]
    by_cases hx : i ≠ 1 → Spread x
    · have hgood : step' i (em t) (emM em x) r = .ok (emM em y, r1) := by
        rw [good i t x hx, RandM.bind_app, h1]; rfl
      rw [hgood]
      simp only []
      have hj' : ∃ j z, j < ts.length ∧ i + 1 + j ≠ 1 ∧ (y :: ys')[j]? = some z ∧ ¬ Spread z := by
        obtain ⟨j, z, e1, e2, e3, e4⟩ := hj
        cases j with
        | zero =>
          simp at e3; subst e3
          exact absurd (hx (by omega)) e4
        | succ j => exact ⟨j, z, by simp at e1; omega, by omega, by simpa using e3, e4⟩
      rcases chain_flat err good flat bad ts (i+1) y ys' r1 r2 (by omega) h2 hj' with ⟨hE, j, z, e1, e2, e3, e4⟩ | ⟨w, hw, hsp, hok⟩
      · refine .inl ⟨by rw [RandM.bind_app, hE], j+1, z, by simp; omega, by omega, by simpa using e3, e4⟩
      · refine .inr ⟨w, hw, fun j z e1 e2 e3 => ?_, ?_⟩
        · cases j with
          | zero => simp at e3; subst e3; exact hx (by omega)
          | succ j => exact hsp j z (by simp at e1; omega) (by omega) (by simpa using e3)
        · rw [RandM.bind_app, hok]
          have hne : ys' ≠ [] := by
            intro e
            subst e
            have hl := chain_length h2
            obtain ⟨j, z, e1, _⟩ := hj'
            simp at hl; omega
          rw [List.dropLast_cons_of_ne_nil hne]
          rfl
    · push Not at hx
      obtain ⟨w, hw, hn⟩ := flat i t x r (by omega) hx.2 y r1 h1
      rw [hw]
      simp only []
      cases ts with
      | nil =>
        have : ys' = [] := by
          have hl := chain_length h2; simpa using hl
        subst this
        simp only [chain, RandM.pure_ok] at h2
        obtain ⟨_, rfl⟩ := h2
        exact .inr ⟨w, hn, fun j z e1 => by simp at e1, rfl⟩
      | cons t' ts =>
        left
        refine ⟨?_, 0, x, by simp, by omega, rfl, hx.2⟩
        rw [List.map_cons, chain, RandM.bind_app, RandM.bind_app, bad (i+1) _ w _ (by omega) hn]

theorem unifsNext_ottoStep (hN : 0 < N) (pl : Bool) (env : Env ρ ℝ) {g : ℝ} {f : Drift d N ℝ} {x y : Mat d N ℝ} {t : ℝ}
    {r r' : ρ} (hr : ottoStep pl env M "RBF" g f x t r = .ok (y, r')) : r' = unifsNext env d M r := by
  unfold ottoStep fSeperate scoreAtParticles at hr
  rw [boxOf_real hN] at hr
  simp only [RandM.liftM_ok, pure_bind, plotGuard_real, ite_self, bind_assoc] at hr
  rw [RandM.bind_app, npInducing_gen] at hr
  obtain ⟨w, r1, h1, h2⟩ := RandM.bind_ok.1 hr
  rw [← liftM_seqM] at h1
  rw [← (RandM.lift_ok.1 h1).2] at h2
  exact (RandM.pure_ok.1 h2).2.symm


omit h hfin in
theorem ottoReweight_nan {env' : Env ρ K} (hs : SolverReturns env') (U : Constraint d N K) (x : Mat d N K) (t : K)
    (hx : AllNan I x) : ∃ y, ottoReweight env' (some U) x t = .ok y ∧ AllNan I y := by
  have : ∃ y, ottoReweight env' (some U) x t = .ok y := by
    unfold ottoReweight reweightOT
    obtain ⟨T, hT⟩ := hs N (normWeights fun n => NumOps.exp (U.call2 x t n * dtc)) (fun _ => lit 1 1 / lit N 1)
      (fun i j => if i = j then lit 0 1 else NumOps.sqrt (NumOps.sum fun k => sq (tr x i k - tr x j k)))
    exact ⟨_, by dsimp only; rw [hT]; rfl⟩
  obtain ⟨y, hy⟩ := this
  exact ⟨y, hy, fun a j => nan_ottoReweight I hy a j j (hx a j)⟩

theorem ottoSlice_flat (hinv : InvOfNan I) (hN : 0 < N) (hM : 0 < M) {env : Env ρ ℝ}
    {env' : Env ρ K} (he : SameEnv em env env') {c : Cfg d N M ℝ} {c' : Cfg d N M K} (hc : SameCfg em c c')
    (hk : effKern c.kern = "RBF") (hs : c.reweight = true → SolverReturns env') (i : ℕ) (hi : 1 < i)
    (x : Mat d N ℝ) (hx : ¬ Spread x) (t : ℝ) (r r' : ρ) (y : Mat d N ℝ) (hr : ottoSlice env c i t x r = .ok (y, r')) :
    ∃ w, ottoSlice env' c' i (em t) (emM em x) r = .ok (w, r') ∧ AllNan I w := by
  unfold Spread at hx
  push Not at hx
  obtain ⟨a, ha⟩ := hx
  have hi1 : i ≠ 1 := by omega
  rw [ottoSlice_bind, if_neg hi1, hk] at hr
  obtain ⟨raw, r1, h1, h2⟩ := RandM.bind_ok.1 hr
  have hr1 := unifsNext_ottoStep I h hfin hN true env h1
  obtain ⟨w, hw, hn⟩ := ottoStep_flat I h hfin hinv hN hM true he c'.g c'.f x a ha (em t - dtc) r
  rw [ottoSlice_bind, if_neg hi1, hc.kern, hk, RandM.bind_app, hw, hc.reweight, ← hr1]
  simp only []
  by_cases hrw : c.reweight = true
  · rw [if_pos hrw] at h2 ⊢
    have hU := hc.U
    cases hcU : c.U with
    | none =>
      rw [hcU] at h2
      exact absurd h2 (by rintro ⟨⟩)
    | some U =>
      rw [hcU] at hU
      cases hcU' : c'.U with
      | none => rw [hcU'] at hU; exact hU.elim
      | some U' =>
        obtain ⟨y', hy', hn'⟩ := ottoReweight_nan I (hs hrw) U' w (em t) hn
        exact ⟨y', by rw [hy', ← (RandM.lift_ok.1 h2).2]; rfl, hn'⟩
  · rw [if_neg hrw] at h2 ⊢
    exact ⟨w, by rw [(RandM.pure_ok.1 h2).2]; rfl, hn⟩

omit h hfin in
theorem ottoSlice_bad (hd : 0 < d) (hN : 0 < N) (env' : Env ρ K) (c' : Cfg d N M K) (i : ℕ) (hi : 1 < i)
    (w : Mat d N K) (hw : AllNan I w) (t : K) (r : ρ) :
    ottoSlice env' c' i t w r = .error (if d < 2 then .indexError else .overflowError) := by
  rw [ottoSlice_bind, if_neg (by omega), RandM.bind_app,
    ottoStep_nan I true env' _ _ _ w _ ⟨0, hd⟩ ⟨0, hN⟩ (hw _ _)]
  simp

theorem trueSlice_flat (hinv : InvOfNan I) (hN : 0 < N) (hM : 0 < M) {env : Env ρ ℝ}
    {env' : Env ρ K} (he : SameEnv em env env') {c : Cfg d N M ℝ} {c' : Cfg d N M K} (hc : SameCfg em c c')
    (hk : effKern c.kern = "RBF") (i : ℕ) (hi : 1 < i)
    (x : Mat d N ℝ) (hx : ¬ Spread x) (t : ℝ) (r r' : ρ) (y : Mat d N ℝ) (hr : trueSlice env c i t x r = .ok (y, r')) :
    ∃ w, trueSlice env' c' i (em t) (emM em x) r = .ok (w, r') ∧ AllNan I w := by
  unfold Spread at hx
  push Not at hx
  obtain ⟨a, ha⟩ := hx
  have hi1 : i ≠ 1 := by omega
  have hf := hc.fTrue
  cases hcf : c.fTrue with
  | none =>
    rw [trueSlice, hcf] at hr
    exact absurd hr (by rintro ⟨⟩)
  | some f =>
    rw [hcf] at hf
    cases hcf' : c'.fTrue with
    | none => rw [hcf'] at hf; exact hf.elim
    | some f' =>
      rw [trueSlice, hcf] at hr
      simp only [if_neg hi1, hk] at hr
      have hr1 := unifsNext_ottoStep I h hfin hN false env hr
      obtain ⟨w, hw, hn⟩ := ottoStep_flat I h hfin hinv hN hM false he c'.g f' x a ha (em t - dtc) r
      refine ⟨w, ?_, hn⟩
      rw [trueSlice, hcf']
      simp only [if_neg hi1, hc.kern, hk]
      rw [hw, hr1]

omit h hfin in
theorem trueSlice_bad (hd : 0 < d) (hN : 0 < N) (env' : Env ρ K) (c' : Cfg d N M K) (hf : c'.fTrue ≠ none)
    (i : ℕ) (hi : 1 < i) (w : Mat d N K) (hw : AllNan I w) (t : K) (r : ρ) :
    trueSlice env' c' i t w r = .error .overflowError := by
  unfold trueSlice
  cases hcf : c'.fTrue with
  | none => exact absurd hcf hf
  | some f =>
    simp only []
    rw [if_neg (by omega), ottoStep_nan I false env' _ _ _ w _ ⟨0, hd⟩ ⟨0, hN⟩ (hw _ _)]
    simp

end
end
end DPFC
