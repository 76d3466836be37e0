import Verif.Props.Control

/-!
# `calculate_u` between the edges in reweighted Brownian-bridge mode (C40)
-/

namespace DPFC
open Spec
variable {ρ : Type} {N M d n c : ℕ}

theorem clip1_real (v l h : ℝ) : clip1 v l h = min h (max v l) := by
  have e1 : ∀ f : Fin 2 → ℝ, NumOps.amin (n := 1) f = min (f 0) (f 1) := by
    intro f
    rw [real_amin]
    apply le_antisymm
    · exact le_min (Finset.inf'_le _ (Finset.mem_univ _)) (Finset.inf'_le _ (Finset.mem_univ _))
    · refine Finset.le_inf' _ _ fun i _ => ?_
      fin_cases i
      · exact min_le_left _ _
      · exact min_le_right _ _
  have e2 : ∀ f : Fin 2 → ℝ, NumOps.amax (n := 1) f = max (f 0) (f 1) := by
    intro f
    rw [real_amax]
    apply le_antisymm
    · refine Finset.sup'_le _ _ fun i _ => ?_
      fin_cases i
      · exact le_max_left _ _
      · exact le_max_right _ _
    · exact max_le (Finset.le_sup' _ (Finset.mem_univ _)) (Finset.le_sup' _ (Finset.mem_univ _))
  rw [clip1, e1, e2]
  simp

/-- The bounds array of `calculate_u` for coordinate `di`. -/
noncomputable def bz0 (zt : Mat d N ℝ) (di : Fin d) : Mat d 2 ℝ :=
  fun a e => if a = di then (if e.val = 0 then lo (zt di) else hi (zt di)) else 0

theorem bndsZtr_real (hN : 0 < N) (zt : Mat d N ℝ) (di : Fin d) : bndsZtr zt di = .ok (bz0 zt di) := by
  rw [bndsZtr, npMin_real hN, npMax_real hN]
  simp only [Except.ok_bind', real_lit_zero]
  rfl

/-- The clipped points of `calculate_u` for two coordinates. -/
theorem clipGrid_two (zt : Mat 2 N ℝ) (di : Fin 2) (x : Mat n 2 ℝ) :
    clipGrid (bz0 zt di) x = (.ok fun j => bridgePoint zt di (x j) : Except PyErr (Mat n 2 ℝ)) := by
  unfold clipGrid
  rw [dif_pos (le_refl 2), dif_pos (Or.inl rfl)]
  congr 1
  funext j e
  simp only [clip1_real, bridgePoint, bz0]
  fin_cases di <;> fin_cases e <;> simp

/-- **C40**. In reweighted Brownian-bridge mode with two coordinates, at interior indices, the backward
score is evaluated at the given points but the reference score of component `a` at the clipped points
`bridgePoint z a`. -/
theorem C40_bridge_control (env : Env ρ ℝ) (o : Obj 2 N M ℝ) (hN : 0 < N)
    (hk : o.cfg.kern = "RBF" ∨ o.cfg.kern = "periodic")
    (hm : o.cfg.reweight = true ∧ o.cfg.brownBridge = true) (x : Mat n 2 ℝ) (ti : Int)
    (he : ¬ Edge o.timegrid.length ti) (b z zr : Mat 2 N ℝ) (hb : pyAt o.B ti = some b)
    (hz : pyAt o.Z ti = some z) (hr : reference o ti = some zr) (r : ρ) :
    calculateU env o x ti r = .ok
      (fun a j => pointScore b (inducing (ibLow zr b) (ibHigh zr b) (unifs env 2 M r)) x a j
        - pointScore zr (inducing (ibLow zr b) (ibHigh zr b) (unifs env 2 M r))
            (fun j => bridgePoint zr a (x j)) a j,
       unifsNext env 2 M r) := by
  rw [calculateU_inner env o x ti b z zr _ hb hz hr (interBox_real hN zr b) he, hm.1, hm.2,
    effKern_rbf hk, RandM.bind_app, npInducing_gen]
  simp only [Bool.and_self, if_true]
  have key : ∀ Sxx : Mat 2 M ℝ, kernelU "RBF" Sxx b z (some zr) x
      = .ok fun a j => pointScore b (tr Sxx) x a j
        - pointScore zr (tr Sxx) (fun j => bridgePoint zr a (x j)) a j := by
    intro Sxx
    unfold kernelU
    have : ∀ di : Fin 2, ∀ u : Mat 2 n ℝ, (scoreSepFn (tr b) (tr Sxx) (lit 1 1000) "RBF"
        (.vec (lengthScales b)) (di.val + 1) x >>= fun sB =>
      (bndsZtr zr di >>= fun bz => clipGrid bz x >>= fun gx =>
        scoreSepFn (tr zr) (tr Sxx) (lit 1 1000) "RBF" (.vec (lengthScales zr)) (di.val + 1) gx
        >>= fun sF => setOut u di.val fun j => sB j - sF j))
      = ((Except.ok fun j => pointScore b (tr Sxx) x di j
          - pointScore zr (tr Sxx) (fun j => bridgePoint zr di (x j)) di j :
        Except PyErr (Fin n → ℝ)) >>= fun v => setOut u di.val v) := by
      intro di u
      have hi : pyIdx 2 ((di.val : Int) + 1 - 1) = .ok di.val := by
        rw [Int.add_sub_cancel]; exact pyIdx_nat 2 di.2
      rw [bndsZtr_real hN]
      simp only [Except.ok_bind', clipGrid_two]
      rw [real_lit_milli, scoreSepFn_real milli_gt _ _ _ _ di hi, Except.ok_bind',
        scoreSepFn_real milli_gt _ _ _ _ di hi, lengthScales_real, lengthScales_real]
      rfl
    rw [forFin_congr this, fill_ok]
    refine ⟨le_refl _, _, fun _ => rfl, ?_⟩
    funext a j
    rw [dif_pos a.2]
  rw [key]
  rfl

/-- **C40** (bounds). The points used for the first component have no positive coordinate. -/
theorem C40_clipped_nonpos (z : Fin 2 → Fin N → ℝ) (y : Fin 2 → ℝ) :
    bridgePoint z 0 y 0 ≤ 0 ∧ bridgePoint z 0 y 1 ≤ 0 := by
  simp [bridgePoint]

/-- **C40** (consequence). At all query points with non-negative coordinates the first control component
is the backward score minus one and the same number, the reference score at the origin. -/
theorem C40_same_reference_score (env : Env ρ ℝ) (o : Obj 2 N M ℝ) (hN : 0 < N)
    (hk : o.cfg.kern = "RBF" ∨ o.cfg.kern = "periodic")
    (hm : o.cfg.reweight = true ∧ o.cfg.brownBridge = true) (x : Mat n 2 ℝ) (ti : Int)
    (he : ¬ Edge o.timegrid.length ti) (b z zr : Mat 2 N ℝ) (hb : pyAt o.B ti = some b)
    (hz : pyAt o.Z ti = some z) (hr : reference o ti = some zr) (hx : ∀ j a, 0 ≤ x j a) (r : ρ) :
    ∃ (u : Mat 2 n ℝ) (r' : ρ) (P : Fin M → Fin 2 → ℝ), calculateU env o x ti r = .ok (u, r') ∧
      ∀ j, u 0 j = pointScore b P x 0 j
        - score (1/1000) (fun k => 2 * sdev (zr k)) (particle zr) P 0 (fun _ => 0) := by
  refine ⟨_, _, inducing (ibLow zr b) (ibHigh zr b) (unifs env 2 M r),
    C40_bridge_control env o hN hk hm x ti he b z zr hb hz hr r, fun j => ?_⟩
  have : bridgePoint zr 0 (x j) = fun _ => 0 := by
    funext e
    fin_cases e
    · simp [bridgePoint, hx j 0]
    · simp [bridgePoint, hx j 1]
  simp only [pointScore, this]

/-- **C40** (other dimensions). In reweighted Brownian-bridge mode the kernel branch raises for every
dimension other than two, whatever the points; with points of the right width `dim` it is IndexError for
`dim = 1` and ValueError for `dim >= 3`. -/
theorem C40_other_dims_raise (env : Env ρ ℝ) (o : Obj d N M ℝ) (hN : 0 < N) (hd : 0 < d) (h2 : d ≠ 2)
    (hk : o.cfg.kern = "RBF" ∨ o.cfg.kern = "periodic")
    (hm : o.cfg.reweight = true ∧ o.cfg.brownBridge = true) (x : Mat n c ℝ) (ti : Int)
    (he : ¬ Edge o.timegrid.length ti) (b z zr : Mat d N ℝ) (hb : pyAt o.B ti = some b)
    (hz : pyAt o.Z ti = some z) (hr : reference o ti = some zr) (r : ρ) :
    (∃ e, calculateU env o x ti r = .error e) ∧
    (c = d → calculateU env o x ti r = .error (if d = 1 then .indexError else .valueError)) := by
  rw [calculateU_inner env o x ti b z zr _ hb hz hr (interBox_real hN zr b) he, hm.1, hm.2,
    effKern_rbf hk, RandM.bind_app, npInducing_gen]
  simp only [Bool.and_self, if_true]
  have fin : ∀ (m : Except PyErr (Mat c n ℝ)) (e : PyErr) (r : ρ), m = .error e →
      (liftM m : RandM ρ (Mat c n ℝ)) r = .error e := by
    rintro m e r rfl; rfl
  obtain ⟨d, rfl⟩ : ∃ e, d = e + 1 := ⟨d - 1, by omega⟩
  suffices key : ∀ Sxx : Mat (d+1) M ℝ, (∃ e, kernelU "RBF" Sxx b z (some zr) x = .error e) ∧
      (c = d + 1 → kernelU "RBF" Sxx b z (some zr) x
        = .error (if d + 1 = 1 then .indexError else .valueError)) by
    refine ⟨?_, fun hc => fin _ _ _ ((key _).2 hc)⟩
    obtain ⟨e, h⟩ := (key _).1
    exact ⟨e, fin _ _ _ h⟩
  intro Sxx
  constructor
  · by_cases hc0 : c = 0
    · subst hc0
      refine ⟨.typeError, ?_⟩
      unfold kernelU
      rw [forFin, scoreSepFn_zero]
      rfl
    by_cases hgt : d + 1 < c
    · refine ⟨.indexError, ?_⟩
      unfold kernelU
      rw [forFin, scoreSepFn_gt (tr b) _ (lengthScales b) 0 x hgt]
      rfl
    obtain ⟨v, hv⟩ := scoreSepFn_lt (tr b) (tr Sxx) (lengthScales b) 0 x (by omega) (by omega)
    by_cases hd1 : d + 1 = 1
    · refine ⟨.indexError, ?_⟩
      unfold kernelU
      rw [forFin, hv]
      simp only [Except.ok_bind', bndsZtr_real hN, clipGrid, dif_neg (show ¬ 2 ≤ d + 1 by omega)]
      rfl
    by_cases hc3 : 2 < c
    · refine ⟨.valueError, ?_⟩
      unfold kernelU
      rw [forFin, hv]
      simp only [Except.ok_bind', bndsZtr_real hN, clipGrid, dif_pos (show 2 ≤ d + 1 by omega),
        dif_neg (show ¬ (c = 2 ∨ c = 1) by omega)]
      rfl
    · refine ⟨.indexError, ?_⟩
      have hc' : c = 2 ∨ c = 1 := by omega
      unfold kernelU
      have hall : ∀ (i : Fin (d+1)), ∃ v w, scoreSepFn (tr b) (tr Sxx) (lit 1 1000) "RBF"
          (.vec (lengthScales b)) (i.val + 1) x = .ok v ∧ ∃ gx, clipGrid (bz0 zr i) x = .ok gx ∧
          scoreSepFn (tr zr) (tr Sxx) (lit 1 1000) "RBF" (.vec (lengthScales zr)) (i.val + 1) gx = .ok w := by
        intro i
        obtain ⟨v, hv⟩ := scoreSepFn_lt (tr b) (tr Sxx) (lengthScales b) i x (by omega) (by omega)
        have hg : ∃ gx, clipGrid (bz0 zr i) x = .ok gx := by
          unfold clipGrid
          rw [dif_pos (by omega), dif_pos hc']
          exact ⟨_, rfl⟩
        obtain ⟨gx, hg⟩ := hg
        obtain ⟨w, hw⟩ := scoreSepFn_lt (tr zr) (tr Sxx) (lengthScales zr) i gx (by omega) (by omega)
        exact ⟨v, w, hv, gx, hg, hw⟩
      refine forFin_error_index _ (fun i s e hh => ?_) ⟨c, by omega⟩ (fun s => ?_)
      · obtain ⟨v, w, hv, gx, hg, hw⟩ := hall i
        simp only [hv, bndsZtr_real hN, hg, hw, Except.ok_bind', setOut] at hh
        split at hh
        · cases hh
        · injection hh with hh; exact hh.symm
      · obtain ⟨v, w, hv, gx, hg, hw⟩ := hall ⟨c, by omega⟩
        simp only [hv, bndsZtr_real hN, hg, hw, Except.ok_bind', setOut, lt_irrefl, if_false]
  · rintro rfl
    obtain ⟨v, hv⟩ := scoreSepFn_lt (tr b) (tr Sxx) (lengthScales b) 0 x (by omega) (le_refl _)
    unfold kernelU
    rw [forFin, hv]
    by_cases hd1 : d + 1 = 1
    · rw [if_pos hd1]
      simp only [Except.ok_bind', bndsZtr_real hN, clipGrid, dif_neg (show ¬ 2 ≤ d + 1 by omega)]
      rfl
    · rw [if_neg hd1]
      simp only [Except.ok_bind', bndsZtr_real hN, clipGrid, dif_pos (show 2 ≤ d + 1 by omega),
        dif_neg (show ¬ (d + 1 = 2 ∨ d + 1 = 1) by omega)]
      rfl

/-- The hypotheses of C40 are met: interior index 10 of an object in reweighted Brownian-bridge mode. -/
example (x : Mat 4 2 ℝ) : ∃ (u : Mat 2 4 ℝ) (r : ℕ),
    calculateU exEnv (exObj true true) x 10 0 = .ok (u, r) := by
  have hl : (exObj true true).timegrid.length = 20 := by simp [exObj]
  have h10 := exObj_slices true true 10 (by norm_num) (by norm_num)
  have hr : reference (exObj true true) 10 = some fun a n => 3 * (a.val : ℝ) + n.val - 5 := by
    simp only [reference, exObj, exCfg]
    rfl
  exact ⟨_, _, C40_bridge_control exEnv (exObj true true) (by norm_num) (.inl rfl) ⟨rfl, rfl⟩ x 10
      (by rw [hl]; unfold Edge; norm_num) _ _ _ h10.1 h10.2 hr 0⟩

/-- A three-dimensional object in reweighted Brownian-bridge mode. -/
noncomputable def exObj3 : Obj 3 2 3 ℝ where
  cfg := exCfg 3 2 3 19 true true true
  timegrid := List.replicate 20 0
  Z := List.replicate 20 fun a n => (a.val : ℝ) + 2 * n.val
  B := List.replicate 20 fun a n => (a.val : ℝ) + n.val + 1
  Ztr := some (List.replicate 20 fun a n => 3 * (a.val : ℝ) + n.val - 5)

example (x : Mat 4 3 ℝ) : calculateU exEnv exObj3 x 10 0 = .error .valueError := by
  have hl : exObj3.timegrid.length = 20 := by simp [exObj3]
  have h := (C40_other_dims_raise exEnv exObj3 (by norm_num) (by norm_num) (by norm_num) (.inl rfl)
    ⟨rfl, rfl⟩ x 10 (by rw [hl]; unfold Edge; norm_num) _ _ _ rfl rfl rfl 0).2 rfl
  rw [h]; rfl

end DPFC
