import Verif.Lib.TorchControl
import Verif.Props.Control

/-!
# What `calculate_u` of the torch class returns (C35, C36, C38, C39)

As in `Props/Control.lean`, for every object. Unlike the numpy class the reference flow is the true-drift
flow in reweighted Brownian-bridge mode in both branches, without any clipping.
-/

namespace DPFC
open Spec
variable {ρ : Type} {N M d n c : ℕ}

/-- **C36** (torch). At the edge time indices the control is, per coordinate, the derivative of the log of
the normal density with the mean and sample standard deviation of the backward particles minus that for the
reference particles. No random numbers are drawn. -/
theorem C36_torch_edge_control (env : Env ρ ℝ) (o : Obj d N M ℝ) (hN : 2 ≤ N) (x : Mat n d ℝ) (ti : Int)
    (he : Edge o.timegrid.length ti) (b z zr : Mat d N ℝ) (hb : pyAt o.B ti = some b)
    (hz : pyAt o.Z ti = some z) (hr : reference o ti = some zr) (sb : Spread b) (sz : Spread zr)
    (r : ρ) :
    ∃ u : Mat d n ℝ, torchCalculateU env o x ti r = .ok (⟨d, n, u⟩, r) ∧
      ∀ a j, u a j = sampleGaussScore (b a) (x j a) - sampleGaussScore (zr a) (x j a) := by
  rw [torchCalculateU_edge env o x ti b z zr (by omega) hb hz hr he, edgeU_ok torchStd b zr x (le_refl d)]
  refine ⟨_, rfl, fun a j => ?_⟩
  rw [dif_pos a.2]
  exact sampleGaussU _ _ (sampleSdev_ne_zero hN (sb a)) (sampleSdev_ne_zero hN (sz a)) _

/-- **C39** (torch). At interior time indices the control is the score estimate of the backward particles
minus that of the reference particles, with the same inducing points, uniform in the box spanned by both
clouds, both evaluated at the given points; `M*d` uniforms are drawn. -/
theorem C39_torch_interior_control (env : Env ρ ℝ) (o : Obj d N M ℝ) (hN : 0 < N) (hd : 2 ≤ d)
    (hk : o.cfg.kern = "RBF" ∨ o.cfg.kern = "periodic") (x : Mat n d ℝ) (ti : Int)
    (he : ¬ Edge o.timegrid.length ti) (b z zr : Mat d N ℝ) (hb : pyAt o.B ti = some b)
    (hz : pyAt o.Z ti = some z) (hr : reference o ti = some zr)
    (hbox : ∀ a, hullLow zr b a < hullHigh zr b a) (r : ρ) :
    torchCalculateU env o x ti r = .ok
      (⟨d, n, fun a j =>
          tpointScore b (tinducing (hullLow zr b) (hullHigh zr b) (tunifs env d M r)) x a j
          - tpointScore zr (tinducing (hullLow zr b) (hullHigh zr b) (tunifs env d M r)) x a j⟩,
       tunifsNext env d M r) := by
  rw [torchCalculateU_inner env o x ti b z zr _ hb hz hr (hullBox_real hN zr b) he, effKern_rbf hk,
    RandM.bind_app, torchInducing_real env _ r hbox]
  have e : ∀ (X : Mat N d ℝ) (S : Mat M d ℝ) (l : Fin d → ℝ) (C : ℝ),
      torchScoreFn X S (.tensor l) C "RBF" (.tensor x) = .ok fun i j => score (1/1000) l X S j (x i) :=
    fun X S l C => torchScoreFn_real X S _ l (classify_tensor hd l) (by intro w h; cases h) C x
  simp only [e, RandM.liftM_ok, pure_bind, RandM.pure_app, torchLengthScales_real]
  rfl

/-- **C39** (torch, no spread). If in some coordinate all particles of both clouds coincide, an interior
query raises ValueError (the uniform distribution on an empty range is rejected). -/
theorem C39_torch_no_spread_raises (env : Env ρ ℝ) (o : Obj d N M ℝ) (hN : 0 < N)
    (x : Mat n c ℝ) (ti : Int)
    (he : ¬ Edge o.timegrid.length ti) (b z zr : Mat d N ℝ) (hb : pyAt o.B ti = some b)
    (hz : pyAt o.Z ti = some z) (hr : reference o ti = some zr)
    (a : Fin d) (v : ℝ) (hv : ∀ p, b a p = v ∧ zr a p = v) (r : ρ) :
    torchCalculateU env o x ti r = .error .valueError := by
  rw [torchCalculateU_inner env o x ti b z zr _ hb hz hr (hullBox_real hN zr b) he, RandM.bind_app,
    torchInducing_err env _ r a]
  have e1 : b a = fun _ => v := funext fun p => (hv p).1
  have e2 : zr a = fun _ => v := funext fun p => (hv p).2
  simp only [e1, e2, (pt_lo_hi hN v).1, (pt_lo_hi hN v).2, min_self, max_self, lt_irrefl, not_false_eq_true]

/-- **C39** (torch, coinciding flows). Where backward and reference particles coincide the control is zero,
in both branches and all modes. -/
theorem C39_torch_zero_if_equal (env : Env ρ ℝ) (o : Obj d N M ℝ) (hN : 2 ≤ N) (hd : 2 ≤ d)
    (hk : o.cfg.kern = "RBF" ∨ o.cfg.kern = "periodic") (x : Mat n d ℝ) (ti : Int)
    (b z : Mat d N ℝ) (hb : pyAt o.B ti = some b) (hz : pyAt o.Z ti = some z)
    (hr : reference o ti = some b) (sb : Spread b) (r : ρ) :
    ∃ r', torchCalculateU env o x ti r = .ok (⟨d, n, fun _ _ => 0⟩, r') := by
  by_cases he : Edge o.timegrid.length ti
  · obtain ⟨u, h, hu⟩ := C36_torch_edge_control env o hN x ti he b z b hb hz hr sb sb r
    refine ⟨r, ?_⟩
    rw [h]
    congr 3
    funext a j
    rw [hu, sub_self]
  · refine ⟨tunifsNext env d M r, ?_⟩
    rw [C39_torch_interior_control env o (by omega) hd hk x ti he b z b hb hz hr (fun a => ?_) r]
    · simp only [sub_self]
    · simp only [hullLow, hullHigh, min_self, max_self]
      exact lo_lt_hi_of_spread (by omega) (sb a)

/-- **C35** (torch dispatch). As in the numpy class the Gaussian formula is used exactly for `ti <= 5` or
`ti >= k-5`, kernel scores with freshly drawn inducing points otherwise. -/
theorem C35_torch_dispatch (env : Env ρ ℝ) (o : Obj d N M ℝ) (hN : 2 ≤ N) (hd : 2 ≤ d)
    (hk : o.cfg.kern = "RBF" ∨ o.cfg.kern = "periodic") (x : Mat n d ℝ) (ti : Int)
    (b z zr : Mat d N ℝ) (hb : pyAt o.B ti = some b) (hz : pyAt o.Z ti = some z)
    (hr : reference o ti = some zr) (sb : Spread b) (sz : Spread zr) (r : ρ) :
    ∃ (u : Mat d n ℝ) (r' : ρ), torchCalculateU env o x ti r = .ok (⟨d, n, u⟩, r') ∧
      (ti ≤ 5 ∨ (o.timegrid.length : Int) - 5 ≤ ti →
        r' = r ∧ ∀ a j, u a j = sampleGaussScore (b a) (x j a) - sampleGaussScore (zr a) (x j a)) ∧
      (5 < ti ∧ ti < (o.timegrid.length : Int) - 5 →
        r' = tunifsNext env d M r ∧
        ∃ P, P = tinducing (hullLow zr b) (hullHigh zr b) (tunifs env d M r) ∧
          ∀ a j, u a j = tpointScore b P x a j - tpointScore zr P x a j) := by
  by_cases he : Edge o.timegrid.length ti
  · obtain ⟨u, h, hu⟩ := C36_torch_edge_control env o hN x ti he b z zr hb hz hr sb sz r
    refine ⟨u, r, h, fun _ => ⟨rfl, hu⟩, fun h => ?_⟩
    unfold Edge at he; omega
  · refine ⟨_, _, C39_torch_interior_control env o (by omega) hd hk x ti he b z zr hb hz hr (fun a => ?_) r,
      fun h => absurd h he, fun _ => ⟨rfl, _, rfl, fun _ _ => rfl⟩⟩
    exact lt_of_le_of_lt (min_le_right _ _) (lt_of_lt_of_le (lo_lt_hi_of_spread (by omega) (sb a))
      (le_max_right _ _))

/-- **C38** (torch, Gaussian branch). `n` points with `c` columns: fewer than `dim` columns raise
IndexError; otherwise the result is `c x n`, its rows beyond `dim` are zero and the others do not depend on
the extra columns. -/
theorem C38_torch_edge_layout (env : Env ρ ℝ) (o : Obj d N M ℝ) (hN : 2 ≤ N) (x : Mat n c ℝ) (ti : Int)
    (he : Edge o.timegrid.length ti) (b z zr : Mat d N ℝ) (hb : pyAt o.B ti = some b)
    (hz : pyAt o.Z ti = some z) (hr : reference o ti = some zr) (sb : Spread b) (sz : Spread zr)
    (r : ρ) :
    (c < d → torchCalculateU env o x ti r = .error .indexError) ∧
    (d ≤ c → ∃ u : Mat c n ℝ, torchCalculateU env o x ti r = .ok (⟨c, n, u⟩, r) ∧
      (∀ a j, d ≤ a.val → u a j = 0) ∧
      ∀ a j (h : a.val < d), u a j
        = sampleGaussScore (b ⟨a, h⟩) (x j a) - sampleGaussScore (zr ⟨a, h⟩) (x j a)) := by
  rw [torchCalculateU_edge env o x ti b z zr (by omega) hb hz hr he]
  constructor
  · intro h
    rw [edgeU_err torchStd b zr x h]; rfl
  · intro h
    rw [edgeU_ok torchStd b zr x h]
    refine ⟨_, rfl, fun a j ha => ?_, fun a j ha => ?_⟩
    · rw [dif_neg (by omega)]; simp
    · rw [dif_pos ha]
      exact sampleGaussU _ _ (sampleSdev_ne_zero hN (sb _)) (sampleSdev_ne_zero hN (sz _)) _

/-- **C38** (torch, kernel branch). A single column is silently repeated over all coordinates; a column
count other than 1 and `dim` raises RuntimeError. In one dimension every interior query raises NameError (the
tensor lengthscale is then treated as a scalar, for which the function lacks a definition). -/
theorem C38_torch_interior_layout (env : Env ρ ℝ) (o : Obj d N M ℝ) (hN : 0 < N)
    (hk : o.cfg.kern = "RBF" ∨ o.cfg.kern = "periodic") (ti : Int)
    (he : ¬ Edge o.timegrid.length ti) (b z zr : Mat d N ℝ) (hb : pyAt o.B ti = some b)
    (hz : pyAt o.Z ti = some z) (hr : reference o ti = some zr)
    (hbox : ∀ a, hullLow zr b a < hullHigh zr b a) (r : ρ) :
    (2 ≤ d → ∀ y : Mat n 1 ℝ, torchCalculateU env o y ti r
      = torchCalculateU env o (fun j (_ : Fin d) => y j 0) ti r) ∧
    (2 ≤ d → ∀ x : Mat n c ℝ, c ≠ d → c ≠ 1 → torchCalculateU env o x ti r = .error .runtimeError) ∧
    (d = 1 → ∀ x : Mat n c ℝ, torchCalculateU env o x ti r = .error .nameError) := by
  refine ⟨fun hd y => ?_, fun hd x h1 h2 => ?_, fun hd x => ?_⟩
  · rw [torchCalculateU_inner env o y ti b z zr _ hb hz hr (hullBox_real hN zr b) he,
      torchCalculateU_inner env o _ ti b z zr _ hb hz hr (hullBox_real hN zr b) he, effKern_rbf hk]
    simp only [torchScoreFn_one hd]
  · rw [torchCalculateU_inner env o x ti b z zr _ hb hz hr (hullBox_real hN zr b) he, effKern_rbf hk,
      RandM.bind_app, torchInducing_real env _ r hbox]
    have : ∀ (X : Mat N d ℝ) (S : Mat M d ℝ) (l : Fin d → ℝ) (C : ℝ),
        torchScoreFn X S (.tensor l) C "RBF" (.tensor x) = .error .runtimeError := by
      intro X S l C
      have e : (TLS.tensor l).classify = .ok (LS.vec l) := classify_tensor hd l
      simp only [torchScoreFn, torchCommon_real X S _ _ e, Except.ok_bind', torchKsz, if_true,
        dif_neg (show ¬ (c = d ∨ c = 1) by omega)]
      rfl
    simp only [this]
    rfl
  · rw [torchCalculateU_inner env o x ti b z zr _ hb hz hr (hullBox_real hN zr b) he, effKern_rbf hk,
      RandM.bind_app, torchInducing_real env _ r hbox]
    have : ∀ (X : Mat N d ℝ) (S : Mat M d ℝ) (l : Fin d → ℝ) (C : ℝ),
        torchScoreFn X S (.tensor l) C "RBF" (.tensor x) = .error .nameError := by
      intro X S l C
      have e : (TLS.tensor l).classify = .ok (.scalar (l ⟨0, by omega⟩)) := by
        simp only [TLS.classify]; rw [if_neg (by omega), dif_pos hd]
      simp only [torchScoreFn, torchCommon_real X S _ _ e, Except.ok_bind', torchKsz, if_true]
      rfl
    simp only [this]
    rfl

/-- The hypotheses are met, for the edge index 3 and the interior index 10, in plain and in reweighted
Brownian-bridge mode. -/
example (x : Mat 4 2 ℝ) (rw bb : Bool) :
    (∃ (u : Mat 2 4 ℝ), torchCalculateU exEnv (exObj rw bb) x 3 0 = .ok (⟨2, 4, u⟩, 0)) ∧
    (∃ (u : Mat 2 4 ℝ) (r' : ℕ), torchCalculateU exEnv (exObj rw bb) x 10 0 = .ok (⟨2, 4, u⟩, r')) ∧
    torchCalculateU exEnv (exObj rw bb) (fun (_ : Fin 4) (_ : Fin 3) => (0:ℝ)) 10 0 = .error .runtimeError := by
  have hl : (exObj rw bb).timegrid.length = 20 := by simp [exObj]
  have h3 := exObj_slices rw bb 3 (by norm_num) (by norm_num)
  have h10 := exObj_slices rw bb 10 (by norm_num) (by norm_num)
  have href : ∀ ti : Int, 0 ≤ ti → ti < 20 → ∃ zr : Mat 2 2 ℝ, reference (exObj rw bb) ti = some zr ∧
      Spread zr := by
    intro ti t0 t1
    unfold reference
    by_cases hm : ((exObj rw bb).cfg.reweight && (exObj rw bb).cfg.brownBridge) = true
    · rw [if_pos hm]
      refine ⟨fun a n => 3 * (a.val : ℝ) + n.val - 5, ?_, fun a => sdev_ne_zero (i := 0) (j := 1) (by simp)⟩
      simp only [exObj, Option.bind_some, pyAt, if_pos t0, List.getElem?_replicate,
        if_pos (show ti.toNat < 20 by omega)]
    · rw [if_neg hm]
      exact ⟨_, (exObj_slices rw bb ti t0 t1).2, exObj_spread.2⟩
  have hne : ¬ Edge (exObj rw bb).timegrid.length 10 := by rw [hl]; unfold Edge; norm_num
  obtain ⟨z3, r3, s3⟩ := href 3 (by norm_num) (by norm_num)
  obtain ⟨z10, r10, s10⟩ := href 10 (by norm_num) (by norm_num)
  have hbox : ∀ a, hullLow z10 (fun (a n : Fin 2) => ((a.val : ℝ) + n.val + 1)) a
      < hullHigh z10 (fun (a n : Fin 2) => ((a.val : ℝ) + n.val + 1)) a := fun a =>
    lt_of_le_of_lt (min_le_right _ _) (lt_of_lt_of_le
      (lo_lt_hi_of_spread (by norm_num) (exObj_spread.1 a)) (le_max_right _ _))
  refine ⟨?_, ?_, ?_⟩
  · obtain ⟨u, h, _⟩ := C36_torch_edge_control exEnv (exObj rw bb) (by norm_num) x 3 (.inl (by norm_num))
      _ _ _ h3.1 h3.2 r3 exObj_spread.1 s3 0
    exact ⟨u, h⟩
  · obtain ⟨u, r', h, _⟩ := C35_torch_dispatch exEnv (exObj rw bb) (by norm_num) (by norm_num) (.inl rfl) x 10
      _ _ _ h10.1 h10.2 r10 exObj_spread.1 s10 0
    exact ⟨u, r', h⟩
  · exact (C38_torch_interior_layout exEnv (exObj rw bb) (by norm_num) (.inl rfl) 10 hne _ _ _ h10.1 h10.2
      r10 hbox 0).2.1 (by norm_num) _ (by norm_num) (by norm_num)

end DPFC
