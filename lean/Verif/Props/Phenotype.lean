import Verif.Lib.PhenotypeReal
import Verif.Lib.Examples

/-!
# C87, C88: particle flows with rejection

The class of the phenotype-differentiation example: `BRIDGE_ND_reweight` with deletion of backward paths.
-/

namespace DPFC
open Spec

variable {ρ : Type} {N M d m : ℕ}

/-- **C87** (exactly which paths are kept). A run with `reject=True` that returns has the same grid, forward flow and
final random state as the run with `reject=False`, and its backward paths are, in the original order and without
duplicates, exactly those whose first coordinate one step after the start is closer than `4 g^2 sqrt(dt)` to one Euler
step from `y1`; the other coordinates are not looked at and the kept paths are unchanged. -/
theorem C87_kept (env : Env ρ ℝ) (c : PhenoCfg (d+2) N ℝ) (hr : c.reject = true) (r r' : ρ) (o : PhenoObj (d+2) N ℝ)
    (h : phenoConstruct env M c r = .ok (o, r')) :
    ∃ (B : Traj (d+2) N ℝ) (b : Mat (d+2) N ℝ),
      phenoConstruct env M { c with reject := false } r
        = .ok (⟨{ c with reject := false }, o.timegrid, o.Z, N, B⟩, r') ∧
      B[1]? = some b ∧
      ∃ e : Fin o.nB → Fin N, StrictMono e ∧
        (∀ i, (∃ j, e j = i) ↔
          |b 0 i - (c.y1 0 + 1/1000 * c.f1 c.y1 c.t1 0)| < 4 * c.g^2 * Real.sqrt (1/1000)) ∧
        o.B = B.map fun S a j => S a (e j) := by
  obtain ⟨Z, r1, B, Bf, hZ, hB, hBf, rfl⟩ := phenoConstruct_ok.1 h
  obtain ⟨b, hb⟩ := rejectIdx_one hBf
  obtain ⟨Bf', e1, _, e2⟩ := reject_spec c B b hb
  rw [hBf] at e1
  cases e1
  obtain ⟨Bg, g1, g2, _⟩ := reject_spec { c with reject := false } B b hb
  rw [g2 rfl] at g1
  exact ⟨B, b, phenoConstruct_ok.2 ⟨Z, r1, B, _, hZ, hB, g1, rfl⟩, hb, e2 hr⟩

/-- **C87** (rejection never raises and nothing is deleted without it). If the run with `reject=False` returns, so does
the one with `reject=True`; and the former keeps all `N` paths. -/
theorem C87_never_raises (env : Env ρ ℝ) (c : PhenoCfg (d+2) N ℝ) (r r' : ρ) (o : PhenoObj (d+2) N ℝ)
    (h : phenoConstruct env M { c with reject := false } r = .ok (o, r')) :
    o.nB = N ∧ ∃ o', phenoConstruct env M { c with reject := true } r = .ok (o', r') ∧ o'.Z = o.Z ∧
      o'.timegrid = o.timegrid ∧ o'.nB ≤ N := by
  obtain ⟨Z, r1, B, Bf, hZ, hB, hBf, rfl⟩ := phenoConstruct_ok.1 h
  obtain ⟨b, hb⟩ := rejectIdx_one hBf
  obtain ⟨Bg, g1, g2, _⟩ := reject_spec { c with reject := false } B b hb
  rw [hBf] at g1
  cases g1
  obtain ⟨Bf', e1, _, e2⟩ := reject_spec { c with reject := true } B b hb
  obtain ⟨e, he, _⟩ := e2 rfl
  refine ⟨by rw [g2 rfl], _, phenoConstruct_ok.2 ⟨Z, r1, B, Bf', hZ, hB, e1, rfl⟩, rfl, rfl, ?_⟩
  simpa using Fintype.card_le_of_injective e he.injective

/-- **C87** (no noise, no paths). With `g = 0` and `reject=True` every backward path is deleted, and afterwards both
`calculate_u` and `check_if_covered` raise ValueError at every valid time index. -/
theorem C87_no_noise (env : Env ρ ℝ) (c : PhenoCfg (d+2) N ℝ) (hN : 0 < N) (hr : c.reject = true) (hg : c.g = 0) (r r' : ρ)
    (o : PhenoObj (d+2) N ℝ) (h : phenoConstruct env M c r = .ok (o, r')) :
    o.nB = 0 ∧ ∀ (ti : Int) z b, pyGet o.Z ti = .ok z → pyGet o.B ti = .ok b →
      (∀ (x : Mat (d+2) m ℝ) q, phenoU env M o x ti q = .error .valueError) ∧
      ∀ X, phenoCovered o X ti = .error .valueError := by
  obtain ⟨B, b, _, _, e, _, he, _⟩ := C87_kept env c hr r r' o h
  have h0 : o.nB = 0 := by
    by_contra hn
    have := (he (e ⟨0, by omega⟩)).1 ⟨_, rfl⟩
    rw [hg] at this
    have hp := abs_nonneg (b 0 (e ⟨0, by omega⟩) - (c.y1 0 + 1/1000 * c.f1 c.y1 c.t1 0))
    norm_num at this
    exact absurd hp (not_le.2 this)
  refine ⟨h0, ?_⟩
  obtain ⟨c', tg, Z, nB, B'⟩ := o
  simp only at h0 ⊢
  subst h0
  intro ti z b hz hb
  constructor
  · intro x q
    unfold phenoU
    simp only [hz, hb, RandM.liftM_ok, pure_bind]
    rw [interBox2_empty hN (by omega)]
    rfl
  · intro X
    unfold phenoCovered
    rw [forFin]
    have e0 : ∀ v : Fin 0 → ℝ, npMin v = .error .valueError := fun _ => rfl
    simp only [hz, hb, Except.ok_bind', npMin_real hN, e0, Except.error_bind']

/-- **C87** (short grids). On a grid with at most one point the constructor raises IndexError, with `reject=False` too. -/
theorem C87_short_grid (env : Env ρ ℝ) (c : PhenoCfg (d+2) N ℝ) (hk : (mkGrid c.t1 c.t2).length ≤ 1) (r : ρ) :
    phenoConstruct env M c r = .error .indexError := by
  unfold phenoConstruct
  generalize mkGrid c.t1 c.t2 = grid at hk
  match grid, hk with
  | [], _ =>
    unfold phenoForward phenoBackward
    simp only [enumLoop, List.dropLast_nil, pure_bind, List.length_nil]
    rw [pinRows, forFin]
    have : setRow (zerosT (d+2) N 0 : Traj (d+2) N ℝ) ((0 : Fin (d+2)).val : Int) 0 (c.y1 0)
      = .error .indexError := by
      unfold setRow
      rw [zerosT_length, pyIdx_empty, pyIdx_nat _ (by simp)]; rfl
    simp only [this, Except.error_bind', RandM.liftM_error, RandM.raise_bind, RandM.raise_app]
  | [t], _ =>
    unfold phenoForward phenoBackward
    rw [enumLoop, phenoFwdBody_zero _ _ _ _ (by rw [zerosT_length]; simp)]
    simp only [enumLoop, List.dropLast_singleton, pure_bind]
    rw [pinRows_ok _ _ 0 (pyIdx_zero (by rw [zerosT_length]; simp)), RandM.liftM_ok, pure_bind]
    unfold rejectTrajectories rejectIdx
    rw [rejectBounds_real]
    rfl

/-- **C87** (dimension). With fewer than two coordinates no construction returns. -/
theorem C87_dimension (env : Env ρ ℝ) (c : PhenoCfg d N ℝ) (hd : d < 2) (r r' : ρ) (o : PhenoObj d N ℝ) :
    phenoConstruct env M c r ≠ .ok (o, r') := by
  intro h
  obtain ⟨Z, r1, B, Bf, hZ, hB, hBf, rfl⟩ := phenoConstruct_ok.1 h
  unfold rejectTrajectories rejectIdx at hBf
  rw [rejectBounds_small hd] at hBf
  simp at hBf

/-- **C88** (the flows). A construction with the RBF kernel and without reweighting that returns, on a grid of `k >= 2`
points with at least one particle: the forward flow starts in `y1` and obeys the recurrence of the library's
deterministic flow (its pin to `y2` at the last index is overwritten); all `N` backward paths end in `y2`, obey the
backward recurrence with the forward slice of the same index, and start in `y1`; the random states are threaded through
the two flows. The object's paths are the kept ones (C87). -/
theorem C88_full_run (env : Env ρ ℝ) (c : PhenoCfg 2 N ℝ) (hN : 0 < N) (hk : c.kern = "RBF") (hr : c.reweight = false)
    (h2 : 2 ≤ (mkGrid c.t1 c.t2).length) (r r' : ρ) (o : PhenoObj 2 N ℝ)
    (h : phenoConstruct env M c r = .ok (o, r')) :
    o.timegrid = mkGrid c.t1 c.t2 ∧ o.Z.length = o.timegrid.length ∧ o.B.length = o.timegrid.length ∧
    o.Z[0]? = some (fun a _ => c.y1 a) ∧ o.B[0]? = some (fun a _ => c.y1 a) ∧
    o.B[o.timegrid.length - 1]? = some (fun a _ => c.y2 a) ∧
    ∃ (B : Traj 2 N ℝ) (rs rb : ℕ → ρ),
      phenoConstruct env M { c with reject := false } r
        = .ok (⟨{ c with reject := false }, o.timegrid, o.Z, N, B⟩, r') ∧
      rs 0 = r ∧ rb (o.timegrid.length - 2) = rs (o.timegrid.length - 1) ∧ rb 0 = r' ∧
      PhenoForwardRec env M c (fun i => o.Z[i]?) (fun i => o.timegrid[i]?) rs ∧
      PhenoBackwardRec env M c o.timegrid.length (fun i => o.Z[i]?) (fun i => B[i]?) (fun i => o.timegrid[i]?) rb := by
  obtain ⟨ys, r1, bs, Bf, hys, hbs, hBf, rfl⟩ := (phenoConstruct_iff hk hr h2).1 h
  have hyl := chain_length hys
  rw [List.length_tail] at hyl
  have hZl : (pt N c.y1 :: ys).length = (mkGrid c.t1 c.t2).length := by rw [List.length_cons]; omega
  have hbl := chain_length hbs
  rw [phaseVisits_length _ _ hZl.ge] at hbl
  obtain ⟨rs, h0, h1, hF⟩ := ottoChain_spec env (c.lib M) hN rfl ys r r1 h2 hys
  obtain ⟨rb, b0, b1, hBk⟩ := phenoBackChain_spec env c hN hk (pt N c.y1 :: ys) bs (pt N c.y1) (pt N c.y2)
    (mkGrid c.t1 c.t2) r1 r' h2 hZl hbs
  obtain ⟨b, hb⟩ := rejectIdx_one hBf
  have hBl : (pt N c.y1 :: (bs.reverse ++ [pt N c.y2])).length = (mkGrid c.t1 c.t2).length := by
    simp; omega
  have hlast : (pt N c.y1 :: (bs.reverse ++ [pt N c.y2]))[(mkGrid c.t1 c.t2).length - 1]? = some (pt N c.y2) := by
    obtain ⟨k, hk⟩ : ∃ k, (mkGrid c.t1 c.t2).length = k + 2 := ⟨_ - 2, (Nat.sub_add_cancel h2).symm⟩
    rw [hk, show k + 2 - 1 = k + 1 by omega, List.getElem?_cons_succ, List.getElem?_append_right (by simp; omega)]
    rw [hk] at hbl
    simp [show bs.length = k by omega]
  have hsel : Bf.2.length = (mkGrid c.t1 c.t2).length ∧ Bf.2[0]? = some (fun a _ => c.y1 a) ∧
      Bf.2[(mkGrid c.t1 c.t2).length - 1]? = some (fun a _ => c.y2 a) := by
    obtain ⟨Bf', e1, e2, e3⟩ := reject_spec (d := 0) c _ b hb
    rw [hBf] at e1
    cases e1
    cases hre : c.reject with
    | false => rw [e2 hre]; exact ⟨hBl, rfl, hlast⟩
    | true =>
      obtain ⟨e, _, _, e4⟩ := e3 hre
      rw [e4]
      refine ⟨by rw [List.length_map]; exact hBl, rfl, ?_⟩
      rw [List.getElem?_map, hlast]
      rfl
  refine ⟨rfl, hZl, hsel.1, rfl, hsel.2.1, hsel.2.2, pt N c.y1 :: (bs.reverse ++ [pt N c.y2]), rs, rb, ?_, h0, ?_, b1, ?_, hBk⟩
  · obtain ⟨Bg, g1, g2, _⟩ := reject_spec (d := 0) { c with reject := false } _ b hb
    rw [g2 rfl] at g1
    exact (phenoConstruct_iff (c := { c with reject := false }) hk hr h2).2 ⟨ys, r1, bs, _, hys, hbs, g1, rfl⟩
  · rw [b0]; exact h1.symm
  · intro i x y ti hx hy ht
    obtain ⟨raw, hs, hf, _⟩ := hF i x y ti hx hy ht
    rw [hf rfl]
    exact hs

/-- **C88** (it returns). Over the reals, on a grid of at least two points, with at least one particle, the RBF kernel
and no reweighting, every construction returns. -/
theorem C88_returns (env : Env ρ ℝ) (c : PhenoCfg 2 N ℝ) (hN : 0 < N) (hk : c.kern = "RBF") (hr : c.reweight = false)
    (h2 : 2 ≤ (mkGrid c.t1 c.t2).length) (r : ρ) : ∃ o r', phenoConstruct env M c r = .ok (o, r') := by
  obtain ⟨ys, r1, hys⟩ := Total.chain (fun i t x => ottoSlice_total env (c.lib M) hN rfl (fun h => by cases h) i t x)
    (mkGrid c.t1 c.t2).tail 1 (pt N c.y1) r
  obtain ⟨bs, r2, hbs⟩ := Total.chain (step := phenoBackStep env M c)
    (fun i t x r => ⟨_, _, phenoBackStep_real env hN c hk i t x r⟩)
    (phaseVisits (pt N c.y1 :: ys) (mkGrid c.t1 c.t2)) 1 (pt N c.y2) r1
  obtain ⟨b, hb⟩ : ∃ b, (pt N c.y1 :: (bs.reverse ++ [pt N c.y2]))[1]? = some b :=
    ⟨_, List.getElem?_eq_getElem (by simp)⟩
  obtain ⟨Bf, hBf, _⟩ := reject_spec (d := 0) c _ b hb
  exact ⟨_, r2, (phenoConstruct_iff hk hr h2).2 ⟨ys, r1, bs, Bf, hys, hbs, hBf, rfl⟩⟩

/-- **C88** (reweighting does not work). With `reweight=True`, on a grid of at least two points, the constructor raises
TypeError if `U` is not a function and NameError otherwise. -/
theorem C88_reweight (env : Env ρ ℝ) (c : PhenoCfg d N ℝ) (hr : c.reweight = true)
    (h2 : 2 ≤ (mkGrid c.t1 c.t2).length) (r : ρ) :
    phenoConstruct env M c r = .error (if c.U = none then .typeError else .nameError) := by
  unfold phenoConstruct phenoForward
  generalize mkGrid c.t1 c.t2 = grid at h2
  match grid, h2 with
  | t0 :: t1 :: ts, _ =>
    have hl : (zerosT d N (t0 :: t1 :: ts).length : Traj d N ℝ).length = ts.length + 2 := zerosT_length _ _ _
    rw [enumLoop, phenoFwdBody_zero _ _ _ _ (by omega), pure_bind, enumLoop]
    obtain ⟨y, r', h⟩ := phenoFwdBody_one (M := M) env c t1
      ((List.set (zerosT d N (t0 :: t1 :: ts).length) 0 (pt N c.y1)).set
        ((zerosT d N (t0 :: t1 :: ts).length : Traj d N ℝ).length - 1) (pt N c.y2))
      (by rw [List.length_set, List.length_set]; omega) r
    rw [hr, if_pos rfl] at h
    simp only [bind_assoc]
    rw [RandM.bind_app, h]

/-- **C88** (other kernels do not work). Without reweighting, on a grid of at least three points, any kernel name other
than 'RBF' (also 'periodic') makes the constructor raise NameError. -/
theorem C88_kernel (env : Env ρ ℝ) (c : PhenoCfg d N ℝ) (hN : 0 < N) (hd : 0 < d) (hk : c.kern ≠ "RBF")
    (hr : c.reweight = false) (h3 : 3 ≤ (mkGrid c.t1 c.t2).length) (r : ρ) :
    phenoConstruct env M c r = .error .nameError := by
  unfold phenoConstruct phenoForward
  generalize mkGrid c.t1 c.t2 = grid at h3
  match grid, h3 with
  | t0 :: t1 :: t2 :: ts, _ =>
    have hl : (zerosT d N (t0 :: t1 :: t2 :: ts).length : Traj d N ℝ).length = ts.length + 3 := zerosT_length _ _ _
    rw [enumLoop, phenoFwdBody_zero _ _ _ _ (by omega), pure_bind, enumLoop]
    generalize hW : (List.set (zerosT d N (t0 :: t1 :: t2 :: ts).length) 0 (pt N c.y1)).set
        ((zerosT d N (t0 :: t1 :: t2 :: ts).length : Traj d N ℝ).length - 1) (pt N c.y2) = W
    have hWl : W.length = ts.length + 3 := by rw [← hW, List.length_set, List.length_set, hl]
    obtain ⟨y, r', h⟩ := phenoFwdBody_one (M := M) env c t1 W (by omega) r
    rw [hr, if_neg (by simp)] at h
    simp only [bind_assoc]
    rw [RandM.bind_app, h]
    simp only
    rw [enumLoop]
    obtain ⟨x, hx⟩ : ∃ x, (W.set 1 y)[2-1]? = some x :=
      ⟨_, List.getElem?_eq_getElem (by rw [List.length_set]; omega)⟩
    obtain ⟨hg, _⟩ := slice_access (Z := W.set 1 y) (ti := 2) (by omega) (by rw [List.length_set]; omega) hx
    unfold phenoFwdBody
    simp only [if_neg (show ¬ (2 : ℕ) = 0 by omega), if_neg (show ¬ (2 : ℕ) = 1 by omega), bind_assoc]
    have hg' : pyGet (W.set 1 y) (((1 + 1 : ℕ) : Int) - 1) = .ok x := hg
    simp only [hg', show ¬ (1 + 1 = 0) by omega, show ¬ (1 + 1 = 1) by omega, if_false, RandM.liftM_ok, pure_bind,
      bind_assoc]
    rw [RandM.bind_app, phenoFlow_kernel env hN hd c hk]

/-- **C88** (the control). At every time index that both flows have and for any number of points, `calculate_u` returns,
column by column, the difference of the score estimates of the kept backward paths and of the forward particles, both
with the lengthscales of the former, with inducing points between the bounds common to the two clouds: no time index is
treated differently. -/
theorem C88_control (env : Env ρ ℝ) (hN : 0 < N) (o : PhenoObj 2 N ℝ) (hn : 0 < o.nB) (hkern : o.cfg.kern = "RBF")
    (x : Mat 2 m ℝ) (ti : Int) (b : Mat 2 o.nB ℝ) (z : Mat 2 N ℝ) (hb : pyGet o.B ti = .ok b) (hz : pyGet o.Z ti = .ok z)
    (_hs : Spread b) (r : ρ) :
    phenoU env M o x ti r = .ok (fun a j => phenoControl b z (inducing (fun a => max (lo (z a)) (lo (b a)))
      (fun a => min (hi (z a)) (hi (b a))) (unifs env 2 M r)) (fun a => x a j) a, unifsNext env 2 M r) :=
  phenoU_real env hN o hn hkern x ti b z hb hz r

/-- **C88** (coverage). `check_if_covered` is true exactly when each coordinate is between the bounds common to the
forward cloud and the kept backward cloud. -/
theorem C88_covered (hN : 0 < N) (o : PhenoObj d N ℝ) (hn : 0 < o.nB) (X : Fin d → ℝ) (ti : Int) (b : Mat d o.nB ℝ)
    (z : Mat d N ℝ) (hb : pyGet o.B ti = .ok b) (hz : pyGet o.Z ti = .ok z) :
    ∃ v, phenoCovered o X ti = .ok v ∧
      (v = true ↔ ∀ a, max (lo (z a)) (lo (b a)) ≤ X a ∧ X a ≤ min (hi (z a)) (hi (b a))) := by
  have key : ∀ (n : ℕ) (e : Fin n → Fin d) (s : Bool), ∃ v, forFin n (fun ii cov => do
      let z ← pyGet o.Z ti
      let b ← pyGet o.B ti
      let zlo ← npMin (z (e ii))
      let blo ← npMin (b (e ii))
      let zhi ← npMax (z (e ii))
      let bhi ← npMax (b (e ii))
      .ok (cov && (NumOps.leB (pyMax zlo blo) (X (e ii)) && NumOps.leB (X (e ii)) (pyMin zhi bhi)))) s = .ok v ∧
      (v = true ↔ s = true ∧ ∀ i, max (lo (z (e i))) (lo (b (e i))) ≤ X (e i) ∧
        X (e i) ≤ min (hi (z (e i))) (hi (b (e i)))) := by
    intro n
    induction n with
    | zero => intro e s; exact ⟨s, rfl, by simp⟩
    | succ n ih =>
      intro e s
      obtain ⟨v, h1, h2⟩ := ih (fun i => e i.succ)
        (s && (NumOps.leB (max (lo (z (e 0))) (lo (b (e 0)))) (X (e 0))
          && NumOps.leB (X (e 0)) (min (hi (z (e 0))) (hi (b (e 0))))))
      refine ⟨v, ?_, ?_⟩
      · rw [forFin]
        simp only [hz, hb, Except.ok_bind', npMin_real hN, npMin_real hn, npMax_real hN, npMax_real hn, pyMax_real,
          pyMin_real] at h1 ⊢
        exact h1
      · rw [h2, Fin.forall_fin_succ, Bool.and_eq_true, Bool.and_eq_true, real_leB, real_leB]
        tauto
  obtain ⟨v, h1, h2⟩ := key d id true
  exact ⟨v, h1, by simpa using h2⟩

/-! ### Examples -/

/-- The script's configuration with `N` particles on `steps + 1` points. -/
noncomputable def exPheno (N steps : ℕ) : PhenoCfg 2 N ℝ :=
  phenoCfg N ⟨1/2, 1/2, 1/2, 1/2⟩ 0 (0 + steps / 1000) ![1.996, 0.004] ![1, 1] 1

theorem exPheno_grid (N steps : ℕ) : (mkGrid (exPheno N steps).t1 (exPheno N steps).t2).length = steps + 1 :=
  mkGrid_length_steps 0 steps

/-- C87_kept, C87_never_raises, C88_full_run: the example constructs with and without rejection. -/
example (r : ℕ) : ∃ o r', phenoConstruct exEnv 20 (exPheno 400 500) r = .ok (o, r') ∧
    ∃ o', phenoConstruct exEnv 20 { exPheno 400 500 with reject := false } r = .ok (o', r') := by
  obtain ⟨o, r', h⟩ := C88_returns (M := 20) exEnv (exPheno 400 500) (by norm_num) rfl rfl
    (by rw [exPheno_grid]; norm_num) r
  obtain ⟨B, b, h', _⟩ := C87_kept exEnv (exPheno 400 500) rfl r r' o h
  exact ⟨o, r', h, _, h'⟩

/-- C87_no_noise: the example with `g = 0`; index 3 is valid. -/
example (r : ℕ) : ∃ o r' z b, phenoConstruct exEnv 20 { exPheno 400 500 with g := 0 } r = .ok (o, r') ∧
    pyGet o.Z 3 = .ok z ∧ pyGet o.B 3 = .ok b ∧ o.nB = 0 := by
  have hg : (mkGrid ({ exPheno 400 500 with g := 0 } : PhenoCfg 2 400 ℝ).t1 (exPheno 400 500).t2).length = 501 :=
    exPheno_grid 400 500
  obtain ⟨o, r', h⟩ := C88_returns (M := 20) exEnv { exPheno 400 500 with g := 0 } (by norm_num) rfl rfl
    (by rw [hg]; norm_num) r
  obtain ⟨e1, e2, e3, _⟩ := C88_full_run exEnv _ (by norm_num) rfl rfl (by rw [hg]; norm_num) r r' o h
  rw [e1, hg] at e2 e3
  exact ⟨o, r', _, _, h, pyGet_nat o.Z (i := 3) (by omega), pyGet_nat o.B (i := 3) (by omega),
    (C87_no_noise (m := 1) (M := 20) exEnv _ (by norm_num) rfl rfl r r' o h).1⟩

/-- C87_short_grid: a horizon of length zero. -/
example (r : ℕ) : phenoConstruct exEnv 20 (exPheno 400 0) r = .error .indexError :=
  C87_short_grid (d := 0) exEnv _ (by rw [exPheno_grid]) r

/-- C88_reweight, C88_kernel: the example with a constraint, and with the periodic kernel. -/
example (r : ℕ) : phenoConstruct exEnv 20 { exPheno 400 500 with reweight := true, U := some fun x n => x 0 n } r
      = .error .nameError ∧
    phenoConstruct exEnv 20 { exPheno 400 500 with kern := "periodic" } r = .error .nameError := by
  have hg := exPheno_grid 400 500
  refine ⟨?_, ?_⟩
  · rw [C88_reweight exEnv _ rfl (by show 2 ≤ (mkGrid (exPheno 400 500).t1 (exPheno 400 500).t2).length; omega)]
    simp
  · exact C88_kernel exEnv _ (by norm_num) (by norm_num) (by simp) rfl
      (by show 3 ≤ (mkGrid (exPheno 400 500).t1 (exPheno 400 500).t2).length; omega) r

/-- Two particles and two kept paths with spread. -/
noncomputable def exPhenoObj : PhenoObj 2 2 ℝ where
  cfg := exPheno 2 1
  timegrid := [0, 1/1000]
  Z := [fun a n => a.val + n.val, fun a n => 2 * a.val + n.val]
  nB := 2
  B := [fun a n => a.val + 2 * n.val, fun a n => a.val + n.val]

/-- C88_control, C88_covered: the object above at index -1. -/
example (x : Mat 2 3 ℝ) : (∃ u r', phenoU exEnv 5 exPhenoObj x (-1) 0 = .ok (u, r')) ∧
    ∃ v, phenoCovered exPhenoObj (fun a => a.val + 1) (-1) = .ok v := by
  refine ⟨⟨_, _, C88_control exEnv (by norm_num) exPhenoObj (by norm_num [exPhenoObj]) rfl x (-1) _ _ rfl rfl ?_ 0⟩, ?_⟩
  · intro a
    have : variance (fun n : Fin 2 => (a.val : ℝ) + n.val) = 1/4 := by
      simp [variance, avg, Fin.sum_univ_two]; ring
    show sdev (fun n : Fin 2 => (a.val : ℝ) + n.val) ≠ 0
    unfold sdev
    rw [this]
    simp
  · obtain ⟨v, h, _⟩ := C88_covered (by norm_num) exPhenoObj (by norm_num [exPhenoObj]) (fun a => a.val + 1) (-1) _ _ rfl rfl
    exact ⟨v, h⟩

end DPFC
