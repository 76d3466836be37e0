import Verif.Lib.KuramotoLoop
import Verif.Lib.Control2
import Verif.Props.KuramotoModel

/-!
# C79 - C81: controls and closed loop of the Kuramoto example
-/

namespace DPFC
open Spec

section
variable {ρ : Type} {N M d n : ℕ}

/-- **C79** (starting angles). If the drift only depends on the angles, moving entries of `y1` by multiples of `2π`
changes only index 0 of the two flows; all other slices and the random state afterwards are the same. -/
theorem C79_angle_start (env : Env ρ ℝ) (c : PhaseCfg d N ℝ) (m : Fin d → ℤ)
    (hf : ∀ x y t, (∀ a n, SameAngle (x a n) (y a n)) → c.f y t = c.f x t) (r r' : ρ) (o : PhaseObj d N ℝ)
    (h : phaseConstruct env M c r = .ok (o, r')) (h2 : 2 ≤ (phaseGrid c.t1 c.t2 c.dt).length) :
    ∃ o', phaseConstruct env M { c with y1 := fun a => c.y1 a + 2 * Real.pi * m a } r = .ok (o', r') ∧
      o'.timegrid = o.timegrid ∧ o'.Z.length = o.Z.length ∧ o'.B.length = o.B.length ∧
      ∀ i, 1 ≤ i → o'.Z[i]? = o.Z[i]? ∧ o'.B[i]? = o.B[i]? := by
  obtain ⟨hl, y, r0, ys, r1, bs, zl, b, hy, hys, _, htg, hZ, hzl, hb, hbs, hB⟩ := phaseConstruct_ok h h2
  set c' : PhaseCfg d N ℝ := { c with y1 := fun a => c.y1 a + 2 * Real.pi * m a } with hc'
  rw [mvNormal_real] at hy
  injection hy with hy
  injection hy with hy hr0
  have hy' := mvNormal_real (N := N) env c'.y1 c'.g r
  rw [hr0] at hy'
  set y' := gaussStart c'.y1 c'.g (pnormals env d N r) with hyd
  have hyy : ∀ a n, y' a n = y a n + 2 * Real.pi * m a := by
    intro a n
    rw [← hy, hyd]
    unfold gaussStart
    show c.y1 a + 2 * Real.pi * m a + Real.sqrt (c.g / 2) * _ = _
    ring
  obtain ⟨t0, t1, ts, hg⟩ : ∃ t0 t1 ts, phaseGrid c.t1 c.t2 c.dt = t0 :: t1 :: ts := by
    match phaseGrid c.t1 c.t2 c.dt, h2 with
    | a :: b :: l, _ => exact ⟨a, b, l, rfl⟩
  have hyl := chain_length hys
  rw [List.length_tail] at hyl
  have hys' : chain (phaseSlice env M c') 1 (phaseGrid c.t1 c.t2 c.dt).tail y' r0 = .ok (ys, r1) := by
    have e : phaseSlice env M c' 1 t1 y' r0 = phaseSlice env M c 1 t1 y r0 := by
      have e1 : phaseNoisy env c' y' (t1 - c.dt) r0 = phaseNoisy env c y (t1 - c.dt) r0 := by
        rw [phaseNoisy_real, phaseNoisy_real]
        have hfe : c.f y' (t1 - c.dt) = c.f y (t1 - c.dt) := hf _ _ _ fun a n => ⟨m a, hyy a n⟩
        show Except.ok (fun a n => phase (y' a n + c.dt * c.f y' (t1 - c.dt) a n
          + c.g * (Real.sqrt c.dt * normals env d N r0 a n)), _) = _
        rw [hfe]
        congr 2
        funext a n
        rw [hyy, ← phase_add (y a n + c.dt * c.f y (t1 - c.dt) a n
          + c.g * (Real.sqrt c.dt * normals env d N r0 a n)) (m a)]
        congr 1
        ring
      unfold phaseSlice
      simp only [if_true]
      have e2 : ∀ F : Mat d N ℝ → RandM ρ (Mat d N ℝ), (phaseNoisy env c' y' (t1 - c.dt) >>= F) r0
          = (phaseNoisy env c y (t1 - c.dt) >>= F) r0 := by
        intro F
        rw [RandM.bind_app, RandM.bind_app, e1]
      exact e2 _
    rw [hg, List.tail_cons, chain] at hys ⊢
    obtain ⟨w, q, hw, hys⟩ := RandM.bind_ok.1 hys
    exact RandM.bind_ok.2 ⟨w, q, e.trans hw, hys⟩
  have hyne : ys ≠ [] := by
    intro e; rw [e, List.length_nil] at hyl; omega
  have hlast : (y' :: ys ++ zerosT d N (c.k - (phaseGrid c.t1 c.t2 c.dt).length)).getLast? = some zl := by
    rw [hZ, List.cons_append, List.getLast?_cons_of_ne_nil (by simp [hyne])] at hzl
    rw [List.cons_append, List.getLast?_cons_of_ne_nil (by simp [hyne])]
    exact hzl
  have hvis : phaseVisits (y' :: ys ++ zerosT d N (c.k - (phaseGrid c.t1 c.t2 c.dt).length)) (phaseGrid c.t1 c.t2 c.dt)
      = phaseVisits o.Z (phaseGrid c.t1 c.t2 c.dt) := by
    rw [hZ]; rfl
  have := phaseConstruct_of (M := M) (env := env) (c := c') (r := r) (r0 := r0) (r1 := r1) (r' := r') (y := y')
    (zl := zl) (b := b) (ys := ys) (bs := bs) h2 hl hy' hys' hlast hb
    ((congrArg (fun v => chain (phaseBackStep env M c') 1 v b r1) hvis).trans hbs)
  refine ⟨_, this, ?_, ?_, ?_, fun i hi => ?_⟩
  · rw [htg]
  · rw [hZ]; rfl
  · rw [hB]; rfl
  · obtain ⟨j, rfl⟩ : ∃ j, i = j + 1 := ⟨i - 1, by omega⟩
    rw [hZ, hB]
    exact ⟨rfl, rfl⟩

/-- **C79** (the script). Starting angles of the script may be given modulo `2π`: the resulting flows agree from index 1
on, and so do all controls at indices `>= 1`. -/
theorem C79_script (env : Env ρ ℝ) (t1 t2 h : ℝ) (y0 ws : Fin d → ℝ) (κ g : ℝ) (m : Fin d → ℤ) (r r' : ρ)
    (o : PhaseObj d N ℝ) (ho : phaseConstruct env M (kuraCfg N t1 t2 h y0 ws κ g) r = .ok (o, r'))
    (h2 : 2 ≤ (phaseGrid t1 t2 h).length) :
    ∃ o', phaseConstruct env M (kuraCfg N t1 t2 h (fun a => y0 a + 2 * Real.pi * m a) ws κ g) r = .ok (o', r') ∧
      (∀ i, 1 ≤ i → o'.Z[i]? = o.Z[i]? ∧ o'.B[i]? = o.B[i]?) ∧
      ∀ (n : ℕ) (x : Mat d n ℝ) (i : ℕ) (q : ρ), 1 ≤ i → phaseU env M o' x i q = phaseU env M o x i q := by
  obtain ⟨o', h1, h3, h4, h5, h6⟩ := C79_angle_start env (kuraCfg N t1 t2 h y0 ws κ g) m (fun x y t hxy => by
    funext j n
    show kuraDrift ws κ (fun a => y a n) j = kuraDrift ws κ (fun a => x a n) j
    rw [C77_angles ws κ _ _ fun a => hxy a n]) r r' o ho h2
  refine ⟨o', h1, h6, fun n x i q hi => ?_⟩
  have e1 : pyGet o'.B (i : Int) = pyGet o.B (i : Int) := by
    rw [pyGet_eq_pyAt, pyGet_eq_pyAt]
    unfold pyAt
    simp [h6 i hi]
  have e2 : pyGet o'.Z (i : Int) = pyGet o.Z (i : Int) := by
    rw [pyGet_eq_pyAt, pyGet_eq_pyAt]
    unfold pyAt
    simp [h6 i hi]
  have e3 : o'.cfg.kern = o.cfg.kern := by
    have k1 := (phaseConstruct_ok h1 h2).2
    have k2 := (phaseConstruct_ok ho h2).2
    obtain ⟨_, _, _, _, _, _, _, _, _, k1, _⟩ := k1
    obtain ⟨_, _, _, _, _, _, _, _, _, k2, _⟩ := k2
    rw [k1, k2]
    try rfl
  unfold phaseU
  rw [e1, e2, e3]

/-- **C80** (what is simulated). Every run of the closed loop that returns is an Euler-Maruyama simulation of
`dX = f dt + g^2 u dt + g dW` on the circle (and of the same with `u = 0`) from `y0`, with `u` the control returned for
index `i` at the state of index `i - 1`; the order parameters recorded are those of the states, except for 0 at the first
and the last index. -/
theorem C80_simulation (env : Env ρ ℝ) (o : PhaseObj d N ℝ) (grid : List ℝ) (f : (Fin d → ℝ) → Fin d → ℝ) (g h : ℝ)
    (y0 : Fin d → ℝ) (hk : 2 ≤ grid.length) (hkb : grid.length ≤ o.timegrid.length) (r r' : ρ) (s : PhasePaths d ℝ)
    (hs : phaseLoop env M o grid f g h y0 r = .ok (s, r')) :
    ∃ rs : ℕ → ρ, rs 1 = r ∧ rs (grid.length - 1) = r' ∧
      PhaseRun env (fun x i => phaseU env M o (fun a (_ : Fin 1) => x a) i) f g h y0 grid.length s.cont s.free s.used
        s.rCont s.rFree rs :=
  phaseLoop_run env o grid f g h y0 hk hkb r r' s hs

/-- **C80** (ranges). In such a run all states after the first one and before the last index are angles in `[0, 2π)`,
and all recorded order parameters are in `[0, 1]`. -/
theorem C80_ranges (env : Env ρ ℝ) (o : PhaseObj d N ℝ) (grid : List ℝ) (f : (Fin d → ℝ) → Fin d → ℝ) (g h : ℝ)
    (y0 : Fin d → ℝ) (hk : 2 ≤ grid.length) (hkb : grid.length ≤ o.timegrid.length) (r r' : ρ) (s : PhasePaths d ℝ)
    (hs : phaseLoop env M o grid f g h y0 r = .ok (s, r')) :
    (∀ i, 1 ≤ i → i < grid.length - 1 → ∀ x, s.cont[i]? = some x ∨ s.free[i]? = some x →
      ∀ a, 0 ≤ x a ∧ x a < 2 * Real.pi) ∧
    ∀ i < grid.length, ∀ v, s.rCont[i]? = some v ∨ s.rFree[i]? = some v → 0 ≤ v ∧ v ≤ 1 := by
  obtain ⟨rs, _, _, hr⟩ := C80_simulation env o grid f g h y0 hk hkb r r' s hs
  obtain ⟨l1, l2, l3, l4, l5⟩ := hr.len
  have hst : ∀ i, 1 ≤ i → i < grid.length - 1 → ∃ x' w', s.cont[i]? = some x' ∧ s.free[i]? = some w' ∧
      (∀ a, 0 ≤ x' a ∧ x' a < 2 * Real.pi) ∧ (∀ a, 0 ≤ w' a ∧ w' a < 2 * Real.pi) ∧
      s.rCont[i]? = some (orderR x') ∧ s.rFree[i]? = some (orderR w') := by
    intro i h1 h2
    obtain ⟨u, q, x', w', _, _, e1, e2, e3, e4, e5, e6, _⟩ := hr.step i _ _ h1 h2
      (List.getElem?_eq_getElem (show i - 1 < _ by omega)) (List.getElem?_eq_getElem (show i - 1 < _ by omega))
    refine ⟨x', w', e1, e3, ?_, ?_, e5, e6⟩
    · rw [e2]; exact fun a => ⟨phase_nonneg _, phase_lt _⟩
    · rw [e4]; exact fun a => ⟨phase_nonneg _, phase_lt _⟩
  constructor
  · intro i h1 h2 x hx
    obtain ⟨x', w', e1, e2, b1, b2, _⟩ := hst i h1 h2
    rcases hx with hx | hx
    · rw [e1] at hx; cases hx; exact b1
    · rw [e2] at hx; cases hx; exact b2
  · intro i hi v hv
    have hR : ∀ y : Fin d → ℝ, 0 ≤ orderR y ∧ orderR y ≤ 1 := fun y => ⟨orderR_nonneg y, orderR_le_one y⟩
    by_cases h0 : i = 0
    · subst h0
      rw [hr.first.2.1, hr.first.2.2] at hv
      rcases hv with hv | hv <;> cases hv <;> norm_num
    by_cases h1 : i = grid.length - 1
    · rw [h1, hr.last.2.1, hr.last.2.2] at hv
      rcases hv with hv | hv <;> cases hv <;> norm_num
    obtain ⟨x', w', _, _, _, _, e5, e6⟩ := hst i (by omega) (by omega)
    rw [e5, e6] at hv
    rcases hv with hv | hv <;> cases hv <;> exact hR _

/-- **C80** (last column, any arithmetic). The loop stops one index before the end of the arrays: the last column of
both path arrays keeps its initial NaN (`0/0`), the last control its initial zero. -/
theorem C80_last_column {K : Type} [Add K] [Sub K] [Mul K] [Div K] [Neg K] [NumOps K] [PhaseOps K]
    (env : Env ρ K) (o : PhaseObj d N K) (grid : List K) (f : (Fin d → K) → Fin d → K) (g h : K)
    (y0 : Fin d → K) (hk : 2 ≤ grid.length) (hkb : grid.length ≤ o.timegrid.length) (r r' : ρ) (s : PhasePaths d K)
    (hs : phaseLoop env M o grid f g h y0 r = .ok (s, r')) :
    s.cont[grid.length - 1]? = some (fun _ => lit 0 1 / lit 0 1) ∧
    s.free[grid.length - 1]? = some (fun _ => lit 0 1 / lit 0 1) ∧
    s.used[grid.length - 1]? = some (fun _ => lit 0 1) := by
  rw [phaseLoop_eq env o grid f g h y0 hk hkb, RandM.bind_ok] at hs
  obtain ⟨l, r1, hl, hs⟩ := hs
  rw [RandM.pure_ok] at hs
  obtain ⟨rfl, rfl⟩ := hs
  have hlen := chain_length hl
  rw [List.length_tail, List.length_dropLast] at hlen
  obtain ⟨m, hm⟩ : ∃ m, grid.length = m + 2 := ⟨grid.length - 2, by omega⟩
  have hlast : ∀ {α : Type} (a b : α) (l : List α), l.length = m → (a :: (l ++ [b]))[grid.length - 1]? = some b := by
    intro α a b l hl
    rw [show grid.length - 1 = m + 1 by omega, List.getElem?_cons_succ, List.getElem?_append_right (by omega)]
    simp [hl]
  exact ⟨hlast _ _ _ (by simp; omega), hlast _ _ _ (by simp; omega), hlast _ _ _ (by simp; omega)⟩

/-- **C81** (control). If both flows have a slice at index `ti`, the control at any number of points is the difference
of the score estimates of the backward and the forward cloud, both with the lengthscales of the backward cloud and the
same inducing points (uniform between the common bounds). Says nothing if the backward cloud has no spread in some
coordinate. -/
theorem C81_control (env : Env ρ ℝ) (hN : 0 < N) (hd : 0 < d) (o : PhaseObj d N ℝ) (hkern : o.cfg.kern = "RBF")
    (x : Mat d n ℝ) (ti : Int) (b z : Mat d N ℝ) (hb : pyAt o.B ti = some b) (hz : pyAt o.Z ti = some z)
    (_hs : Spread b) (r : ρ) :
    ∃ u, phaseU env M o x ti r = .ok (u, unifsNext env d M r) ∧ ∀ a j, u a j = phaseControl b z
      (inducing (fun a => max (lo (z a)) (lo (b a))) (fun a => min (hi (z a)) (hi (b a))) (unifs env d M r))
      (fun a => x a j) a :=
  ⟨_, phaseU_real env hN hd o hkern x ti b z (pyGet_of_pyAt hb) (pyGet_of_pyAt hz) r, fun _ _ => rfl⟩

/-- **C81** (equal flows). Where the two flows agree the control is zero at every point. -/
theorem C81_equal_flows (env : Env ρ ℝ) (hN : 0 < N) (hd : 0 < d) (o : PhaseObj d N ℝ) (hkern : o.cfg.kern = "RBF")
    (x : Mat d n ℝ) (ti : Int) (b : Mat d N ℝ) (hb : pyAt o.B ti = some b) (hz : pyAt o.Z ti = some b)
    (hs : Spread b) (r : ρ) :
    phaseU env M o x ti r = .ok (fun _ _ => 0, unifsNext env d M r) := by
  obtain ⟨u, h, hu⟩ := C81_control (M := M) env hN hd o hkern x ti b b hb hz hs r
  rw [h]
  congr 2
  funext a j
  rw [hu]
  unfold phaseControl
  exact sub_self _

/-- **C81** (last index). After a construction with `k` the number of grid points, the control at the last index (`-1`
or `k - 1`) is zero everywhere: there the backward flow *is* the forward flow. -/
theorem C81_last_index (env : Env ρ ℝ) (hN : 0 < N) (hd : 0 < d) (c : PhaseCfg d N ℝ) (hkern : c.kern = "RBF")
    (r r' : ρ) (o : PhaseObj d N ℝ) (h : phaseConstruct env M c r = .ok (o, r'))
    (h2 : 2 ≤ (phaseGrid c.t1 c.t2 c.dt).length) (hk : c.k = (phaseGrid c.t1 c.t2 c.dt).length)
    (b : Mat d N ℝ) (hb : o.B[c.k - 1]? = some b) (hs : Spread b) (x : Mat d n ℝ) (ti : Int)
    (ht : ti = -1 ∨ ti = (c.k : Int) - 1) (q : ρ) :
    phaseU env M o x ti q = .ok (fun _ _ => 0, unifsNext env d M q) := by
  obtain ⟨_, lZ, lB, _, _, e⟩ := C75_ends env c r r' o h h2 hk
  obtain ⟨_, _, _, _, _, _, _, _, _, _, hcfg, _⟩ := phaseConstruct_ok h h2
  have key : ∀ l : Traj d N ℝ, l.length = c.k → pyAt l ti = l[c.k - 1]? := by
    intro l hl
    rcases ht with rfl | rfl
    · unfold pyAt
      rw [if_neg (by omega), if_pos (by omega)]
      congr 1
      omega
    · unfold pyAt
      rw [if_pos (by omega)]
      congr 1
      omega
  exact C81_equal_flows env hN hd o (by rw [hcfg]; exact hkern) x ti b (by rw [key _ lB, hb])
    (by rw [key _ lZ, ← e, hb]) hs q

/-- **C81** (index errors). At an index without slices the query raises IndexError. -/
theorem C81_index_error (env : Env ρ ℝ) (o : PhaseObj d N ℝ) (x : Mat d n ℝ) (ti : Int) (r : ρ)
    (h : pyAt o.B ti = none) : phaseU env M o x ti r = .error .indexError := by
  unfold phaseU
  rw [pyGet_of_none h]
  rfl

/-- **C81** (coverage). `check_if_covered` answers True exactly if in every coordinate the point has a forward and a
backward particle on each side. -/
theorem C81_coverage (o : PhaseObj d N ℝ) (hN : 0 < N) (X : Fin d → ℝ) (ti : Int) (z b : Mat d N ℝ)
    (hz : pyAt o.Z ti = some z) (hb : pyAt o.B ti = some b) :
    ∃ ans, phaseCovered o X ti = .ok ans ∧ (ans = true ↔ ∀ a,
      ((∃ i, z a i ≤ X a) ∧ (∃ i, X a ≤ z a i)) ∧ ((∃ i, b a i ≤ X a) ∧ (∃ i, X a ≤ b a i))) := by
  classical
  have e : phaseCovered o X ti = .ok (true && decide (∀ a : Fin d, (NumOps.leB (max (lo (z a)) (lo (b a))) (X a)
      && NumOps.leB (X a) (min (hi (z a)) (hi (b a)))) = true)) := by
    unfold phaseCovered
    rw [← forFin_and]
    refine forFin_congr (fun a s => ?_) _
    simp only [pyGet_of_pyAt hz, pyGet_of_pyAt hb, Except.ok_bind', npMin_real hN, npMax_real hN, a.isLt,
      dif_pos, pyMax_real, pyMin_real]
  refine ⟨_, e, ?_⟩
  rw [Bool.true_and, decide_eq_true_eq]
  refine forall_congr' fun a => ?_
  rw [Bool.and_eq_true, real_leB, real_leB, max_le_iff, le_min_iff, lo_le_iff hN, lo_le_iff hN, le_hi_iff hN,
    le_hi_iff hN]
  tauto

/-- **C80** (the loop runs to the end). If at the indices `1, ..., k-2` both flows have a slice and the backward one
has spread, the closed loop returns, for every drift, start and random stream, and every control used is the one of
`C81_control`. -/
theorem C80_returns (env : Env ρ ℝ) (hN : 0 < N) (hd : 0 < d) (o : PhaseObj d N ℝ) (hkern : o.cfg.kern = "RBF")
    (grid : List ℝ) (f : (Fin d → ℝ) → Fin d → ℝ) (g h : ℝ) (y0 : Fin d → ℝ) (hk : 2 ≤ grid.length)
    (hkb : grid.length ≤ o.timegrid.length)
    (hs : ∀ i : ℕ, 1 ≤ i → i < grid.length - 1 → ∃ b z, o.B[i]? = some b ∧ o.Z[i]? = some z ∧ Spread b) (r : ρ) :
    ∃ (s : PhasePaths d ℝ) (r' : ρ) (rs : ℕ → ρ), phaseLoop env M o grid f g h y0 r = .ok (s, r') ∧ rs 1 = r ∧ rs (grid.length - 1) = r' ∧
      ∀ i x b z u, 1 ≤ i → i < grid.length - 1 → s.cont[i-1]? = some x → o.B[i]? = some b → o.Z[i]? = some z →
        s.used[i]? = some u →
        u = phaseControl b z (inducing (fun a => max (lo (z a)) (lo (b a))) (fun a => min (hi (z a)) (hi (b a)))
          (unifs env d M (rs i))) x ∧
        rs (i+1) = vnormalsNext env d (vnormalsNext env d (unifsNext env d M (rs i))) := by
  have hat : ∀ (l : List (Mat d N ℝ)) (i : ℕ), pyAt l (i : Int) = l[i]? := fun l i => by simp [pyAt]
  obtain ⟨s, r', hl⟩ := phaseLoop_total (M := M) env o grid f g h y0 hk hkb (fun i x q h1 h2 => by
    obtain ⟨b, z, hb, hz, sb⟩ := hs i h1 h2
    obtain ⟨u, hu, _⟩ := C81_control (M := M) env hN hd o hkern x i b z (by rw [hat, hb]) (by rw [hat, hz]) sb q
    exact ⟨u, _, hu⟩) r
  obtain ⟨rs, e1, e2, hr⟩ := phaseLoop_run env o grid f g h y0 hk hkb r r' s hl
  refine ⟨s, r', rs, hl, e1, e2, fun i x b z u h1 h2 hx hb hz hu => ?_⟩
  obtain ⟨b', z', hb', hz', sb⟩ := hs i h1 h2
  rw [hb] at hb'; cases hb'
  obtain ⟨w, hw⟩ : ∃ w, s.free[i-1]? = some w :=
    ⟨_, List.getElem?_eq_getElem (by rw [hr.len.2.1]; omega)⟩
  obtain ⟨u', q, _, _, k1, k2, _, _, _, _, _, _, k3⟩ := hr.step i x w h1 h2 hx hw
  obtain ⟨u2, j1, j2⟩ := C81_control (M := M) env hN hd o hkern (fun a (_ : Fin 1) => x a) i b z (by rw [hat, hb])
    (by rw [hat, hz]) sb (rs i)
  have k1' : phaseU env M o (fun a (_ : Fin 1) => x a) (i : Int) (rs i) = .ok (u', q) := k1
  rw [j1] at k1'
  injection k1' with k1'
  injection k1' with ku kq
  rw [hu] at k2
  injection k2 with k2
  constructor
  · rw [k2, ← ku]
    funext a
    exact j2 a 0
  · rw [k3, ← kq]

end

/-! ### Examples -/

/-- An object with spread on a grid of 4 points. -/
noncomputable def exPhaseObj : PhaseObj 2 2 ℝ where
  cfg := exKura 2 2 3
  timegrid := [0, 1, 2, 3]
  Z := [fun _ n => n.val, fun _ n => n.val, fun _ n => 1 + n.val, fun _ n => n.val]
  B := [fun _ _ => 3, fun a n => a.val + n.val, fun a n => a.val + n.val, fun _ n => n.val]

theorem exPhase_spread (f : Fin 2 → ℝ) : Spread (fun a (n : Fin 2) => f a + n.val) := by
  intro a
  have : variance (fun n : Fin 2 => f a + (n.val : ℝ)) = 1/4 := by
    simp [variance, avg, Fin.sum_univ_two]; ring
  unfold sdev
  rw [this]
  simp

/-- C80_returns, C80_simulation: the hypotheses can be met, and the loop returns. -/
example : ∃ s r', phaseLoop exEnv 3 exPhaseObj [0, 1, 2, 3] (kuraDrift (kuraWs (1/2)) 2) 1 (1/1000) (fun _ => 3) 0
    = .ok (s, r') := by
  obtain ⟨s, r', _, h, _⟩ := C80_returns (M := 3) exEnv (by norm_num) (by norm_num) exPhaseObj rfl [0, 1, 2, 3]
    (kuraDrift (kuraWs (1/2)) 2) 1 (1/1000) (fun _ => 3) (by simp) (by simp [exPhaseObj]) (fun i h1 h2 => by
      simp only [List.length_cons, List.length_nil] at h2
      have hs : Spread (fun (a : Fin 2) (n : Fin 2) => (a.val : ℝ) + n.val) := exPhase_spread fun a => (a.val : ℝ)
      have : i = 1 ∨ i = 2 := by omega
      rcases this with rfl | rfl
      · exact ⟨_, _, rfl, rfl, hs⟩
      · exact ⟨_, _, rfl, rfl, hs⟩) 0
  exact ⟨s, r', h⟩

/-- C81_equal_flows: index 3 of the example. -/
example (x : Mat 2 5 ℝ) : phaseU exEnv 3 exPhaseObj x 3 0 = .ok (fun _ _ => 0, unifsNext exEnv 2 3 0) := by
  refine C81_equal_flows exEnv (by norm_num) (by norm_num) exPhaseObj rfl x 3 (fun _ n => n.val) rfl rfl ?_ 0
  have := exPhase_spread fun _ => 0
  simpa using this

/-- C79_script: the run with 6 oscillators. -/
example : ∃ o o' r', phaseConstruct exEnv 4 (exKura 6 5 7) 0 = .ok (o, r') ∧
    phaseConstruct exEnv 4 { exKura 6 5 7 with y1 := fun a => 3 + a.val + 2 * Real.pi * ((a.val : ℕ) : ℤ) } 0
      = .ok (o', r') := by
  obtain ⟨o, r', h⟩ := exKura_runs 6 5 4 7 (by norm_num) (by norm_num) (by norm_num) 0
  have hg := exKura_grid 6 5 7
  obtain ⟨o', h', _⟩ := C79_script exEnv 0 (0 + (7:ℕ) * (1/1000)) (1/1000) _ _ _ _ (fun a : Fin 6 => ((a.val : ℕ) : ℤ))
    0 r' o h (by rw [phaseGrid_steps 0 (1/1000) (by norm_num) 7]; norm_num)
  exact ⟨o, o', r', h, h'⟩

/-- One oscillator, two particles, two grid points. -/
noncomputable def exLine : PhaseCfg 1 2 ℝ where
  t1 := 0
  t2 := 0 + (1:ℕ) * (1/10000)
  dt := 1/10000
  y1 := fun _ => 0
  f := fun _ _ _ _ => 0
  g := 2
  k := 2
  reweight := false
  U := none
  kern := "RBF"

/-- C81_last_index: a construction whose last slice has spread. -/
example : ∃ o r' b, phaseConstruct exEnv 4 exLine 0 = .ok (o, r') ∧ o.B[exLine.k - 1]? = some b ∧ Spread b ∧
    2 ≤ (phaseGrid exLine.t1 exLine.t2 exLine.dt).length ∧
    exLine.k = (phaseGrid exLine.t1 exLine.t2 exLine.dt).length := by
  have hg : (phaseGrid exLine.t1 exLine.t2 exLine.dt).length = 2 := phaseGrid_steps 0 (1/10000) (by norm_num) 1
  obtain ⟨o, r', h⟩ := C75_returns exEnv (M := 4) exLine (by norm_num) (by norm_num) rfl hg.ge hg.le (.inl rfl) 0
  obtain ⟨htg, lZ, lB, hZ0, _, hlast⟩ := C75_ends exEnv exLine 0 r' o h hg.ge hg.symm
  obtain ⟨rs, _, hrs, hF, _⟩ := C76_full_run exEnv exLine (by norm_num) (by norm_num) rfl 0 r' o h hg.ge hg.symm
  have hk : exLine.k = 2 := rfl
  obtain ⟨y, hy⟩ : ∃ y, o.Z[0+1]? = some y := ⟨_, List.getElem?_eq_getElem (by omega)⟩
  obtain ⟨raw, h0, _, hn, _⟩ := hF 0 _ y _ hZ0 hy (List.getElem?_eq_getElem (by rw [htg, hg]; norm_num))
  obtain ⟨_, h0⟩ := h0 rfl
  have hyr := hn rfl
  refine ⟨o, r', y, h, by rw [hlast]; exact hy, ?_, hg.ge, hg.symm⟩
  have hp := Real.two_le_pi
  have hsq : Real.sqrt (1/10000) = 1/100 := by
    rw [show (1:ℝ)/10000 = (1/100)^2 by norm_num, Real.sqrt_sq (by norm_num)]
  have hv : ∀ n : Fin 2, y 0 n = if n = 0 then 4/100 else 1 + 6/100 := by
    intro n
    rw [hyr, h0]
    have e : exLine.dt = 1/10000 := rfl
    have eg : exLine.g = 2 := rfl
    have ef : ∀ x t a n, exLine.f x t a n = 0 := fun _ _ _ _ => rfl
    have ey : exLine.y1 = fun _ => 0 := rfl
    simp only [hrs, e, eg, ef, ey, hsq, gaussStart, pnormals, pnormalsNext, normals, drawVec, exEnv]
    fin_cases n
    · norm_num
      exact phase_of_mem (by norm_num) (by linarith)
    · norm_num
      exact phase_of_mem (by norm_num) (by linarith)
  intro a
  have ha : a = 0 := Subsingleton.elim _ _
  subst ha
  have hvar : variance (y 0) = (51/100)^2 := by
    simp [variance, avg, Fin.sum_univ_two, hv]; norm_num
  unfold sdev
  rw [hvar, Real.sqrt_sq (by norm_num)]
  norm_num

end DPFC
