import Verif.Lib.LimitRun
import Verif.Lib.Fan
import Verif.Props.Control
import Verif.Props.TorchControl

/-!
# C69: continuous dependence on the arguments

With the random numbers held fixed (same generator state), a small change of initial state, target state, drift and
noise amplitude changes the flows and the control only a little, at arguments for which the clouds have spread.
-/

namespace DPFC
open Spec Filter Topology

section
variable {ρ ι : Type} {F : Filter ι} {N M d n : ℕ}

/-- **C69** (numpy). Deterministic mode, no reweighting. Let the arguments `c i` approach `c0`. If in the run with `c0`
the forward flow has spread at every index but the first, and the backward flow at every index but the first two and
the last, then all constructions return, all leave the generator in the state in which the limit run leaves it, and both
flows approach those of the limit run. -/
theorem C69_numpy_continuous (env : Env ρ ℝ) (c : ι → Cfg d N M ℝ) (c0 : Cfg d N M ℝ) (hN : 0 < N) (hd : 0 < d)
    (hdet : c0.deterministic = true) (hw : c0.reweight = false) (hk : c0.kern = "RBF" ∨ c0.kern = "periodic")
    (hc : CfgApproach F c c0) (r r0 : ρ) (o0 : Obj d N M ℝ) (h0 : construct env c0 r = .ok (o0, r0))
    (h2 : 2 ≤ o0.timegrid.length)
    (sZ : ∀ j x, 1 ≤ j → o0.Z[j]? = some x → Spread x)
    (sB : ∀ j x, 2 ≤ j → j + 1 < o0.timegrid.length → o0.B[j]? = some x → Spread x) :
    ∃ o : ι → Obj d N M ℝ, (∀ i, ∃ r', construct env (c i) r = .ok (o i, r')) ∧
      (∀ᶠ i in F, construct env (c i) r = .ok (o i, r0)) ∧ (∀ i, (o i).timegrid = o0.timegrid) ∧
      TrajApproach F (fun i => (o i).Z) o0.Z ∧ TrajApproach F (fun i => (o i).B) o0.B := by
  have hg0 := (construct_fields h0).2
  have ex : ∀ i, ∃ o r', construct env (c i) r = .ok (o, r') := fun i => by
    obtain ⟨e1, e2, e3, e4, e5, e6⟩ := Lim.cfg_fields hc i
    exact construct_det_total env (c i) hN (by rw [e3, hdet]) (by rw [e1, e2, ← hg0]; exact h2)
      (effKern_rbf (by rw [e5]; exact hk)) (fun h => by rw [e4, hw] at h; cases h)
      (fun h => by rw [e4, hw] at h; cases h) r
  choose o r' ho using ex
  have hg : ∀ i, (o i).timegrid = o0.timegrid := fun i => by
    rw [(construct_fields (ho i)).2, hg0, (Lim.cfg_fields hc i).1, (Lim.cfg_fields hc i).2.1]
  have s0 := C08_storage_sizes env c0 hd r r0 o0 (.inl h0)
  have si := fun i => C08_storage_sizes env (c i) hd r (r' i) (o i) (.inl (ho i))
  obtain ⟨hZ, hB, hr⟩ := Lim.run_lim hc h2 (Lim.run_np hN hd hdet hk hw h0 h2)
    (Eventually.of_forall fun i => by
      obtain ⟨e1, e2, e3, e4, e5, e6⟩ := Lim.cfg_fields hc i
      have := Lim.run_np hN hd (by rw [e3, hdet]) (by rw [e5]; exact hk) (by rw [e4, hw]) (ho i) (by rw [hg i]; exact h2)
      rw [hg i] at this
      exact this)
    (fun u X X0 hX h => Lim.flowScore hN hX h u)
    (fun u X X0 y y0 hX h hy => Lim.scoreRho hN hX h (Lim.pt_lim hy) u)
    (fun u X X0 Y Y0 hX h hY _ => Lim.scoreRho hN hX h hY u)
    (fun u X X0 Y Y0 hX _ hY h => Lim.scoreB hN hX hY h u)
    (fun j h1 hj => sZ j _ h1 (Lim.sl_some (by omega)))
    (fun j h1 hj => sB j _ h1 hj (Lim.sl_some (by omega)))
  refine ⟨o, fun i => ⟨_, ho i⟩, hr.mono fun i hi => by rw [← hi]; exact ho i, hg,
    ⟨Eventually.of_forall fun i => by rw [(si i).1, s0.1, hg i], fun j hj a m => ?_⟩,
    ⟨Eventually.of_forall fun i => by rw [(si i).2.1, s0.2.1, hg i], fun j hj a m => ?_⟩⟩
  · have := Lim.at2 (hZ j (by omega)) a m
    rwa [Lim.sl_eq (List.getElem?_eq_getElem hj)] at this
  · have := Lim.at2 (hB j (by omega)) a m
    rwa [Lim.sl_eq (List.getElem?_eq_getElem hj)] at this

/-- **C69** (torch). The same for the torch class, where a cloud without spread raises ValueError: if the limit
construction returns, then the nearby ones do, and their flows approach those of the limit run as soon as the backward
flow of the limit run has spread at every index but the first two and the last. -/
theorem C69_torch_continuous (env : Env ρ ℝ) (c : ι → Cfg d N M ℝ) (c0 : Cfg d N M ℝ) (hN : 0 < N) (hd : 2 ≤ d)
    (hdet : c0.deterministic = true) (hw : c0.reweight = false) (hk : c0.kern = "RBF" ∨ c0.kern = "periodic")
    (hc : CfgApproach F c c0) (r r0 : ρ) (o0 : Obj d N M ℝ) (h0 : torchConstruct env c0 r = .ok (o0, r0))
    (h3 : 3 ≤ o0.timegrid.length) :
    (∀ᶠ i in F, ∃ o r', torchConstruct env (c i) r = .ok (o, r')) ∧
    ((∀ j x, 2 ≤ j → j + 1 < o0.timegrid.length → o0.B[j]? = some x → Spread x) →
      ∀ (o : ι → Obj d N M ℝ) (r' : ι → ρ), (∀ᶠ i in F, torchConstruct env (c i) r = .ok (o i, r' i)) →
        (∀ᶠ i in F, r' i = r0 ∧ (o i).timegrid = o0.timegrid) ∧
        TrajApproach F (fun i => (o i).Z) o0.Z ∧ TrajApproach F (fun i => (o i).B) o0.B) := by
  refine ⟨Lim.torch_open hN hd hc hdet hw hk h0 h3, fun sB o r' ho => ?_⟩
  have hd0 : 0 < d := by omega
  have h2 : 2 ≤ o0.timegrid.length := by omega
  have hg : ∀ i, torchConstruct env (c i) r = .ok (o i, r' i) → (o i).timegrid = o0.timegrid := fun i h => by
    rw [(torchConstruct_fields h).2.2, (torchConstruct_fields h0).2.2, (Lim.cfg_fields hc i).1,
      (Lim.cfg_fields hc i).2.1]
  have s0 := C08_storage_sizes env c0 hd0 r r0 o0 (.inr h0)
  have si := fun i h => C08_storage_sizes env (c i) hd0 r (r' i) (o i) (.inr h)
  obtain ⟨hZ, hB, hr⟩ := Lim.run_lim hc h2 (Lim.run_torch hN hd hdet hk hw h0 h2)
    (ho.mono fun i h => by
      obtain ⟨e1, e2, e3, e4, e5, e6⟩ := Lim.cfg_fields hc i
      have := Lim.run_torch hN hd (by rw [e3, hdet]) (by rw [e5]; exact hk) (by rw [e4, hw]) h (by rw [hg i h]; exact h2)
      rw [hg i h] at this
      exact this)
    (fun u X X0 hX h => Lim.tflowScore hN hX h u)
    (fun u X X0 y y0 hX h hy => Lim.tscoreRho_pt hN hX h hy u)
    (fun u X X0 Y Y0 hX h hY h' => Lim.tscoreRho hN hX h hY h' u)
    (fun u X X0 Y Y0 hX _ hY h => Lim.tscoreB hN hX hY h u)
    (fun j h1 hj => Lim.torch_spread hdet h0 h3 j h1 _ (Lim.sl_some (by omega)))
    (fun j h1 hj => sB j _ h1 hj (Lim.sl_some (by omega)))
  refine ⟨hr.mp (ho.mono fun i h hi => ⟨hi, hg i h⟩),
    ⟨ho.mono fun i h => by rw [(si i h).1, s0.1, hg i h], fun j hj a m => ?_⟩,
    ⟨ho.mono fun i h => by rw [(si i h).2.1, s0.2.1, hg i h], fun j hj a m => ?_⟩⟩
  · have := Lim.at2 (hZ j (by omega)) a m
    rwa [Lim.sl_eq (List.getElem?_eq_getElem hj)] at this
  · have := Lim.at2 (hB j (by omega)) a m
    rwa [Lim.sl_eq (List.getElem?_eq_getElem hj)] at this

theorem traj_at {T : ι → Traj d N ℝ} {T0 : Traj d N ℝ} (h : TrajApproach F T T0) {ti : Int} {b0 : Mat d N ℝ}
    (h0 : pyAt T0 ti = some b0) :
    ∃ b : ι → Fin d → Fin N → ℝ, (∀ᶠ i in F, pyAt (T i) ti = some (b i)) ∧ Tendsto b F (𝓝 b0) := by
  obtain ⟨j, hj, e0, ei⟩ : ∃ j, ∃ hj : j < T0.length, T0[j] = b0 ∧
      ∀ S : Traj d N ℝ, S.length = T0.length → pyAt S ti = S[j]? := by
    unfold pyAt at h0
    split at h0
    · rename_i hp
      obtain ⟨hj, e⟩ := List.getElem?_eq_some_iff.1 h0
      exact ⟨_, hj, e, fun S _ => by unfold pyAt; rw [if_pos hp]⟩
    · rename_i hp
      split at h0
      · rename_i hq
        obtain ⟨hj, e⟩ := List.getElem?_eq_some_iff.1 h0
        exact ⟨_, hj, e, fun S hS => by unfold pyAt; rw [if_neg hp, hS, if_pos hq]⟩
      · cases h0
  refine ⟨fun i => Lim.sl (T i) j, h.1.mono fun i hi => ?_, Lim.of2 fun a m => ?_⟩
  · rw [ei _ hi]; exact Lim.sl_some (by omega)
  · rw [← e0]; exact h.2 j hj a m

/-- **C69** (control, numpy). Let both flows of the objects `o i` approach those of `o0`, all on equally long grids, and
let the query points `x i` approach `x0`. If the slices of `o0` with index `ti` have spread, then eventually the queries
return, with the same generator state afterwards, and the controls approach the control of `o0` at `x0`. With `o i = o0`:
the control is a continuous function of the query point. -/
theorem C69_control_continuous (env : Env ρ ℝ) (o : ι → Obj d N M ℝ) (o0 : Obj d N M ℝ) (hN : 0 < N)
    (hk : ∀ i, (o i).cfg.kern = "RBF" ∨ (o i).cfg.kern = "periodic") (hk0 : o0.cfg.kern = "RBF" ∨ o0.cfg.kern = "periodic")
    (hm : ∀ i, ((o i).cfg.reweight && (o i).cfg.brownBridge) = false) (hm0 : (o0.cfg.reweight && o0.cfg.brownBridge) = false)
    (hl : ∀ᶠ i in F, (o i).timegrid.length = o0.timegrid.length)
    (hZ : TrajApproach F (fun i => (o i).Z) o0.Z) (hB : TrajApproach F (fun i => (o i).B) o0.B)
    (x : ι → Mat n d ℝ) (x0 : Mat n d ℝ) (hx : ∀ j a, Tendsto (fun i => x i j a) F (𝓝 (x0 j a))) (ti : Int)
    (b z : Mat d N ℝ) (hb : pyAt o0.B ti = some b) (hz : pyAt o0.Z ti = some z) (sb : Spread b) (sz : Spread z) (r : ρ) :
    ∃ (u : ι → Mat d n ℝ) (u0 : Mat d n ℝ) (q : ρ), calculateU env o0 x0 ti r = .ok (u0, q) ∧
      (∀ᶠ i in F, calculateU env (o i) (x i) ti r = .ok (u i, q)) ∧ ∀ a j, Tendsto (fun i => u i a j) F (𝓝 (u0 a j)) := by
  obtain ⟨bi, hbi, lb⟩ := traj_at hB hb
  obtain ⟨zi, hzi, lz⟩ := traj_at hZ hz
  have lx : Tendsto (fun i => (x i : Fin n → Fin d → ℝ)) F (𝓝 x0) := Lim.of2 hx
  by_cases he : Edge o0.timegrid.length ti
  · have hr0 : reference o0 ti = some z := by unfold reference; rw [hm0]; exact hz
    obtain ⟨u0, h0, e0⟩ := C36_edge_control_formula env o0 hN x0 ti he b z z hb hz hr0 sb sz r
    refine ⟨fun i a j => (avg (bi i a) - x i j a) / variance (bi i a) - (avg (zi i a) - x i j a) / variance (zi i a), u0, r,
      h0, ?_, fun a j => ?_⟩
    · filter_upwards [hbi, hzi, hl, Lim.spread lb sb, Lim.spread lz sz] with i h1 h2 h3 h4 h5
      have hr : reference (o i) ti = some (zi i) := by unfold reference; rw [hm i]; exact h2
      obtain ⟨u, h, e⟩ := C36_edge_control_formula env (o i) hN (x i) ti (by rw [h3]; exact he) _ _ _ h1 h2 hr h4 h5 r
      rw [h]; congr 2
      funext a j
      exact e a j
    · rw [e0]
      have hv : ∀ {w : ι → Fin N → ℝ} {w0 : Fin N → ℝ}, Tendsto w F (𝓝 w0) →
          Tendsto (fun i => variance (w i)) F (𝓝 (variance w0)) := fun h => (Lim.sqsum h).div_const _
      have hne : ∀ w : Fin N → ℝ, sdev w ≠ 0 → variance w ≠ 0 := fun w h h' => h (by simp [sdev, h'])
      exact (((Lim.avg (tendsto_pi_nhds.1 lb a)).sub (hx j a)).div (hv (tendsto_pi_nhds.1 lb a)) (hne _ (sb a))).sub
        (((Lim.avg (tendsto_pi_nhds.1 lz a)).sub (hx j a)).div (hv (tendsto_pi_nhds.1 lz a)) (hne _ (sz a)))
  · refine ⟨fun i a j =>
      pointScore (bi i) (inducing (ibLow (zi i) (bi i)) (ibHigh (zi i) (bi i)) (unifs env d M r)) (x i) a j
        - pointScore (zi i) (inducing (ibLow (zi i) (bi i)) (ibHigh (zi i) (bi i)) (unifs env d M r)) (x i) a j,
      _, _, C39_interior_control env o0 hN hk0 hm0 x0 ti he b z hb hz r, ?_, fun a j => ?_⟩
    · filter_upwards [hbi, hzi, hl] with i h1 h2 h3
      exact C39_interior_control env (o i) hN (hk i) (hm i) (x i) ti (by rw [h3]; exact he) _ _ h1 h2 r
    · have hP : Tendsto (fun i => inducing (ibLow (zi i) (bi i)) (ibHigh (zi i) (bi i)) (unifs env d M r)) F
          (𝓝 (inducing (ibLow z b) (ibHigh z b) (unifs env d M r))) := Lim.inducing
        (tendsto_pi_nhds.2 fun a => (Lim.lo hN (tendsto_pi_nhds.1 lz a)).max (Lim.lo hN (tendsto_pi_nhds.1 lb a)))
        (tendsto_pi_nhds.2 fun a => (Lim.hi hN (tendsto_pi_nhds.1 lz a)).min (Lim.hi hN (tendsto_pi_nhds.1 lb a)))
        tendsto_const_nhds
      exact (Lim.at2 (Lim.pointScore lb sb hP lx) a j).sub (Lim.at2 (Lim.pointScore lz sz hP lx) a j)

/-- **C69** (control, torch). The same for the torch class. -/
theorem C69_torch_control_continuous (env : Env ρ ℝ) (o : ι → Obj d N M ℝ) (o0 : Obj d N M ℝ) (hN : 2 ≤ N) (hd : 2 ≤ d)
    (hk : ∀ i, (o i).cfg.kern = "RBF" ∨ (o i).cfg.kern = "periodic") (hk0 : o0.cfg.kern = "RBF" ∨ o0.cfg.kern = "periodic")
    (hm : ∀ i, ((o i).cfg.reweight && (o i).cfg.brownBridge) = false) (hm0 : (o0.cfg.reweight && o0.cfg.brownBridge) = false)
    (hl : ∀ᶠ i in F, (o i).timegrid.length = o0.timegrid.length)
    (hZ : TrajApproach F (fun i => (o i).Z) o0.Z) (hB : TrajApproach F (fun i => (o i).B) o0.B)
    (x : ι → Mat n d ℝ) (x0 : Mat n d ℝ) (hx : ∀ j a, Tendsto (fun i => x i j a) F (𝓝 (x0 j a))) (ti : Int)
    (b z : Mat d N ℝ) (hb : pyAt o0.B ti = some b) (hz : pyAt o0.Z ti = some z) (sb : Spread b) (sz : Spread z) (r : ρ) :
    ∃ (u : ι → Mat d n ℝ) (u0 : Mat d n ℝ) (q : ρ), torchCalculateU env o0 x0 ti r = .ok (⟨d, n, u0⟩, q) ∧
      (∀ᶠ i in F, torchCalculateU env (o i) (x i) ti r = .ok (⟨d, n, u i⟩, q)) ∧
      ∀ a j, Tendsto (fun i => u i a j) F (𝓝 (u0 a j)) := by
  obtain ⟨bi, hbi, lb⟩ := traj_at hB hb
  obtain ⟨zi, hzi, lz⟩ := traj_at hZ hz
  have lx : Tendsto (fun i => (x i : Fin n → Fin d → ℝ)) F (𝓝 x0) := Lim.of2 hx
  have hN0 : 0 < N := by omega
  have hr0 : reference o0 ti = some z := by unfold reference; rw [hm0]; exact hz
  have hr : ∀ i, pyAt (o i).Z ti = some (zi i) → reference (o i) ti = some (zi i) := fun i h => by
    unfold reference; rw [hm i]; exact h
  by_cases he : Edge o0.timegrid.length ti
  · have e : ∀ (v : Fin N → ℝ) (y : ℝ), sdev v ≠ 0 → sampleGaussScore v y = -(y - avg v) / sampleSdev v ^ 2 :=
      fun v y hs => (hasDerivAt_log_normal _ _ y (Lim.sample_ne hs)).deriv
    obtain ⟨u0, h0, e0⟩ := C36_torch_edge_control env o0 hN x0 ti he b z z hb hz hr0 sb sz r
    refine ⟨fun i a j => -(x i j a - avg (bi i a)) / sampleSdev (bi i a) ^ 2
      - -(x i j a - avg (zi i a)) / sampleSdev (zi i a) ^ 2, u0, r, h0, ?_, fun a j => ?_⟩
    · filter_upwards [hbi, hzi, hl, Lim.spread lb sb, Lim.spread lz sz] with i h1 h2 h3 h4 h5
      obtain ⟨u, h, eu⟩ := C36_torch_edge_control env (o i) hN (x i) ti (by rw [h3]; exact he) _ _ _ h1 h2 (hr i h2) h4 h5 r
      rw [h]; congr 3
      funext a j
      rw [eu, e _ _ (h4 a), e _ _ (h5 a)]
    · rw [e0, e _ _ (sb a), e _ _ (sz a)]
      have hv : ∀ {w : ι → Fin N → ℝ} {w0 : Fin N → ℝ}, Tendsto w F (𝓝 w0) → sdev w0 ≠ 0 →
          Tendsto (fun i => -(x i j a - avg (w i)) / sampleSdev (w i) ^ 2) F
            (𝓝 (-(x0 j a - avg w0) / sampleSdev w0 ^ 2)) := fun h h0 =>
        (((hx j a).sub (Lim.avg h)).neg).div ((Lim.sampleSdev h).pow 2) (pow_ne_zero 2 (Lim.sample_ne h0))
      exact (hv (tendsto_pi_nhds.1 lb a) (sb a)).sub (hv (tendsto_pi_nhds.1 lz a) (sz a))
  · have hbox : ∀ (z b : Fin d → Fin N → ℝ), Spread z → ∀ a, hullLow z b a < hullHigh z b a := fun z b h a =>
      lt_of_le_of_lt (min_le_left _ _) (lt_of_lt_of_le (lo_lt_hi_of_spread hN0 (h a)) (le_max_left _ _))
    refine ⟨fun i a j =>
      tpointScore (bi i) (tinducing (hullLow (zi i) (bi i)) (hullHigh (zi i) (bi i)) (tunifs env d M r)) (x i) a j
        - tpointScore (zi i) (tinducing (hullLow (zi i) (bi i)) (hullHigh (zi i) (bi i)) (tunifs env d M r)) (x i) a j,
      _, _, C39_torch_interior_control env o0 hN0 hd hk0 x0 ti he b z z hb hz hr0 (hbox _ _ sz) r, ?_, fun a j => ?_⟩
    · filter_upwards [hbi, hzi, hl, Lim.spread lz sz] with i h1 h2 h3 h4
      exact C39_torch_interior_control env (o i) hN0 hd (hk i) (x i) ti (by rw [h3]; exact he) _ _ _ h1 h2 (hr i h2)
        (hbox _ _ h4) r
    · have hP := Lim.hull hN0 lz lb (tunifs env d M r)
      exact (Lim.at2 (Lim.tpointScore lb sb hP lx) a j).sub (Lim.at2 (Lim.tpointScore lz sz hP lx) a j)

/-- **C69** (as continuity). If moreover the drift is continuous in the cloud, every stored number is, near the given
arguments, a continuous function of initial state, target state and noise amplitude. -/
theorem C69_continuous_in_arguments (env : Env ρ ℝ) (c : Cfg d N M ℝ) (hN : 0 < N) (hd : 0 < d)
    (hdet : c.deterministic = true) (hw : c.reweight = false) (hk : c.kern = "RBF" ∨ c.kern = "periodic")
    (hf : ∀ t, Continuous fun x : Fin d → Fin N → ℝ => (c.f.call2 x t : Fin d → Fin N → ℝ))
    (r r0 : ρ) (o0 : Obj d N M ℝ) (h0 : construct env c r = .ok (o0, r0)) (h2 : 2 ≤ o0.timegrid.length)
    (sZ : ∀ j x, 1 ≤ j → o0.Z[j]? = some x → Spread x)
    (sB : ∀ j x, 2 ≤ j → j + 1 < o0.timegrid.length → o0.B[j]? = some x → Spread x) :
    ∃ o : (Fin d → ℝ) × (Fin d → ℝ) × ℝ → Obj d N M ℝ,
      (∀ y1 y2 g, ∃ r', construct env { c with y1 := y1, y2 := y2, g := g } r = .ok (o (y1, y2, g), r')) ∧
      ∀ j < o0.timegrid.length, ∀ a m,
        ContinuousAt (fun p => ((o p).Z[j]?.getD fun _ _ => 0) a m) (c.y1, c.y2, c.g) ∧
        ContinuousAt (fun p => ((o p).B[j]?.getD fun _ _ => 0) a m) (c.y1, c.y2, c.g) := by
  have hc : CfgApproach (𝓝 (c.y1, c.y2, c.g)) (fun p => { c with y1 := p.1, y2 := p.2.1, g := p.2.2 }) c :=
    ⟨fun _ => rfl, continuous_fst.tendsto _, (continuous_fst.comp continuous_snd).tendsto _,
      (continuous_snd.comp continuous_snd).tendsto _, fun t X X0 hX => ((hf t).tendsto X0).comp hX⟩
  obtain ⟨o, h1, hev, _, hZ, hB⟩ := C69_numpy_continuous env _ c hN hd hdet hw hk hc r r0 o0 h0 h2 sZ sB
  have s0 := C08_storage_sizes env c hd r r0 o0 (.inl h0)
  obtain ⟨r', h1c⟩ := h1 (c.y1, c.y2, c.g)
  have e : o (c.y1, c.y2, c.g) = o0 := by
    have := h0.symm.trans h1c
    simp only [Except.ok.injEq, Prod.mk.injEq] at this
    exact this.1.symm
  refine ⟨o, fun y1 y2 g => h1 (y1, y2, g), fun j hj a m => ⟨?_, ?_⟩⟩
  · have := hZ.2 j (by omega) a m
    show Tendsto _ _ (𝓝 (((o (c.y1, c.y2, c.g)).Z[j]?.getD fun _ _ => 0) a m))
    rw [e, List.getElem?_eq_getElem (by omega)]
    exact this
  · have := hB.2 j (by omega) a m
    show Tendsto _ _ (𝓝 (((o (c.y1, c.y2, c.g)).B[j]?.getD fun _ _ => 0) a m))
    rw [e, List.getElem?_eq_getElem (by omega)]
    exact this

end
/-- The noise amplitudes `g i` tend to zero: the arguments approach the fanning cloud without noise. -/
theorem fan_approach (d N M steps : ℕ) : CfgApproach atTop (fun i : ℕ => { exFan d N M steps with g := 1 / ((i:ℝ) + 1) })
    (exFan d N M steps) :=
  ⟨fun _ => rfl, tendsto_const_nhds, tendsto_const_nhds, tendsto_one_div_add_atTop_nhds_zero_nat,
    fun _ _ _ _ => tendsto_const_nhds⟩

/-- Small-noise limit of the numpy class on 21 grid points, with a query at an interior index. -/
example (r : ℕ) (x : Mat 2 3 ℝ) : ∃ (o : ℕ → Obj 3 4 5 ℝ) (o0 : Obj 3 4 5 ℝ) (r0 : ℕ),
    construct exEnv (exFan 3 4 5 20) r = .ok (o0, r0) ∧
    (∀ᶠ i : ℕ in atTop, construct exEnv { exFan 3 4 5 20 with g := 1 / ((i:ℝ) + 1) } r = .ok (o i, r0)) ∧
    TrajApproach atTop (fun i => (o i).B) o0.B ∧
    ∃ (u : ℕ → Mat 3 2 ℝ) (u0 : Mat 3 2 ℝ) (q : ℕ), calculateU exEnv o0 x 10 r0 = .ok (u0, q) ∧
      (∀ᶠ i in atTop, calculateU exEnv (o i) x 10 r0 = .ok (u i, q)) ∧
      ∀ a j, Tendsto (fun i => u i a j) atTop (𝓝 (u0 a j)) := by
  obtain ⟨o0, r0, h, hl⟩ := fan_constructs 4 5 3 20 (by norm_num) (by norm_num) r
  have hlen := C08_storage_sizes exEnv _ (by norm_num) r r0 o0 (.inl h)
  have hF := fun i z (hi : 1 ≤ i) hz =>
    fan_forward_spread 4 5 3 20 (by norm_num) (by norm_num) r r0 (by norm_num) o0 h hl i hi z hz
  have hB := fun i b (h1 : 1 ≤ i) (h2 : i < 20) hb =>
    fan_backward_spread 4 5 3 20 (by norm_num) r r0 (by norm_num) o0 h hl i h1 h2 b hb
  obtain ⟨o, h1, h2, h3, h4, h5⟩ := C69_numpy_continuous exEnv _ _ (by norm_num) (by norm_num) rfl rfl (.inl rfl)
    (fan_approach 3 4 5 20) r r0 o0 h (by omega) hF (fun j b h1 h2 hb => hB j b (by omega) (by omega) hb)
  have hcf : ∀ i, (o i).cfg = { exFan 3 4 5 20 with g := 1 / ((i:ℝ) + 1) } := fun i => by
    obtain ⟨_, hh⟩ := h1 i
    exact (construct_fields hh).1
  have hc0 := (construct_fields h).1
  have eb : pyAt o0.B 10 = some o0.B[10] := List.getElem?_eq_getElem (by omega)
  have ez : pyAt o0.Z 10 = some o0.Z[10] := List.getElem?_eq_getElem (by omega)
  exact ⟨o, o0, r0, h, h2, h5, C69_control_continuous exEnv o o0 (by norm_num) (fun i => by rw [hcf]; exact .inl rfl)
    (by rw [hc0]; exact .inl rfl) (fun i => by rw [hcf]; rfl) (by rw [hc0]; rfl)
    (Eventually.of_forall fun i => by rw [h3]) h4 h5 (fun _ => x) x (fun _ _ => tendsto_const_nhds) 10 _ _ eb ez
    (hB 10 _ (by norm_num) (by norm_num) (List.getElem?_eq_getElem (by omega)))
    (hF 10 _ (by norm_num) (List.getElem?_eq_getElem (by omega))) r0⟩

/-- The same in the torch class; with noise the constructor does not raise either, for all small amplitudes. -/
example (r : ℕ) (x : Mat 2 3 ℝ) : ∃ (o : ℕ → Obj 3 4 5 ℝ) (o0 : Obj 3 4 5 ℝ) (r0 : ℕ),
    torchConstruct exEnv (exFan 3 4 5 20) r = .ok (o0, r0) ∧
    (∀ᶠ i : ℕ in atTop, torchConstruct exEnv { exFan 3 4 5 20 with g := 1 / ((i:ℝ) + 1) } r = .ok (o i, r0)) ∧
    TrajApproach atTop (fun i => (o i).Z) o0.Z ∧ TrajApproach atTop (fun i => (o i).B) o0.B := by
  obtain ⟨o0, r0, h, hl⟩ := ex_torch 3 4 5 20 (by norm_num) (by norm_num) (by norm_num) r
  obtain ⟨h1, h2⟩ := C69_torch_continuous exEnv _ _ (by norm_num) (by norm_num) rfl rfl (.inl rfl)
    (fan_approach 3 4 5 20) r r0 o0 h (by omega)
  have : Nonempty (Obj 3 4 5 ℝ × ℕ) := ⟨(o0, r0)⟩
  obtain ⟨p, hp⟩ := (h1.mono fun i ⟨o, r', hh⟩ => (⟨(o, r'), hh⟩ : ∃ p : Obj 3 4 5 ℝ × ℕ,
    torchConstruct exEnv { exFan 3 4 5 20 with g := 1 / ((i:ℝ) + 1) } r = .ok p)).choice
  obtain ⟨e1, e2, e3⟩ := h2 (fun j b h1 h2 hb =>
    fan_torch_backward_spread 4 5 3 20 (by norm_num) r r0 (by norm_num) o0 h hl j (by omega) (by omega) b hb) (fun i => (p i).1) (fun i => (p i).2) hp
  exact ⟨fun i => (p i).1, o0, r0, h, hp.mp (e1.mono fun i h1 h2 => by rw [← h1.1]; exact h2), e2, e3⟩

end DPFC
