import Verif.Props.Bridge
import Verif.Props.TorchControl
import Verif.Lib.ScoreLaws
import Verif.Lib.Limit

/-!
# C25: the interior control is bounded

The bound depends on the stored clouds only: not on the query points, their number or the inducing points.
-/

namespace DPFC
open Spec
variable {ρ : Type} {N M d n : ℕ}

/-- A bound of the estimated score in terms of the lengthscale, for `C = 1e-3`. -/
theorem score_bound_len (l : Fin d → ℝ) (hl : ∀ k, l k ≠ 0) (X : Mat N d ℝ) (Z : Mat M d ℝ) (j : Fin d)
    (x : Fin d → ℝ) : |score (1/1000) l X Z j x| ≤ 500000 * M^2 * N / |l j| := by
  have h1 := score_bound (C := 1/1000) (by norm_num) l X Z j x
  have h2 : ∑ m, |gradSum l X Z j m| ≤ M * (N / |l j|) := by
    calc _ ≤ ∑ _m : Fin M, (N / |l j| : ℝ) :=
          Finset.sum_le_sum fun m _ => gradSum_bound l hl X Z j m
      _ = _ := by simp
  refine h1.trans ?_
  calc (M:ℝ) * ((∑ m, |gradSum l X Z j m|) / ((1/1000 + 1/1000) * (1/1000)))
      ≤ M * ((M * (N / |l j|)) / ((1/1000 + 1/1000) * (1/1000))) := by gcongr
    _ = _ := by ring

theorem control_bound_aux {v w p q A : ℝ} (hv : |v| ≤ A / |2 * p|) (hw : |w| ≤ A / |2 * q|) (hp : 0 ≤ p)
    (hq : 0 ≤ q) : |v - w| ≤ A / 2 * (1 / p + 1 / q) := by
  rw [abs_of_nonneg (by positivity : (0:ℝ) ≤ 2 * p)] at hv
  rw [abs_of_nonneg (by positivity : (0:ℝ) ≤ 2 * q)] at hw
  have h := (abs_sub v w).trans (add_le_add hv hw)
  refine h.trans (le_of_eq ?_)
  rw [mul_comm 2 p, mul_comm 2 q, ← div_div, ← div_div]
  ring

/-- **C25** (interior control, numpy). Whatever is queried at an interior index, each component of the control
is bounded by a constant that depends only on the spread of the stored clouds and the numbers of particles and
inducing points. -/
theorem C25_control_bounded (env : Env ρ ℝ) (o : Obj d N M ℝ) (hN : 0 < N)
    (hk : o.cfg.kern = "RBF" ∨ o.cfg.kern = "periodic")
    (hm : (o.cfg.reweight && o.cfg.brownBridge) = false) (ti : Int)
    (he : ¬ Edge o.timegrid.length ti) (b z : Mat d N ℝ) (hb : pyAt o.B ti = some b)
    (hz : pyAt o.Z ti = some z) (sb : Spread b) (sz : Spread z) (x : Mat n d ℝ) (r : ρ) :
    ∃ (u : Mat d n ℝ) (r' : ρ), calculateU env o x ti r = .ok (u, r') ∧
      ∀ a j, |u a j| ≤ 250000 * M^2 * N * (1 / sdev (b a) + 1 / sdev (z a)) := by
  refine ⟨_, _, C39_interior_control env o hN hk hm x ti he b z hb hz r, fun a j => ?_⟩
  have h := control_bound_aux (score_bound_len (fun k => 2 * sdev (b k)) (fun k => by simpa using sb k)
    (particle b) (inducing (ibLow z b) (ibHigh z b) (unifs env d M r)) a (x j))
    (score_bound_len (fun k => 2 * sdev (z k)) (fun k => by simpa using sz k)
    (particle z) (inducing (ibLow z b) (ibHigh z b) (unifs env d M r)) a (x j))
    (Real.sqrt_nonneg _) (Real.sqrt_nonneg _)
  refine h.trans (le_of_eq ?_)
  ring

/-- **C25** (interior control, numpy, reweighted Brownian-bridge mode). -/
theorem C25_bridge_control_bounded (env : Env ρ ℝ) (o : Obj 2 N M ℝ) (hN : 0 < N)
    (hk : o.cfg.kern = "RBF" ∨ o.cfg.kern = "periodic")
    (hm : o.cfg.reweight = true ∧ o.cfg.brownBridge = true) (ti : Int)
    (he : ¬ Edge o.timegrid.length ti) (b z zr : Mat 2 N ℝ) (hb : pyAt o.B ti = some b)
    (hz : pyAt o.Z ti = some z) (hr : reference o ti = some zr) (sb : Spread b) (sz : Spread zr)
    (x : Mat n 2 ℝ) (r : ρ) :
    ∃ (u : Mat 2 n ℝ) (r' : ρ), calculateU env o x ti r = .ok (u, r') ∧
      ∀ a j, |u a j| ≤ 250000 * M^2 * N * (1 / sdev (b a) + 1 / sdev (zr a)) := by
  refine ⟨_, _, C40_bridge_control env o hN hk hm x ti he b z zr hb hz hr r, fun a j => ?_⟩
  have h := control_bound_aux (score_bound_len (fun k => 2 * sdev (b k)) (fun k => by simpa using sb k)
    (particle b) (inducing (ibLow zr b) (ibHigh zr b) (unifs env 2 M r)) a (x j))
    (score_bound_len (fun k => 2 * sdev (zr k)) (fun k => by simpa using sz k)
    (particle zr) (inducing (ibLow zr b) (ibHigh zr b) (unifs env 2 M r)) a (bridgePoint zr a (x j)))
    (Real.sqrt_nonneg _) (Real.sqrt_nonneg _)
  refine h.trans (le_of_eq ?_)
  ring

/-- **C25** (interior control, torch, all modes). -/
theorem C25_torch_control_bounded (env : Env ρ ℝ) (o : Obj d N M ℝ) (hN : 0 < N) (hd : 2 ≤ d)
    (hk : o.cfg.kern = "RBF" ∨ o.cfg.kern = "periodic") (ti : Int)
    (he : ¬ Edge o.timegrid.length ti) (b z zr : Mat d N ℝ) (hb : pyAt o.B ti = some b)
    (hz : pyAt o.Z ti = some z) (hr : reference o ti = some zr)
    (sb : Spread b) (sz : Spread zr) (x : Mat n d ℝ) (r : ρ) :
    ∃ (u : Mat d n ℝ) (r' : ρ), torchCalculateU env o x ti r = .ok (⟨d, n, u⟩, r') ∧
      ∀ a j, |u a j| ≤ 250000 * M^2 * N * (1 / sampleSdev (b a) + 1 / sampleSdev (zr a)) := by
  have hbox : ∀ a, min (lo (zr a)) (lo (b a)) < max (hi (zr a)) (hi (b a)) := fun a =>
    (min_le_right _ _).trans_lt ((lo_lt_hi_of_spread hN (sb a)).trans_le (le_max_right _ _))
  refine ⟨_, _, C39_torch_interior_control env o hN hd hk x ti he b z zr hb hz hr hbox r, fun a j => ?_⟩
  have h := control_bound_aux (score_bound_len (fun k => 2 * sampleSdev (b k)) (fun k => by simpa using Lim.sample_ne (sb k))
    (particle b) (tinducing (hullLow zr b) (hullHigh zr b) (tunifs env d M r)) a (x j))
    (score_bound_len (fun k => 2 * sampleSdev (zr k)) (fun k => by simpa using Lim.sample_ne (sz k))
    (particle zr) (tinducing (hullLow zr b) (hullHigh zr b) (tunifs env d M r)) a (x j))
    (Real.sqrt_nonneg _) (Real.sqrt_nonneg _)
  refine h.trans (le_of_eq ?_)
  ring

/-- The hypotheses are met at the interior index 10 of the example object, for any query. -/
example (x : Mat 4 2 ℝ) (bb : Bool) :
    (∃ u r', calculateU exEnv (exObj false bb) x 10 0 = .ok (u, r') ∧
      ∀ a j, |u a j| ≤ 250000 * (3:ℕ)^2 * (2:ℕ) * (2 + 1)) ∧
    (∃ u r', calculateU exEnv (exObj true true) x 10 0 = .ok (u, r') ∧
      ∀ a j, |u a j| ≤ 250000 * (3:ℕ)^2 * (2:ℕ) * (2 + 2)) ∧
    ∃ u r', torchCalculateU exEnv (exObj false bb) x 10 0 = .ok (⟨2, 4, u⟩, r') := by
  have hl : ∀ rw bb, (exObj rw bb).timegrid.length = 20 := fun _ _ => by simp [exObj]
  have h10 := fun rw bb => exObj_slices rw bb 10 (by norm_num) (by norm_num)
  have e1 : ∀ q : ℝ, sdev (fun n : Fin 2 => q + n.val) = 1/2 := fun q => by
    rw [sdev, variance]
    simp only [avg, Fin.sum_univ_two]
    refine Eq.trans (congrArg Real.sqrt ?_) (Real.sqrt_sq (by norm_num : (0:ℝ) ≤ 1/2))
    norm_num; ring
  have e2 : ∀ q : ℝ, sdev (fun n : Fin 2 => q + 2 * n.val) = 1 := fun q => by
    rw [sdev, variance]
    simp only [avg, Fin.sum_univ_two]
    refine Eq.trans (congrArg Real.sqrt ?_) (Real.sqrt_sq (by norm_num : (0:ℝ) ≤ 1))
    norm_num; ring
  have b1 : ∀ a : Fin 2, sdev (((fun a n => (a.val : ℝ) + n.val + 1) : Mat 2 2 ℝ) a) = 1/2 := fun a => by
    rw [← e1 (a.val + 1)]; congr 1; funext n; ring
  have z1 : ∀ a : Fin 2, sdev (((fun a n => (a.val : ℝ) + 2 * n.val) : Mat 2 2 ℝ) a) = 1 := fun a => e2 _
  have t1 : ∀ a : Fin 2, sdev (((fun a n => 3 * (a.val : ℝ) + n.val - 5) : Mat 2 2 ℝ) a) = 1/2 := fun a => by
    rw [← e1 (3 * a.val - 5)]; congr 1; funext n; ring
  have sb : Spread ((fun a n => (a.val : ℝ) + n.val + 1) : Mat 2 2 ℝ) := fun a => by rw [b1]; norm_num
  have sz : Spread ((fun a n => (a.val : ℝ) + 2 * n.val) : Mat 2 2 ℝ) := fun a => by rw [z1]; norm_num
  have st : Spread ((fun a n => 3 * (a.val : ℝ) + n.val - 5) : Mat 2 2 ℝ) := fun a => by rw [t1]; norm_num
  have hr : reference (exObj true true) 10 = some fun a n => 3 * (a.val : ℝ) + n.val - 5 := by
    simp only [reference, exObj, exCfg]
    rfl
  have hr' : reference (exObj false bb) 10 = some fun a n => (a.val : ℝ) + 2 * n.val := by
    simp only [reference, exObj, exCfg]
    exact (h10 false bb).2
  obtain ⟨u, r', h, hu⟩ := C25_control_bounded exEnv (exObj false bb) (by norm_num) (.inl rfl) rfl 10
    (by rw [hl]; unfold Edge; norm_num) _ _ (h10 _ _).1 (h10 _ _).2 sb sz x 0
  obtain ⟨v, s', k, hv⟩ := C25_bridge_control_bounded exEnv (exObj true true) (by norm_num) (.inl rfl) ⟨rfl, rfl⟩ 10
    (by rw [hl]; unfold Edge; norm_num) _ _ _ (h10 _ _).1 (h10 _ _).2 hr sb st x 0
  obtain ⟨w, q', m, _⟩ := C25_torch_control_bounded exEnv (exObj false bb) (by norm_num) (le_refl 2) (.inl rfl) 10
    (by rw [hl]; unfold Edge; norm_num) _ _ _ (h10 _ _).1 (h10 _ _).2 hr' sb sz x 0
  refine ⟨⟨u, r', h, fun a j => (hu a j).trans (le_of_eq ?_)⟩, ⟨v, s', k, fun a j => (hv a j).trans (le_of_eq ?_)⟩,
    w, q', m⟩
  · rw [b1, z1]; norm_num
  · rw [b1, t1]; norm_num

end DPFC
