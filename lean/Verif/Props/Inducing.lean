import Verif.Lib.Fan
import Verif.Props.Bridge
import Verif.Props.TorchControl

/-!
# C16: where the inducing points are

For an environment whose uniform numbers lie in `[0, 1)` the recurrences hold with inducing points
inside the stated boxes.
-/

namespace DPFC
open Spec
variable {ρ : Type} {N M d n : ℕ}

theorem lo_le_hi (hN : 0 < N) (v : Fin N → ℝ) : lo v ≤ hi v := by
  have h := (lo_le_iff hN v (v ⟨0, hN⟩)).2 ⟨_, le_refl _⟩
  exact h.trans ((le_hi_iff hN v (v ⟨0, hN⟩)).2 ⟨_, le_refl _⟩)

/-- **C16** (forward). In every probability-flow step of the forward sampler the inducing points lie in the
bounding box of the particles. -/
theorem C16_forward (env : Env ρ ℝ) (hu : UnitUniform env) (c : Cfg d N M ℝ) (hN : 0 < N)
    (hdet : c.deterministic = true) (hk : c.kern = "RBF" ∨ c.kern = "periodic") (r r' : ρ)
    (o : Obj d N M ℝ) (h : construct env c r = .ok (o, r')) (i : ℕ) (hi1 : 1 ≤ i)
    (x y : Mat d N ℝ) (t : ℝ) (hx : o.Z[i]? = some x) (hy : o.Z[i+1]? = some y)
    (ht : o.timegrid[i]? = some t) (sx : Spread x) :
    ∃ (P : Fin M → Fin d → ℝ) (raw : Mat d N ℝ),
      (∀ m a, lo (x a) ≤ P m a ∧ P m a ≤ hi (x a)) ∧
      (∀ a n, raw a n = x a n + 1/1000 * (c.f.call2 x t a n - c.g^2/2 * cloudScore x P x a n)) ∧
      (c.reweight = false → y = raw) ∧
      (c.reweight = true → ∃ U, c.U = some U ∧
        TransportedTo env (fun n => U.call2 raw (t + 1/1000) n * (1/1000)) raw y) := by
  have hl : 2 ≤ o.timegrid.length := by
    have := (List.getElem?_eq_some_iff.1 ht).1; omega
  obtain ⟨rs, _, hF⟩ := C09_forward_recurrence env c hN hdet hk r r' o h hl
  obtain ⟨raw, hs, h1, h2⟩ := hF i x y t hx hy ht
  refine ⟨inducing (fun a => lo (x a)) (fun a => hi (x a)) (unifs env d M (rs i)), raw, fun m a => ?_,
    fun a n => ?_, h1, h2⟩
  rotate_left
  · rw [(hs.2 (by omega)).1 sx]; rfl
  · obtain ⟨b1, b2⟩ := inducing_between hu (fun a => lo (x a)) (fun a => hi (x a)) (rs i) m a
    rw [min_eq_left (lo_le_hi hN _)] at b1
    rw [max_eq_right (lo_le_hi hN _)] at b2
    exact ⟨b1, b2⟩

/-- **C16** (backward). In every backward step the inducing points of both score estimates lie between
`max(min z, min b)` and `min(max z, max b)` in each coordinate. -/
theorem C16_backward (env : Env ρ ℝ) (hu : UnitUniform env) (c : Cfg d N M ℝ) (hN : 0 < N)
    (hk : c.kern = "RBF" ∨ c.kern = "periodic") (r r' : ρ)
    (o : Obj d N M ℝ) (h : construct env c r = .ok (o, r')) (j : ℕ) (hj1 : 1 ≤ j)
    (hj2 : j + 2 ≤ o.timegrid.length) (z b y : Mat d N ℝ) (t : ℝ) (hz : o.Z[j+1]? = some z)
    (hb : o.B[j+1]? = some b) (hy : o.B[j]? = some y) (ht : o.timegrid[j+1]? = some t)
    (sz : Spread z) :
    ∃ (P Q : Fin M → Fin d → ℝ) (ξ : Mat d N ℝ),
      (∀ m a, Between (ibLow z b a) (ibHigh z b a) (P m a)) ∧
      (∀ m a, Between (ibLow z b a) (ibHigh z b a) (Q m a)) ∧
      (j + 2 = o.timegrid.length ∨ c.deterministic = false →
        ∀ a n, y a n = b a n - c.f.call2 b t a n * (1/1000) + 1/1000 * c.g^2 * cloudScore z P b a n
          + c.g * (Real.sqrt (1/1000) * ξ a n)) ∧
      (j + 2 < o.timegrid.length → c.deterministic = true → Spread b →
        ∀ a n, y a n = b a n - 1/1000 * (c.f.call2 b t a n - c.g^2 * cloudScore z P b a n
          + c.g^2/2 * cloudScore b Q b a n)) := by
  obtain ⟨rs, _, hB⟩ := C10_backward_recurrence env c hN hk r r' o h (by omega)
  obtain ⟨h1, h2⟩ := hB j z b y t hj1 hj2 hz hb hy ht
  refine ⟨inducing (ibLow z b) (ibHigh z b) (unifs env d M (rs j)),
    inducing (ibLow z b) (ibHigh z b) (unifs env d M (unifsNext env d M (rs j))),
    normals env d N (unifsNext env d M (rs j)), inducing_between hu _ _ _, inducing_between hu _ _ _,
    fun hc a n => ?_, fun hc hd sb a n => ?_⟩
  · rw [(h1 hc).1 sz]; rfl
  · rw [(h2 (by rw [hd]; simp; omega)).1 sz sb]; rfl

/-- **C16** (what "between" means for two clouds). If some point is covered by both clouds in coordinate `a`,
the values between the bounds are covered by both clouds; otherwise they lie in the gap between the
clouds. -/
theorem C16_between_bounds (hN : 0 < N) (z b : Mat d N ℝ) (a : Fin d) (v : ℝ)
    (hv : Between (ibLow z b a) (ibHigh z b a) v) :
    ((∃ w, (lo (z a) ≤ w ∧ w ≤ hi (z a)) ∧ (lo (b a) ≤ w ∧ w ≤ hi (b a))) →
      (lo (z a) ≤ v ∧ v ≤ hi (z a)) ∧ (lo (b a) ≤ v ∧ v ≤ hi (b a))) ∧
    (hi (z a) < lo (b a) → hi (z a) ≤ v ∧ v ≤ lo (b a)) ∧
    (hi (b a) < lo (z a) → hi (b a) ≤ v ∧ v ≤ lo (z a)) := by
  have hz := lo_le_hi hN (z a)
  have hb := lo_le_hi hN (b a)
  unfold Between ibLow ibHigh at hv
  refine ⟨?_, fun h => ?_, fun h => ?_⟩
  · rintro ⟨w, ⟨w1, w2⟩, ⟨w3, w4⟩⟩
    have : max (lo (z a)) (lo (b a)) ≤ min (hi (z a)) (hi (b a)) := (max_le w1 w3).trans (le_min w2 w4)
    rw [min_eq_left this, max_eq_right this, max_le_iff, le_min_iff] at hv
    tauto
  · rw [max_eq_right (by linarith : lo (z a) ≤ lo (b a)), min_eq_left (by linarith : hi (z a) ≤ hi (b a)),
      min_eq_right h.le, max_eq_left h.le] at hv
    exact hv
  · rw [max_eq_left (by linarith : lo (b a) ≤ lo (z a)), min_eq_right (by linarith : hi (b a) ≤ hi (z a)),
      min_eq_right h.le, max_eq_left h.le] at hv
    exact hv

/-- **C16** (first backward step). The first backward step estimates the forward score with all inducing
points equal to the target in every coordinate in which the forward particles enclose the target. -/
theorem C16_first_backward_step (env : Env ρ ℝ) (hu : UnitUniform env) (c : Cfg d N M ℝ) (hN : 0 < N)
    (hd : 0 < d) (hk : c.kern = "RBF" ∨ c.kern = "periodic") (r r' : ρ)
    (o : Obj d N M ℝ) (h : construct env c r = .ok (o, r')) (hl : 3 ≤ o.timegrid.length)
    (z y : Mat d N ℝ) (t : ℝ) (hz : o.Z[o.timegrid.length - 1]? = some z)
    (hy : o.B[o.timegrid.length - 2]? = some y) (ht : o.timegrid[o.timegrid.length - 1]? = some t)
    (sz : Spread z) :
    ∃ (P : Fin M → Fin d → ℝ) (ξ : Mat d N ℝ),
      (∀ a, lo (z a) ≤ c.y2 a → c.y2 a ≤ hi (z a) → ∀ m, P m a = c.y2 a) ∧
      ∀ a n, y a n = c.y2 a - c.f.call2 (fun a _ => c.y2 a) t a n * (1/1000)
        + 1/1000 * c.g^2 * cloudScore z P (fun a _ => c.y2 a) a n + c.g * (Real.sqrt (1/1000) * ξ a n) := by
  obtain ⟨b, hb, hbv⟩ := C04_backward_flow_ends_at_y2 env c hd r r' o (.inl h) (by omega)
  have hb' : b = fun a _ => c.y2 a := by funext a n; exact hbv a n
  have e : o.timegrid.length - 2 + 1 = o.timegrid.length - 1 := by omega
  obtain ⟨P, Q, ξ, hP, _, hy1, _⟩ := C16_backward env hu c hN hk r r' o h (o.timegrid.length - 2)
    (by omega) (by omega) z b y t (by rw [e]; exact hz) (by rw [e]; exact hb) hy (by rw [e]; exact ht) sz
  subst hb'
  refine ⟨P, ξ, fun a h1 h2 m => ?_, hy1 (.inl (by omega))⟩
  have := hP m a
  unfold Between ibLow ibHigh at this
  rw [(pt_lo_hi hN _).1, (pt_lo_hi hN _).2, max_eq_right h1, min_eq_right h2, min_self, max_self] at this
  exact le_antisymm this.2 this.1

/-- **C16** (queries). The inducing points of `calculate_u` at interior indices lie between the same bounds. -/
theorem C16_control (env : Env ρ ℝ) (hu : UnitUniform env) (o : Obj d N M ℝ) (hN : 0 < N)
    (hk : o.cfg.kern = "RBF" ∨ o.cfg.kern = "periodic")
    (hm : (o.cfg.reweight && o.cfg.brownBridge) = false) (x : Mat n d ℝ) (ti : Int)
    (he : ¬ Edge o.timegrid.length ti) (b z : Mat d N ℝ) (hb : pyAt o.B ti = some b)
    (hz : pyAt o.Z ti = some z) (r : ρ) :
    ∃ (P : Fin M → Fin d → ℝ) (u : Mat d n ℝ) (r' : ρ), calculateU env o x ti r = .ok (u, r') ∧
      (∀ m a, Between (ibLow z b a) (ibHigh z b a) (P m a)) ∧
      ∀ a j, u a j = pointScore b P x a j - pointScore z P x a j :=
  ⟨inducing (ibLow z b) (ibHigh z b) (unifs env d M r), _, _,
    C39_interior_control env o hN hk hm x ti he b z hb hz r, inducing_between hu _ _ _, fun _ _ => rfl⟩

/-- **C16** (queries, Brownian-bridge mode). The inducing points lie between the bounds of the backward and the
reference particles (the true-drift flow). -/
theorem C16_control_bridge (env : Env ρ ℝ) (hu : UnitUniform env) (o : Obj 2 N M ℝ) (hN : 0 < N)
    (hk : o.cfg.kern = "RBF" ∨ o.cfg.kern = "periodic")
    (hm : o.cfg.reweight = true ∧ o.cfg.brownBridge = true) (x : Mat n 2 ℝ) (ti : Int)
    (he : ¬ Edge o.timegrid.length ti) (b z zr : Mat 2 N ℝ) (hb : pyAt o.B ti = some b)
    (hz : pyAt o.Z ti = some z) (hr : reference o ti = some zr) (r : ρ) :
    ∃ (P : Fin M → Fin 2 → ℝ) (u : Mat 2 n ℝ) (r' : ρ), calculateU env o x ti r = .ok (u, r') ∧
      (∀ m a, Between (ibLow zr b a) (ibHigh zr b a) (P m a)) ∧
      ∀ a j, u a j = pointScore b P x a j - pointScore zr P (fun j => bridgePoint zr a (x j)) a j :=
  ⟨inducing (ibLow zr b) (ibHigh zr b) (unifs env 2 M r), _, _,
    C40_bridge_control env o hN hk hm x ti he b z zr hb hz hr r, inducing_between hu _ _ _, fun _ _ => rfl⟩

/-- **C16** (true-drift flow). In every probability-flow step of the true-drift sampler the inducing points lie
in the bounding box of its particles. -/
theorem C16_true_flow (env : Env ρ ℝ) (hu : UnitUniform env) (c : Cfg d N M ℝ) (hN : 0 < N)
    (hdet : c.deterministic = true) (hk : c.kern = "RBF" ∨ c.kern = "periodic") (r r' : ρ)
    (o : Obj d N M ℝ) (h : construct env c r = .ok (o, r')) (T : Traj d N ℝ) (hT : o.Ztr = some T)
    (i : ℕ) (hi1 : 1 ≤ i) (x y : Mat d N ℝ) (t : ℝ) (hx : T[i]? = some x) (hy : T[i+1]? = some y)
    (ht : o.timegrid[i]? = some t) (sx : Spread x) :
    ∃ (f : Drift d N ℝ) (P : Fin M → Fin d → ℝ), c.fTrue = some f ∧
      (∀ m a, lo (x a) ≤ P m a ∧ P m a ≤ hi (x a)) ∧
      ∀ a n, y a n = x a n + 1/1000 * (f.call2 x t a n - c.g^2/2 * cloudScore x P x a n) := by
  have hl : 2 ≤ o.timegrid.length := by
    have := (List.getElem?_eq_some_iff.1 ht).1; omega
  obtain ⟨_, rs, _, _, f, hf, hF⟩ := C12_true_flow_recurrence env c hN hdet hk r r' o h hl T hT
  have hs := hF i x y t hx hy ht
  refine ⟨f, inducing (fun a => lo (x a)) (fun a => hi (x a)) (unifs env d M (rs i)), hf, fun m a => ?_,
    fun a n => ?_⟩
  rotate_left
  · rw [(hs.2 (by omega)).1 sx]; rfl
  · obtain ⟨b1, b2⟩ := inducing_between hu (fun a => lo (x a)) (fun a => hi (x a)) (rs i) m a
    rw [min_eq_left (lo_le_hi hN _)] at b1
    rw [max_eq_right (lo_le_hi hN _)] at b2
    exact ⟨b1, b2⟩

/-- **C16** (torch, forward). In every probability-flow step of the forward sampler of the torch class the
inducing points lie in the bounding box of the particles. -/
theorem C16_torch_forward (env : Env ρ ℝ) (hu : UnitUniform env) (c : Cfg d N M ℝ) (hN : 0 < N)
    (hd : 0 < d) (hdet : c.deterministic = true) (hk : c.kern = "RBF" ∨ c.kern = "periodic") (r r' : ρ)
    (o : Obj d N M ℝ) (h : torchConstruct env c r = .ok (o, r')) (i : ℕ) (hi1 : 1 ≤ i)
    (x y : Mat d N ℝ) (t : ℝ) (hx : o.Z[i]? = some x) (hy : o.Z[i+1]? = some y)
    (ht : o.timegrid[i]? = some t) :
    ∃ (P : Fin M → Fin d → ℝ) (raw : Mat d N ℝ),
      (∀ m a, lo (x a) ≤ P m a ∧ P m a ≤ hi (x a)) ∧
      (∀ a n, raw a n = x a n + 1/1000 * (c.f.call2 x t a n - c.g^2/2 * tcloudScore x P x a n)) ∧
      (c.reweight = false → y = raw) ∧
      (c.reweight = true → ∃ U, c.U = some U ∧
        TorchTransportedTo env (fun n => U.call2 raw (t + 1/1000) n * (1/1000)) raw y) := by
  have hl : 2 ≤ o.timegrid.length := by
    have := (List.getElem?_eq_some_iff.1 ht).1; omega
  obtain ⟨rs, _, hF⟩ := C09_torch_forward_recurrence env c hN hd hdet hk r r' o h hl
  obtain ⟨raw, hs, h1, h2⟩ := hF i x y t hx hy ht
  refine ⟨tinducing (fun a => lo (x a)) (fun a => hi (x a)) (tunifs env d M (rs i)), raw, fun m a => ?_,
    fun a n => ?_, h1, h2⟩
  rotate_left
  · rw [(hs.2 (by omega)).2.2]
  · obtain ⟨b1, b2⟩ := tinducing_between hu (fun a => lo (x a)) (fun a => hi (x a)) (rs i) m a
    rw [min_eq_left (lo_le_hi hN _)] at b1
    rw [max_eq_right (lo_le_hi hN _)] at b2
    exact ⟨b1, b2⟩

/-- **C16** (torch, backward). In both modes the inducing points lie in the hull of both clouds. -/
theorem C16_torch_backward (env : Env ρ ℝ) (hu : UnitUniform env) (c : Cfg d N M ℝ) (hN : 0 < N)
    (hd : 0 < d) (hk : c.kern = "RBF" ∨ c.kern = "periodic") (r r' : ρ)
    (o : Obj d N M ℝ) (h : torchConstruct env c r = .ok (o, r')) (j : ℕ) (hj1 : 1 ≤ j)
    (hj2 : j + 2 ≤ o.timegrid.length) (z b y : Mat d N ℝ) (t : ℝ) (hz : o.Z[j+1]? = some z)
    (hb : o.B[j+1]? = some b) (hy : o.B[j]? = some y) (ht : o.timegrid[j+1]? = some t)
    (sz : Spread z) :
    ∃ (P Q : Fin M → Fin d → ℝ) (ξ : Mat d N ℝ),
      (∀ m a, min (lo (z a)) (lo (b a)) ≤ P m a ∧ P m a ≤ max (hi (z a)) (hi (b a))) ∧
      (∀ m a, min (lo (z a)) (lo (b a)) ≤ Q m a ∧ Q m a ≤ max (hi (z a)) (hi (b a))) ∧
      (j + 2 = o.timegrid.length ∨ c.deterministic = false →
        ∀ a n, y a n = b a n - c.f.call2 b t a n * (1/1000) + 1/1000 * c.g^2 * tcloudScore z P b a n
          + c.g * (Real.sqrt (1/1000) * ξ a n)) ∧
      (j + 2 < o.timegrid.length → c.deterministic = true → Spread b →
        ∀ a n, y a n = b a n - 1/1000 * (c.f.call2 b t a n - c.g^2 * tcloudScore z P b a n
          + c.g^2/2 * tcloudScore b Q b a n)) := by
  obtain ⟨rs, hB⟩ : ∃ rs, TorchBackwardRec env c o.timegrid.length (fun i => o.Z[i]?) (fun i => o.B[i]?)
      (fun i => o.timegrid[i]?) rs := by
    cases hdet : c.deterministic
    · obtain ⟨_, rs, _, _, _, hB, _⟩ := C11_torch_stochastic_recurrence env c hN hd hdet hk r r' o h (by omega)
      exact ⟨rs, hB⟩
    · obtain ⟨_, rs, _, _, _, hB, _⟩ := C10_torch_full_run env c hN hd hdet hk r r' o h (by omega)
      exact ⟨rs, hB⟩
  obtain ⟨h1, h2⟩ := hB j z b y t hj1 hj2 hz hb hy ht
  have hz1 := fun a => lo_le_hi hN (z a)
  have hb1 := fun a => lo_le_hi hN (b a)
  have hull : ∀ a, min (lo (z a)) (lo (b a)) ≤ max (hi (z a)) (hi (b a)) := fun a =>
    (min_le_left _ _).trans ((hz1 a).trans (le_max_left _ _))
  refine ⟨tinducing (tlow z b) (thigh z b) (tunifs env d M (rs j)),
    tinducing (fun a => min (lo (z a)) (lo (b a))) (fun a => max (hi (z a)) (hi (b a)))
      (tunifs env d M (tunifsNext env d M (rs j))),
    normals env d N (tunifsNext env d M (rs j)), fun m a => ?_, fun m a => ?_,
    fun hc a n => ?_, fun hc hdet sb a n => ?_⟩
  · obtain ⟨b1, b2⟩ := tinducing_between hu (tlow z b) (thigh z b) (rs j) m a
    have h3 : min (lo (z a)) (lo (b a)) ≤ min (tlow z b a) (thigh z b a) := by
      unfold tlow thigh
      split_ifs
      · exact le_min (min_le_left _ _) ((min_le_left _ _).trans (hz1 a))
      · exact le_min (le_refl _) (hull a)
    have h4 : max (tlow z b a) (thigh z b a) ≤ max (hi (z a)) (hi (b a)) := by
      unfold tlow thigh
      split_ifs
      · exact max_le ((hz1 a).trans (le_max_left _ _)) (le_max_left _ _)
      · exact max_le (hull a) (le_refl _)
    exact ⟨h3.trans b1, b2.trans h4⟩
  · obtain ⟨b1, b2⟩ := tinducing_between hu (fun a => min (lo (z a)) (lo (b a)))
      (fun a => max (hi (z a)) (hi (b a))) (tunifsNext env d M (rs j)) m a
    rw [min_eq_left (hull a)] at b1
    rw [max_eq_right (hull a)] at b2
    exact ⟨b1, b2⟩
  · rw [(h1 hc).1 sz]; rfl
  · rw [(h2 (by rw [hdet]; simp; omega)).1 sz sb]; rfl

/-- **C16** (torch, queries). The inducing points of the torch `calculate_u` at interior indices lie in the hull
of the backward and the reference particles, in all modes. -/
theorem C16_torch_control (env : Env ρ ℝ) (hu : UnitUniform env) (o : Obj d N M ℝ) (hN : 0 < N) (hd : 2 ≤ d)
    (hk : o.cfg.kern = "RBF" ∨ o.cfg.kern = "periodic") (x : Mat n d ℝ) (ti : Int)
    (he : ¬ Edge o.timegrid.length ti) (b z zr : Mat d N ℝ) (hb : pyAt o.B ti = some b)
    (hz : pyAt o.Z ti = some z) (hr : reference o ti = some zr)
    (hbox : ∀ a, min (lo (zr a)) (lo (b a)) < max (hi (zr a)) (hi (b a))) (r : ρ) :
    ∃ (P : Fin M → Fin d → ℝ) (r' : ρ),
      torchCalculateU env o x ti r = .ok (⟨d, n, fun a j => tpointScore b P x a j - tpointScore zr P x a j⟩, r') ∧
      ∀ m a, min (lo (zr a)) (lo (b a)) ≤ P m a ∧ P m a ≤ max (hi (zr a)) (hi (b a)) := by
  refine ⟨tinducing (hullLow zr b) (hullHigh zr b) (tunifs env d M r), _,
    C39_torch_interior_control env o hN hd hk x ti he b z zr hb hz hr hbox r, fun m a => ?_⟩
  obtain ⟨b1, b2⟩ := tinducing_between hu (hullLow zr b) (hullHigh zr b) r m a
  unfold hullLow hullHigh at b1 b2 ⊢
  rw [min_eq_left (hbox a).le] at b1
  rw [max_eq_right (hbox a).le] at b2
  exact ⟨b1, b2⟩

/-- The hypotheses are met at every step of a run with 101 grid points (three dimensions, five particles,
four inducing points). -/
example : ∃ o r', construct exEnv (exFan 3 5 4 100) 0 = .ok (o, r') ∧ ∀ i, 1 ≤ i → i < 100 →
    ∃ x : Mat 3 5 ℝ, o.Z[i]? = some x ∧ Spread x ∧ ∃ P : Fin 4 → Fin 3 → ℝ,
      ∀ m a, lo (x a) ≤ P m a ∧ P m a ≤ hi (x a) := by
  obtain ⟨o, r', h, hl⟩ := fan_constructs 5 4 3 100 (by norm_num) (by norm_num) 0
  have hlen := (C08_storage_sizes exEnv _ (by norm_num) 0 r' o (.inl h)).1
  refine ⟨o, r', h, fun i h1 h2 => ?_⟩
  have hx : o.Z[i]? = some o.Z[i] := List.getElem?_eq_getElem (by omega)
  have hy : o.Z[i+1]? = some o.Z[i+1] := List.getElem?_eq_getElem (by omega)
  have ht : o.timegrid[i]? = some o.timegrid[i] := List.getElem?_eq_getElem (by omega)
  have sx := fan_forward_spread 5 4 3 100 (by norm_num) (by norm_num) 0 r' (by norm_num) o h hl i h1 _ hx
  obtain ⟨P, _, hP, _⟩ := C16_forward exEnv exEnv_unit _ (by norm_num) rfl (.inl rfl) 0 r' o h i h1 _ _ _
    hx hy ht sx
  exact ⟨_, hx, sx, P, hP⟩

example : ∃ o r', construct exEnv (exFan 3 5 4 100) 0 = .ok (o, r') ∧ ∀ j, 1 ≤ j → j < 98 →
    ∃ z b : Mat 3 5 ℝ, o.Z[j+1]? = some z ∧ o.B[j+1]? = some b ∧ Spread z ∧ Spread b ∧
      ∃ P : Fin 4 → Fin 3 → ℝ, ∀ m a, Between (ibLow z b a) (ibHigh z b a) (P m a) := by
  obtain ⟨o, r', h, hl⟩ := fan_constructs 5 4 3 100 (by norm_num) (by norm_num) 0
  have hlen := C08_storage_sizes exEnv _ (by norm_num) 0 r' o (.inl h)
  refine ⟨o, r', h, fun j h1 h2 => ?_⟩
  have hz : o.Z[j+1]? = some o.Z[j+1] := List.getElem?_eq_getElem (by omega)
  have hb : o.B[j+1]? = some o.B[j+1] := List.getElem?_eq_getElem (by omega)
  have hy : o.B[j]? = some o.B[j] := List.getElem?_eq_getElem (by omega)
  have ht : o.timegrid[j+1]? = some o.timegrid[j+1] := List.getElem?_eq_getElem (by omega)
  have sz := fan_forward_spread 5 4 3 100 (by norm_num) (by norm_num) 0 r' (by norm_num) o h hl (j+1)
    (by omega) _ hz
  have sb := fan_backward_spread 5 4 3 100 (by norm_num) 0 r' (by norm_num) o h hl (j+1)
    (by omega) (by omega) _ hb
  obtain ⟨P, _, _, hP, _⟩ := C16_backward exEnv exEnv_unit _ (by norm_num) (.inl rfl) 0 r' o h j h1 (by omega)
    _ _ _ _ hz hb hy ht sz
  exact ⟨_, _, hz, hb, sz, sb, P, hP⟩

example : ∃ o r', torchConstruct exEnv (exFan 3 5 4 100) 0 = .ok (o, r') ∧ ∀ j, 1 ≤ j → j < 99 →
    ∃ z b : Mat 3 5 ℝ, o.Z[j+1]? = some z ∧ o.B[j+1]? = some b ∧ Spread z ∧
      ∃ P : Fin 4 → Fin 3 → ℝ, ∀ m a, min (lo (z a)) (lo (b a)) ≤ P m a ∧
        P m a ≤ max (hi (z a)) (hi (b a)) := by
  obtain ⟨o, r', h, hl⟩ := ex_torch 3 5 4 100 (by norm_num) (by norm_num) (by norm_num) 0
  have hlen := C08_storage_sizes exEnv _ (by norm_num) 0 r' o (.inr h)
  refine ⟨o, r', h, fun j h1 h2 => ?_⟩
  have hz : o.Z[j+1]? = some o.Z[j+1] := List.getElem?_eq_getElem (by omega)
  have hb : o.B[j+1]? = some o.B[j+1] := List.getElem?_eq_getElem (by omega)
  have hy : o.B[j]? = some o.B[j] := List.getElem?_eq_getElem (by omega)
  have ht : o.timegrid[j+1]? = some o.timegrid[j+1] := List.getElem?_eq_getElem (by omega)
  have sz := fan_torch_spread 5 4 3 100 (by norm_num) (by norm_num) 0 r' (by norm_num) o h hl (j+1)
    (by omega) _ hz
  obtain ⟨P, _, _, hP, _⟩ := C16_torch_backward exEnv exEnv_unit _ (by norm_num) (by norm_num) (.inl rfl)
    0 r' o h j h1 (by omega) _ _ _ _ hz hb hy ht sz
  exact ⟨_, _, hz, hb, sz, P, hP⟩

/-- The true-drift flow: the second step of a reweighted Brownian-bridge run. -/
example : ∃ o r' T, construct exEnv (exCfg 3 5 4 100 true true true) 0 = .ok (o, r') ∧ o.Ztr = some T ∧
    ∃ x : Mat 3 5 ℝ, T[1]? = some x ∧ Spread x ∧ ∃ P : Fin 4 → Fin 3 → ℝ,
      ∀ m a, lo (x a) ≤ P m a ∧ P m a ≤ hi (x a) := by
  obtain ⟨o, r', h, hl⟩ := ex_det 3 5 4 100 true true (by norm_num) (by norm_num) 0
  obtain ⟨ys, r1, zt, r2, bs, h1, hz, h3, ho⟩ :=
    (construct_det_iff exEnv _ rfl (by rw [exCfg_grid]; norm_num) 0 r' o).1 h
  obtain ⟨us, ru, hu, hh⟩ := RandM.bind_ok.1 hz
  have hzt := (RandM.pure_ok.1 hh).1
  have hT : o.Ztr = some (pt 5 (exCfg 3 5 4 100 true true true).y1 :: us) := by rw [ho]; exact hzt.symm
  obtain ⟨rsF, rsT, _, _, f, hf, hrec⟩ := C12_true_flow_recurrence exEnv _ (by norm_num) rfl (.inl rfl)
    0 r' o h (by rw [hl]; norm_num) _ hT
  have hul := chain_length hu
  rw [List.length_tail, exCfg_grid] at hul
  have hx : (pt 5 (exCfg 3 5 4 100 true true true).y1 :: us)[0+1]? = some us[0] := by simp
  have hy : (pt 5 (exCfg 3 5 4 100 true true true).y1 :: us)[1+1]? = some us[1] := by
    rw [List.getElem?_cons_succ]; exact List.getElem?_eq_getElem (by omega)
  have ht : ∀ i, i < 101 → ∃ t, o.timegrid[i]? = some t := fun i hi =>
    ⟨_, List.getElem?_eq_getElem (by omega)⟩
  obtain ⟨t0, ht0⟩ := ht 0 (by norm_num)
  obtain ⟨t1, ht1⟩ := ht 1 (by norm_num)
  have hv := ((hrec 0 _ _ t0 rfl hx ht0).1 rfl).1
  simp only [exCfg, Option.some.injEq] at hf
  subst hf
  have hn : ∀ (r : ℕ) (a : Fin 3), normals exEnv 3 5 r a 0 ≠ normals exEnv 3 5 r a 1 := by
    intro r a
    obtain ⟨s, h0, h1⟩ : ∃ s : ℕ, normals exEnv 3 5 r a 0 = (s : ℝ) ∧ normals exEnv 3 5 r a 1 = ((s + 1 : ℕ) : ℝ) := by
      fin_cases a
      · exact ⟨_, rfl, rfl⟩
      · exact ⟨_, rfl, rfl⟩
      · exact ⟨_, rfl, rfl⟩
    rw [h0, h1]
    push_cast
    linarith
  have hsp : Spread us[0] := fun a => sdev_ne_zero (i := 0) (j := 1) (by
    rw [hv]
    simp only [noisy, pt]
    intro hh
    have h0 : (0:ℝ) < Real.sqrt (1/1000) := Real.sqrt_pos.2 (by norm_num)
    exact hn (rsT 0) a (mul_left_cancel₀ h0.ne' (by
      have : (exCfg 3 5 4 100 true true true).g = 1 := rfl
      rw [this] at hh
      linarith)))
  obtain ⟨_, P, _, hP, _⟩ := C16_true_flow exEnv exEnv_unit _ (by norm_num) rfl (.inl rfl) 0 r' o h _ hT 1
    (le_refl 1) _ _ _ hx hy ht1 hsp
  exact ⟨o, r', _, h, hT, us[0], hx, hsp, P, hP⟩

/-- Queries at the interior index 10, in reweighted Brownian-bridge mode and in torch in all modes. -/
example (x : Mat 4 2 ℝ) (rw bb : Bool) :
    (∃ u r', calculateU exEnv (exObj true true) x 10 0 = .ok (u, r')) ∧
    ∃ u r', torchCalculateU exEnv (exObj rw bb) x 10 0 = .ok (⟨2, 4, u⟩, r') := by
  have hl : ∀ rw bb, (exObj rw bb).timegrid.length = 20 := fun _ _ => by simp [exObj]
  have h10 := fun rw bb => exObj_slices rw bb 10 (by norm_num) (by norm_num)
  have hr : reference (exObj true true) 10 = some fun a n => 3 * (a.val : ℝ) + n.val - 5 := by
    simp only [reference, exObj, exCfg]
    rfl
  obtain ⟨P, u, r', h, _⟩ := C16_control_bridge exEnv exEnv_unit (exObj true true) (by norm_num) (.inl rfl)
    ⟨rfl, rfl⟩ x 10 (by rw [hl]; unfold Edge; norm_num) _ _ _ (h10 _ _).1 (h10 _ _).2 hr 0
  refine ⟨⟨u, r', h⟩, ?_⟩
  have hsb : ∀ a : Fin 2, lo (((fun a n => (a.val : ℝ) + n.val + 1) : Mat 2 2 ℝ) a) <
      hi (((fun a n => (a.val : ℝ) + n.val + 1) : Mat 2 2 ℝ) a) := fun a =>
    (((lo_le_iff (by norm_num) _ _).2 ⟨0, le_refl _⟩).trans_lt (by norm_num :
      (a.val : ℝ) + ((0 : Fin 2).val : ℝ) + 1 < (a.val : ℝ) + ((1 : Fin 2).val : ℝ) + 1)).trans_le
      ((le_hi_iff (by norm_num) _ _).2 ⟨1, le_refl _⟩)
  obtain ⟨zr, hzr⟩ : ∃ zr, reference (exObj rw bb) 10 = some zr := by
    cases rw <;> cases bb <;> exact ⟨_, rfl⟩
  obtain ⟨P, r', h, _⟩ := C16_torch_control exEnv exEnv_unit (exObj rw bb) (by norm_num) (le_refl 2) (.inl rfl)
    x 10 (by rw [hl]; unfold Edge; norm_num) _ _ _ (h10 _ _).1 (h10 _ _).2 hzr
    (fun a => (min_le_right _ _).trans_lt ((hsb a).trans_le (le_max_right _ _))) 0
  exact ⟨_, _, h⟩

end DPFC
