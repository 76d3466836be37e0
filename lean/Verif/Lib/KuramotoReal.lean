import Verif.Lib.Kuramoto
import Verif.Lib.RecReal
import Verif.Inst.Phase
import Verif.Spec.Kuramoto

/-! The phase-oscillator class in exact arithmetic. -/

namespace DPFC
open Spec

variable {ρ : Type} {N M d : ℕ}

theorem two_pi_pos' : 0 < 2 * Real.pi := by have := Real.pi_pos; linarith

theorem wrap_real (x : ℝ) : wrap x = phase x := by
  have h := two_pi_pos'.ne'
  unfold wrap phase
  show x - (lit 2 1 * Real.pi) * ⌊x / (lit 2 1 * Real.pi)⌋ = _
  have e : (lit 2 1 : ℝ) = 2 := by simp
  rw [e, Int.fract, mul_sub, mul_div_cancel₀ _ h]

theorem phase_nonneg (x : ℝ) : 0 ≤ phase x := mul_nonneg two_pi_pos'.le (Int.fract_nonneg _)

theorem phase_lt (x : ℝ) : phase x < 2 * Real.pi := by
  have := mul_lt_mul_of_pos_left (Int.fract_lt_one (x / (2 * Real.pi))) two_pi_pos'
  simpa [phase] using this

theorem phase_sameAngle (x : ℝ) : SameAngle x (phase x) := by
  refine ⟨-⌊x / (2 * Real.pi)⌋, ?_⟩
  have h := two_pi_pos'.ne'
  unfold phase
  rw [Int.fract, mul_sub, mul_div_cancel₀ _ h]
  push_cast; ring

theorem phase_add (x : ℝ) (m : ℤ) : phase (x + 2 * Real.pi * m) = phase x := by
  have h := two_pi_pos'.ne'
  unfold phase
  rw [add_div, mul_div_cancel_left₀ _ h, Int.fract_add_intCast]

theorem phase_of_mem {x : ℝ} (h0 : 0 ≤ x) (h1 : x < 2 * Real.pi) : phase x = x := by
  unfold phase
  rw [Int.fract_eq_self.2 ⟨div_nonneg h0 two_pi_pos'.le, (div_lt_one two_pi_pos').2 h1⟩,
    mul_div_cancel₀ _ two_pi_pos'.ne']

theorem phase_eq_iff (x y : ℝ) : phase x = phase y ↔ SameAngle x y := by
  constructor
  · intro h
    obtain ⟨m, hm⟩ := phase_sameAngle x
    obtain ⟨l, hl⟩ := phase_sameAngle y
    refine ⟨m - l, ?_⟩
    push_cast
    rw [h] at hm
    linarith
  · rintro ⟨m, rfl⟩
    exact (phase_add x m).symm

theorem wrapM_real (x : Mat d N ℝ) : wrapM x = fun a n => phase (x a n) := by
  funext a n; exact wrap_real _

theorem onCircle_wrapM (x : Mat d N ℝ) : OnCircle (wrapM x) := by
  rw [wrapM_real]; exact fun a n => ⟨phase_nonneg _, phase_lt _⟩

theorem mvNormal_real (env : Env ρ ℝ) (y : Fin d → ℝ) (g : ℝ) (r : ρ) :
    mvNormal env y g N r = .ok (gaussStart y g (pnormals env d N r), pnormalsNext env d N r) := by
  unfold mvNormal gaussStart
  simp only [real_sqrt]
  congr 2
  funext a n
  simp [add_comm]

theorem phaseVel_real (env : Env ρ ℝ) (hN : 0 < N) (c : PhaseCfg d N ℝ) (hk : c.kern = "RBF") (x : Mat d N ℝ)
    (t : ℝ) (r : ρ) :
    phaseVel env M c x t r = .ok (fun a n => c.f x t a n - c.g^2/2 * cloudScore x
      (inducing (fun a => lo (x a)) (fun a => hi (x a)) (unifs env d M r)) x a n, unifsNext env d M r) := by
  unfold phaseVel
  rw [boxOf_real hN]
  simp only [RandM.liftM_ok, pure_bind]
  rw [RandM.bind_app, npInducing_gen]
  simp only
  rw [hk, real_lit_milli, scoreAll_real milli_gt, RandM.liftM_ok, pure_bind]
  simp only [RandM.pure_app, lengthScales_real, real_sq, real_lit_half]
  congr 2
  funext a n
  rw [show (1:ℝ)/2 * c.g^2 = c.g^2/2 by ring]
  rfl

theorem phaseNoisy_real (env : Env ρ ℝ) (c : PhaseCfg d N ℝ) (x : Mat d N ℝ) (t : ℝ) (r : ρ) :
    phaseNoisy env c x t r = .ok (fun a n => phase (x a n + c.dt * c.f x t a n
      + c.g * (Real.sqrt c.dt * normals env d N r a n)), normalsNext env d N r) := by
  unfold phaseNoisy
  rw [RandM.bind_app, normalMat_real]
  simp only [RandM.pure_app, real_sqrt, wrapM_real]

theorem phaseFlow_real (env : Env ρ ℝ) (hN : 0 < N) (c : PhaseCfg d N ℝ) (hk : c.kern = "RBF") (x : Mat d N ℝ)
    (t : ℝ) (r : ρ) :
    phaseFlow env M c x t r = .ok (fun a n => phase (x a n + c.dt * (c.f x t a n - c.g^2/2 * cloudScore x
      (inducing (fun a => lo (x a)) (fun a => hi (x a)) (unifs env d M r)) x a n)), unifsNext env d M r) := by
  unfold phaseFlow
  rw [RandM.bind_app, phaseVel_real env hN c hk]
  simp only [RandM.pure_app, wrapM_real]

theorem phaseDensityAt_real (env : Env ρ ℝ) (hN : 0 < N) (hd : 0 < d) (z b : Mat d N ℝ) (r : ρ) :
    phaseDensityAt env M "RBF" z b r = .ok (scoreRho z b (unifs env d M r), unifsNext env d M r) := by
  unfold phaseDensityAt
  rw [interBox_real hN]
  simp only [RandM.liftM_ok, pure_bind]
  rw [RandM.bind_app, npInducing_gen]
  simp only
  rw [real_lit_milli, scoreAllFn_real milli_gt _ _ _ _ (.inl hd), RandM.liftM_ok, pure_bind]
  simp only [RandM.pure_app, lengthScales_real]
  rfl

theorem phaseBwDensityAt_real (env : Env ρ ℝ) (hN : 0 < N) (z b : Mat d N ℝ) (r : ρ) :
    phaseBwDensityAt env M "RBF" z b r = .ok (scoreB z b (unifs env d M r), unifsNext env d M r) := by
  unfold phaseBwDensityAt
  rw [interBox_real hN]
  simp only [RandM.liftM_ok, pure_bind]
  rw [RandM.bind_app, npInducing_gen]
  simp only
  rw [real_lit_milli, scoreAll_real milli_gt, RandM.liftM_ok, pure_bind]
  simp only [RandM.pure_app, lengthScales_real]
  rfl

theorem phaseBackStep_real (env : Env ρ ℝ) (hN : 0 < N) (hd : 0 < d) (c : PhaseCfg d N ℝ) (hk : c.kern = "RBF")
    (ti : ℕ) (z b : Mat d N ℝ) (t : ℝ) (r : ρ) :
    phaseBackStep env M c ti (z, t) b r = if ti = 1 then
      .ok (fun a n => phase (b a n - c.f b t a n * c.dt + c.dt * c.g^2 * scoreRho z b (unifs env d M r) a n
        + c.g * (Real.sqrt c.dt * normals env d N (unifsNext env d M r) a n)), normalsNext env d N (unifsNext env d M r))
    else .ok (fun a n => phase (b a n - c.dt * (c.f b t a n - c.g^2 * scoreRho z b (unifs env d M r) a n
        + c.g^2/2 * scoreB z b (unifs env d M (unifsNext env d M r)) a n)),
        unifsNext env d M (unifsNext env d M r)) := by
  unfold phaseBackStep
  rw [RandM.bind_app, hk, phaseDensityAt_real env hN hd]
  simp only
  split
  · rw [RandM.bind_app, normalMat_real]
    simp only [RandM.pure_app, real_sqrt, real_sq, wrapM_real]
  · rw [RandM.bind_app, phaseBwDensityAt_real env hN]
    simp only [RandM.pure_app, real_sq, real_lit_half, wrapM_real]
    congr 2
    funext a n
    congr 1
    ring

theorem npMatMax_real (hN : 0 < N) (D : Mat N N ℝ) : npMatMax D = .ok (hi fun i => hi (D i)) := by
  unfold npMatMax
  have h : seqM N (fun i => npMax (D i)) = .ok fun i => hi (D i) := seqM_except_ok.2 fun i => npMax_real hN _
  rw [h]
  simp only [Except.ok_bind']
  exact npMax_real hN _

theorem phaseReweight_ok (env : Env ρ ℝ) (hN : 0 < N) (U : Option (Mat d N ℝ → Fin N → ℝ)) (x y : Mat d N ℝ) :
    phaseReweight env U x = .ok y ↔ ∃ u T, U = some u ∧ env.emd (softmax (u x)) (fun _ => 1 / N)
      (fun i j => sqdist x i j / hi fun i => hi fun j => sqdist x i j) = .ok T ∧
      y = fun a n => phase (∑ m, N * x a m * T m n) := by
  cases U with
  | none => simp [phaseReweight]
  | some u =>
    have hb : (fun _ : Fin N => (lit 1 1 : ℝ) / lit N 1) = fun _ => 1 / (N : ℝ) := by funext _; simp
    have hD : (fun i j => NumOps.sum fun k => sq (x k i - x k j)) = sqdist x := by
      funext i j; simp [sqdist]
    have hD' : ∀ i j, (NumOps.sum fun k => sq (x k i - x k j)) = sqdist x i j := fun i j => congrFun (congrFun hD i) j
    unfold phaseReweight
    simp only [hD', softmax_real, hD, npMatMax_real hN, Except.ok_bind', hb]
    constructor
    · intro h
      obtain ⟨T, hT, h⟩ := Except.bind_ok.1 h
      refine ⟨u, T, rfl, hT, ?_⟩
      cases h
      rw [wrapM_real]
      funext a n
      simp [mm]
    · rintro ⟨_, T, he, hT, rfl⟩
      cases he
      refine Except.bind_ok.2 ⟨T, hT, ?_⟩
      rw [wrapM_real]
      congr 1
      funext a n
      simp [mm]

theorem phaseGrid_getElem_real (t1 t2 dt : ℝ) (i : ℕ) (t : ℝ) :
    (phaseGrid t1 t2 dt)[i]? = some t → t = t1 + i * dt := by
  intro h
  unfold phaseGrid npArange at h
  rw [List.getElem?_map] at h
  obtain ⟨j, hj, rfl⟩ := Option.map_eq_some_iff.1 h
  have : j = i := by
    rw [List.getElem?_eq_some_iff] at hj
    obtain ⟨h1, h2⟩ := hj
    rw [List.getElem_range] at h2
    exact h2.symm
  subst this
  unfold npArangePoint
  split
  · simp [*]
  · split
    · simp [*]
    · simp

theorem phaseSlice_onCircle {env : Env ρ ℝ} {c : PhaseCfg d N ℝ} (i : ℕ) (t : ℝ) (x y : Mat d N ℝ) (r r' : ρ)
    (h : phaseSlice env M c i t x r = .ok (y, r')) : OnCircle y := by
  unfold phaseSlice at h
  have h1 : ∀ (raw : Mat d N ℝ) (r1 : ρ), OnCircle raw → (if c.reweight = true then
      (liftM (phaseReweight env c.U raw) : RandM ρ (Mat d N ℝ)) else pure raw) r1 = .ok (y, r') → OnCircle y := by
    intro raw r1 hr h
    split at h
    · have h := (RandM.lift_ok.1 h).1
      unfold phaseReweight at h
      split at h
      · cases h
      · obtain ⟨mx, _, h⟩ := Except.bind_ok.1 h
        obtain ⟨T, _, h⟩ := Except.bind_ok.1 h
        cases h
        exact onCircle_wrapM _
    · obtain ⟨rfl, _⟩ := RandM.pure_ok.1 h
      exact hr
  split at h
  · obtain ⟨raw, r1, h2, h⟩ := RandM.bind_ok.1 h
    refine h1 raw r1 ?_ h
    unfold phaseNoisy at h2
    obtain ⟨xi, r2, _, h2⟩ := RandM.bind_ok.1 h2
    obtain ⟨rfl, _⟩ := RandM.pure_ok.1 h2
    exact onCircle_wrapM _
  · obtain ⟨raw, r1, h2, h⟩ := RandM.bind_ok.1 h
    refine h1 raw r1 ?_ h
    unfold phaseFlow at h2
    obtain ⟨xi, r2, _, h2⟩ := RandM.bind_ok.1 h2
    obtain ⟨rfl, _⟩ := RandM.pure_ok.1 h2
    exact onCircle_wrapM _

theorem phaseBackStep_onCircle {env : Env ρ ℝ} {c : PhaseCfg d N ℝ} (i : ℕ) (t : Mat d N ℝ × ℝ) (x y : Mat d N ℝ)
    (r r' : ρ) (h : phaseBackStep env M c i t x r = .ok (y, r')) : OnCircle y := by
  unfold phaseBackStep at h
  obtain ⟨gro, r1, _, h⟩ := RandM.bind_ok.1 h
  split at h <;>
  · obtain ⟨w, r2, _, h⟩ := RandM.bind_ok.1 h
    obtain ⟨rfl, _⟩ := RandM.pure_ok.1 h
    exact onCircle_wrapM _

theorem phaseFwdChain_spec (env : Env ρ ℝ) (c : PhaseCfg d N ℝ) (hN : 0 < N) (hk : c.kern = "RBF")
    (y : Mat d N ℝ) (ys : Traj d N ℝ) (r r' : ρ)
    (h : chain (phaseSlice env M c) 1 (phaseGrid c.t1 c.t2 c.dt).tail y r = .ok (ys, r')) :
    ∃ rs : ℕ → ρ, rs 0 = r ∧ rs ((phaseGrid c.t1 c.t2 c.dt).length - 1) = r' ∧
      PhaseForwardRec env M c (fun i => (y :: ys)[i]?) (fun i => (phaseGrid c.t1 c.t2 c.dt)[i]?) rs := by
  obtain ⟨hl, rs, h0, h1, hs⟩ := chain_ok_iff.1 h
  rw [List.length_tail] at h1 hl
  refine ⟨rs, h0, h1, ?_⟩
  intro i x w ti hx hw ht
  have hi : i + 1 < (phaseGrid c.t1 c.t2 c.dt).length := by
    have := (List.getElem?_eq_some_iff.1 hw).1
    rw [List.length_cons] at this; omega
  obtain ⟨tt, htt⟩ : ∃ tt, (phaseGrid c.t1 c.t2 c.dt)[i+1]? = some tt := ⟨_, List.getElem?_eq_getElem hi⟩
  have htt' : (phaseGrid c.t1 c.t2 c.dt).tail[i]? = some tt := by
    rw [List.getElem?_tail]; exact htt
  have hst := hs i tt x w htt' hx hw
  have hti : tt - c.dt = ti := by
    rw [phaseGrid_getElem_real _ _ _ _ _ ht, phaseGrid_getElem_real _ _ _ _ _ htt]
    push_cast; ring
  unfold phaseSlice at hst
  rw [hti] at hst
  have fin : ∀ (raw : Mat d N ℝ) (r1 : ρ), (if c.reweight = true then
      (liftM (phaseReweight env c.U raw) : RandM ρ (Mat d N ℝ)) else pure raw) r1 = .ok (w, rs (i+1)) →
      r1 = rs (i+1) ∧ (c.reweight = false → w = raw) ∧
      (c.reweight = true → ∃ U, c.U = some U ∧ PhaseTransportedTo env (U raw) raw w) := by
    intro raw r1 h
    cases hr : c.reweight with
    | true =>
      rw [hr, if_pos rfl] at h
      obtain ⟨h, he⟩ := RandM.lift_ok.1 h
      obtain ⟨u, T, hu, hT, hw⟩ := (phaseReweight_ok env hN c.U raw w).1 h
      exact ⟨he, fun h => (by cases h), fun _ => ⟨u, hu, fun _ => ⟨T, hT, fun a n => by rw [hw]⟩⟩⟩
    | false =>
      rw [hr] at h
      obtain ⟨h, he⟩ := RandM.pure_ok.1 h
      exact ⟨he, fun _ => h.symm, fun h => (by cases h)⟩
  by_cases hi0 : i = 0
  · rw [if_pos (by omega)] at hst
    obtain ⟨raw, r1, hraw, hrw⟩ := RandM.bind_ok.1 hst
    obtain ⟨he, f1, f2⟩ := fin raw r1 hrw
    rw [phaseNoisy_real] at hraw
    refine ⟨raw, fun _ => ?_, fun h => absurd hi0 h, f1, f2⟩
    cases hraw
    exact ⟨he.symm, rfl⟩
  · rw [if_neg (by omega)] at hst
    obtain ⟨raw, r1, hraw, hrw⟩ := RandM.bind_ok.1 hst
    obtain ⟨he, f1, f2⟩ := fin raw r1 hrw
    rw [phaseFlow_real env hN c hk] at hraw
    refine ⟨raw, fun h => absurd h hi0, fun _ => ?_, f1, f2⟩
    cases hraw
    exact ⟨he.symm, fun _ => rfl⟩

theorem phaseBackChain_spec (env : Env ρ ℝ) (c : PhaseCfg d N ℝ) (hN : 0 < N) (hd : 0 < d) (hk : c.kern = "RBF")
    (Z bs : Traj d N ℝ) (w z : Mat d N ℝ) (grid : List ℝ) (r r' : ρ) (h2 : 2 ≤ grid.length)
    (hZ : Z.length = grid.length)
    (h : chain (phaseBackStep env M c) 1 (phaseVisits Z grid) z r = .ok (bs, r')) :
    ∃ rs : ℕ → ρ, rs (grid.length - 2) = r ∧ rs 0 = r' ∧
      PhaseBackwardRec env M c grid.length (fun i => Z[i]?)
        (fun i => (w :: (bs.reverse ++ [z]))[i]?) (fun i => grid[i]?) rs := by
  obtain ⟨hl, rs, h0, h1, hs⟩ := chain_ok_iff.1 h
  rw [phaseVisits_length Z grid hZ.ge] at h1 hl
  refine ⟨fun j => rs (grid.length - 2 - j), by simp [h0], by simpa using h1, ?_⟩
  intro j zj b y tj hj1 hj2 hz hb hy ht
  simp only at hz hb hy ht
  have key : ∀ i, i ≤ bs.length → (w :: (bs.reverse ++ [z]))[i+1]? = (z :: bs)[bs.length - i]? := by
    intro i hi
    rw [List.getElem?_cons_succ]
    by_cases he : i = bs.length
    · subst he
      rw [List.getElem?_append_right (by simp)]
      simp
    · rw [List.getElem?_append_left (by simp; omega), List.getElem?_reverse (by omega)]
      obtain ⟨m, hm⟩ : ∃ m, bs.length - i = m + 1 := ⟨bs.length - i - 1, by omega⟩
      rw [hm, List.getElem?_cons_succ]
      congr 1; omega
  obtain ⟨m, hm⟩ : ∃ m, grid.length = m + j + 2 := ⟨grid.length - j - 2, by omega⟩
  obtain ⟨u, hu⟩ : ∃ u, (phaseVisits Z grid)[m]? = some u :=
    ⟨_, List.getElem?_eq_getElem (by rw [phaseVisits_length Z grid hZ.ge]; omega)⟩
  obtain ⟨hu1, hu2⟩ := phaseVisits_get Z grid hZ.ge hu
  rw [show grid.length - 2 - m = j by omega, hz] at hu1
  rw [show grid.length - 1 - m = j + 1 by omega, ht] at hu2
  have e : u = (zj, tj) := by
    obtain ⟨u1, u2⟩ := u
    cases hu1; cases hu2; rfl
  subst e
  have hb' : (z :: bs)[m]? = some b := by
    have := key j (by omega)
    rw [hb, hl, show grid.length - 2 - j = m by omega] at this
    exact this.symm
  have hy' : (z :: bs)[m+1]? = some y := by
    have := key (j-1) (by omega)
    rw [show j - 1 + 1 = j by omega, hy, hl, show grid.length - 2 - (j - 1) = m + 1 by omega] at this
    exact this.symm
  have hst := hs m (zj, tj) b y hu hb' hy'
  rw [phaseBackStep_real env hN hd c hk] at hst
  simp only [show grid.length - 2 - j = m by omega, show grid.length - 2 - (j - 1) = m + 1 by omega]
  constructor
  · intro he
    rw [if_pos (by omega)] at hst
    injection hst with hst
    injection hst with hst1 hst2
    exact ⟨hst2.symm, fun _ => hst1.symm⟩
  · intro he
    rw [if_neg (by omega)] at hst
    injection hst with hst
    injection hst with hst1 hst2
    exact ⟨hst2.symm, fun _ _ => hst1.symm⟩

end DPFC
