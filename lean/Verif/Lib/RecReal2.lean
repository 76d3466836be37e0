import Verif.Lib.RecReal

/-! Stochastic numpy flow and torch flows over the reals satisfy the specified recurrences. -/

namespace DPFC
open Spec

variable {ρ : Type} {N M d : ℕ}

theorem seqM_normalVec (env : Env ρ ℝ) (s : ℝ) {β : Type} : ∀ (N : ℕ) (F : Fin N → (Fin d → ℝ) → β)
    (r : ρ), seqM N (fun i => (do let xi ← normalVec env s d; pure (F i xi) : RandM ρ β)) r
      = .ok (fun i => F i (fun a => s * pnormals env d N r i a), pnormalsNext env d N r)
  | 0, F, r => by
    simp only [seqM, RandM.pure_app]
    congr 2
    funext i; exact i.elim0
  | N+1, F, r => by
    have ih := seqM_normalVec env s N (fun i => F i.succ) (drawVec env.normal d r).2
    have h1 : (do let xi ← normalVec env s d; pure (F 0 xi) : RandM ρ β) r
        = .ok (F 0 (fun a => s * (drawVec env.normal d r).1 a), (drawVec env.normal d r).2) := by
      rw [RandM.bind_app]
      simp only [normalVec, RandM.pure_app, real_lit_zero, zero_add]
    rw [seqM, RandM.bind_app, h1]
    simp only
    rw [RandM.bind_app, ih]
    simp only [RandM.pure_app]
    congr 2
    funext i
    refine Fin.cases ?_ (fun i => ?_) i
    · rfl
    · rfl

theorem stochRaw_ok (env : Env ρ ℝ) (c : Cfg d N M ℝ) (x y : Mat d N ℝ) (r r' : ρ)
    (h : stochRaw env c x r = .ok (y, r')) :
    r' = pnormalsNext env d N r ∧ ∀ n, ∃ f1, c.f.call1 = some f1 ∧ ∀ a, y a n = x a n
      + 1/1000 * f1 (particle x n) a + c.g * (Real.sqrt (1/1000) * pnormals env d N r n a) := by
  cases hf : c.f.call1 with
  | none =>
    cases N with
    | zero =>
      simp only [stochRaw, seqM, pure_bind, RandM.pure_ok] at h
      exact ⟨h.2.symm, fun n => n.elim0⟩
    | succ n =>
      exfalso
      simp only [stochRaw, seqM, stochCol, hf, RandM.raise_bind, RandM.raise_app] at h
      cases h
  | some f1 =>
    have : stochCol env c x = fun i => (do
        let xi ← normalVec env (NumOps.sqrt dtc) d
        pure ((fun (i : Fin N) (xi : Fin d → ℝ) a => x a i + dtc * f1 (fun a => x a i) a + c.g * xi a)
          i xi) : RandM ρ (Fin d → ℝ)) := by
      funext i
      simp only [stochCol, hf]
    rw [stochRaw, this, RandM.bind_app, seqM_normalVec] at h
    simp only [RandM.pure_app, dtc_real, real_sqrt] at h
    injection h with h
    injection h with h1 h2
    refine ⟨h2.symm, fun n => ⟨f1, rfl, fun a => ?_⟩⟩
    rw [← h1]
    rfl

theorem stochChain_spec (env : Env ρ ℝ) (c : Cfg d N M ℝ)
    (ys : Traj d N ℝ) (r r' : ρ) (grid : List ℝ) (h2 : 2 ≤ grid.length)
    (h : chain (stochSlice env c) 1 grid.tail (stochInit N c.y1) r = .ok (ys, r')) :
    ∃ rs : ℕ → ρ, rs 0 = r ∧ rs (grid.length - 1) = r' ∧
      StochRec env c grid.length
        (fun i => (stochInit N c.y1 :: (ys.dropLast ++ [pt N c.y2]))[i]?) rs := by
  obtain ⟨hl, rs, h0, h1, hs⟩ := chain_ok_iff.1 h
  rw [List.length_tail] at h1 hl
  have step : ∀ i x y, i + 1 < grid.length → (stochInit N c.y1 :: ys)[i]? = some x →
      (stochInit N c.y1 :: ys)[i+1]? = some y →
      rs (i+1) = pnormalsNext env d N (rs i) ∧ ∃ raw : Mat d N ℝ,
      (∀ n, ∃ f1, c.f.call1 = some f1 ∧ ∀ a, raw a n = x a n + 1/1000 * f1 (particle x n) a
        + c.g * (Real.sqrt (1/1000) * pnormals env d N (rs i) n a)) ∧
      (c.reweight = false → y = raw) ∧
      (c.reweight = true → ∃ U v, c.U = some U ∧ U.call1 = some v ∧
        TransportedTo env (v raw) raw y) := by
    intro i x y hi hx hy
    obtain ⟨tt, htt⟩ : ∃ tt, grid.tail[i]? = some tt := by
      rw [List.getElem?_tail]; exact ⟨_, List.getElem?_eq_getElem hi⟩
    have hst := hs i tt x y htt hx hy
    unfold stochSlice at hst
    obtain ⟨raw, rm, hraw, hrw⟩ := RandM.bind_ok.1 hst
    obtain ⟨hrm, hv⟩ := stochRaw_ok env c x raw (rs i) rm hraw
    have hrm' : rm = rs (i+1) := by
      split at hrw
      · exact ((RandM.lift_ok).1 hrw).2
      · exact ((RandM.pure_ok).1 hrw).2
    refine ⟨by rw [← hrm', hrm], raw, hv, ?_, ?_⟩
    · intro hf
      rw [hf] at hrw
      exact ((RandM.pure_ok).1 hrw).1.symm
    · intro hf
      rw [hf, if_pos rfl] at hrw
      exact (stochReweight_ok env c.U raw y).1 ((RandM.lift_ok).1 hrw).1
  refine ⟨rs, h0, h1, ?_, ?_⟩
  · intro i hi
    have hx : (stochInit N c.y1 :: ys)[i]? = some _ :=
      List.getElem?_eq_getElem (by rw [List.length_cons]; omega)
    have hy : (stochInit N c.y1 :: ys)[i+1]? = some _ :=
      List.getElem?_eq_getElem (by rw [List.length_cons]; omega)
    exact (step i _ _ hi hx hy).1
  · intro i x y hi hx hy
    have get : ∀ j, j + 1 < grid.length →
        (stochInit N c.y1 :: (ys.dropLast ++ [pt N c.y2]))[j]? = (stochInit N c.y1 :: ys)[j]? := by
      intro j hj
      cases j with
      | zero => rfl
      | succ j =>
        rw [List.getElem?_cons_succ, List.getElem?_cons_succ,
          List.getElem?_append_left (by rw [List.length_dropLast]; omega),
          List.getElem?_dropLast, if_pos (by omega)]
    simp only at hx hy
    rw [get i (by omega)] at hx
    rw [get (i+1) (by omega)] at hy
    exact (step i x y (by omega) hx hy).2

/-! ### torch -/

theorem torchStd_real (v : Fin N → ℝ) : torchStd v = sampleSdev v := by
  simp only [torchStd, sampleSdev, avg, real_sqrt, real_sum, real_sq, real_mean, real_lit_int]
  push_cast
  rfl

theorem torchLengthScales_real (x : Mat d N ℝ) :
    torchLengthScales x = fun k => 2 * sampleSdev (x k) := by
  funext k
  simp only [torchLengthScales, torchStd_real, real_lit_int]
  norm_num

theorem torchInducing_lt {env : Env ρ ℝ} {bnds : Fin d → ℝ × ℝ} {r r' : ρ} {S : Mat M d ℝ}
    (h : torchInducing env bnds M r = .ok (S, r')) : (∀ a, (bnds a).1 < (bnds a).2) ∧
      S = (fun m a => (bnds a).1 + tunifs env d M r m a * ((bnds a).2 - (bnds a).1)) ∧
      r' = tunifsNext env d M r := by
  by_cases hc : ∀ a, (bnds a).1 < (bnds a).2
  · rw [torchInducing_real env bnds r hc] at h
    injection h with h
    injection h with h1 h2
    exact ⟨hc, h1.symm, h2.symm⟩
  · push Not at hc
    obtain ⟨a, ha⟩ := hc
    rw [torchInducing_err env bnds r a (not_lt.2 ha)] at h
    cases h

theorem torchFSeperate_ok (env : Env ρ ℝ) (hN : 0 < N) (hd : 2 ≤ d) (g : ℝ) (f : Drift d N ℝ)
    (x y : Mat d N ℝ) (t : ℝ) (r r' : ρ) (h : torchFSeperate env M g f x t r = .ok (y, r')) :
    (∀ a, lo (x a) < hi (x a)) ∧ r' = tunifsNext env d M r ∧
    y = fun a n => f.call2 x t a n - g^2/2 * tcloudScore x
      (tinducing (fun a => lo (x a)) (fun a => hi (x a)) (tunifs env d M r)) x a n := by
  unfold torchFSeperate at h
  rw [torchBox_real hN, RandM.liftM_ok, pure_bind] at h
  obtain ⟨S, r1, hS, h⟩ := RandM.bind_ok.1 h
  obtain ⟨hlt, hS, hr⟩ := torchInducing_lt hS
  rw [torchScore_real _ _ _ _ (classify_tensor hd _), RandM.liftM_ok, pure_bind] at h
  obtain ⟨h1, h2⟩ := RandM.pure_ok.1 h
  refine ⟨hlt, by rw [← h2, hr], ?_⟩
  rw [← h1, hS]
  funext a n
  simp only [real_lit_half, real_sq, tcloudScore, cloudScoreL, torchLengthScales_real, LS.at]
  have : (1/2 * g^2 : ℝ) = g^2/2 := by ring
  rw [this]
  rfl

theorem torchReweight_ok (env : Env ρ ℝ) (hN : 0 < N) (v : Fin N → ℝ) (x y : Mat d N ℝ)
    (h : torchReweight env x (fun n => NumOps.exp (v n)) = .ok y) : TorchTransportedTo env v x y := by
  intro _
  obtain ⟨n, rfl⟩ : ∃ n, N = n + 1 := ⟨N - 1, by omega⟩
  simp only [torchReweight, softmax_real, torchMatMax, Except.ok_bind', real_sum, real_sq,
    amax_real] at h
  obtain ⟨T, hT, h2⟩ := Except.bind_ok.1 h
  refine ⟨T, ?_, ?_⟩
  · rw [← hT]
    congr 1
    funext _
    simp
  · cases h2
    intro a m
    simp [mm]

theorem torchOttoSlice_bind {K : Type} [Add K] [Sub K] [Mul K] [Div K] [Neg K] [NumOps K]
    (env : Env ρ K) (c : Cfg d N M K) (i : Nat) (t : K) (x : Mat d N K) :
    torchOttoSlice env c i t x = ((if i = 1 then noisyStep env c.g c.f x (t - dtc)
      else torchOttoStep env M c.g c.f x (t - dtc)) >>= fun raw =>
        if c.reweight then (liftM (torchOttoRw env c.U raw t) : RandM ρ (Mat d N K)) else pure raw) := by
  unfold torchOttoSlice
  by_cases h : i = 1
  · simp only [if_pos h]
  · simp only [if_neg h]

/-- The recurrence holds for every successfully computed initial part of the forward flow (one dimension: as long as no
score is needed). -/
theorem torchOttoChain_prefix' (env : Env ρ ℝ) (c : Cfg d N M ℝ) (hN : 0 < N)
    (ts : List ℝ) (hd : 2 ≤ ts.length → 2 ≤ d) (hp : ts <+: (mkGrid c.t1 c.t2).tail) (ys : Traj d N ℝ) (r r' : ρ)
    (h : chain (torchOttoSlice env c) 1 ts (pt N c.y1) r = .ok (ys, r')) :
    ∃ rs : ℕ → ρ, rs 0 = r ∧ rs ts.length = r' ∧
      TorchForwardRec env c (fun i => (pt N c.y1 :: ys)[i]?) (fun i => (mkGrid c.t1 c.t2)[i]?) rs := by
  obtain ⟨hl, rs, h0, h1, hs⟩ := chain_ok_iff.1 h
  have hpl := hp.length_le
  rw [List.length_tail] at hpl
  refine ⟨rs, h0, h1, ?_⟩
  intro i x y ti hx hy ht
  have hit : i < ts.length := by
    have := (List.getElem?_eq_some_iff.1 hy).1
    rw [List.length_cons] at this; omega
  have hi : i + 1 < (mkGrid c.t1 c.t2).length := by omega
  obtain ⟨tt, htt⟩ := grid_get hi
  have htt' : ts[i]? = some tt := by
    rw [List.getElem?_eq_getElem hit, ← List.prefix_iff_getElem?.1 hp i hit, List.getElem?_tail]
    exact htt
  have hst := hs i tt x y htt' hx hy
  have hti : tt - dtc = ti := by rw [grid_time ht htt, dtc_real]; ring
  rw [torchOttoSlice_bind, hti] at hst
  obtain ⟨raw, rm, hraw, hrw⟩ := RandM.bind_ok.1 hst
  have hrm : rm = rs (i+1) := by
    split at hrw
    · exact ((RandM.lift_ok).1 hrw).2
    · exact ((RandM.pure_ok).1 hrw).2
  refine ⟨raw, ⟨fun hi0 => ?_, fun hi0 => ?_⟩, ?_, ?_⟩
  · subst hi0
    rw [if_pos rfl, noisyStep_real] at hraw
    injection hraw with hraw
    injection hraw with h1 h2
    exact ⟨h1.symm, by rw [← hrm, ← h2]⟩
  · rw [if_neg (by omega)] at hraw
    unfold torchOttoStep at hraw
    obtain ⟨v, rv, hv, hp⟩ := RandM.bind_ok.1 hraw
    obtain ⟨hlt, hr, hvv⟩ := torchFSeperate_ok env hN (hd (by omega)) c.g c.f x v ti _ _ hv
    obtain ⟨h1, h2⟩ := RandM.pure_ok.1 hp
    refine ⟨hlt, by rw [← hrm, ← h2, hr], ?_⟩
    rw [← h1, hvv]
    simp only [dtc_real]
  · intro hf
    rw [hf] at hrw
    exact ((RandM.pure_ok).1 hrw).1.symm
  · intro hf
    rw [hf, if_pos rfl] at hrw
    have := ((RandM.lift_ok).1 hrw).1
    rw [grid_time ht htt] at this
    cases hU : c.U with
    | none => rw [hU] at this; cases this
    | some U =>
      rw [hU] at this
      simp only [torchOttoRw, dtc_real] at this
      exact ⟨U, rfl, torchReweight_ok env hN _ raw y this⟩

/-- The recurrence holds for every successfully computed initial part of the forward flow. -/
theorem torchOttoChain_prefix (env : Env ρ ℝ) (c : Cfg d N M ℝ) (hN : 0 < N) (hd : 2 ≤ d)
    (ts : List ℝ) (hp : ts <+: (mkGrid c.t1 c.t2).tail) (ys : Traj d N ℝ) (r r' : ρ)
    (h : chain (torchOttoSlice env c) 1 ts (pt N c.y1) r = .ok (ys, r')) :
    ∃ rs : ℕ → ρ, rs 0 = r ∧ rs ts.length = r' ∧
      TorchForwardRec env c (fun i => (pt N c.y1 :: ys)[i]?) (fun i => (mkGrid c.t1 c.t2)[i]?) rs :=
  torchOttoChain_prefix' env c hN ts (fun _ => hd) hp ys r r' h

theorem torchOttoChain_spec' (env : Env ρ ℝ) (c : Cfg d N M ℝ) (hN : 0 < N)
    (hd : 3 ≤ (mkGrid c.t1 c.t2).length → 2 ≤ d)
    (ys : Traj d N ℝ) (r r' : ρ)
    (h : chain (torchOttoSlice env c) 1 (mkGrid c.t1 c.t2).tail (pt N c.y1) r = .ok (ys, r')) :
    ∃ rs : ℕ → ρ, rs 0 = r ∧ rs ((mkGrid c.t1 c.t2).length - 1) = r' ∧
      TorchForwardRec env c (fun i => (pt N c.y1 :: ys)[i]?) (fun i => (mkGrid c.t1 c.t2)[i]?) rs := by
  obtain ⟨rs, h0, h1, h3⟩ := torchOttoChain_prefix' env c hN _
    (fun hl => hd (by rw [List.length_tail] at hl; omega)) (List.prefix_refl _) ys r r' h
  exact ⟨rs, h0, by rw [← h1, List.length_tail], h3⟩

theorem torchOttoChain_spec (env : Env ρ ℝ) (c : Cfg d N M ℝ) (hN : 0 < N) (hd : 2 ≤ d)
    (ys : Traj d N ℝ) (r r' : ρ) (_h2 : 2 ≤ (mkGrid c.t1 c.t2).length)
    (h : chain (torchOttoSlice env c) 1 (mkGrid c.t1 c.t2).tail (pt N c.y1) r = .ok (ys, r')) :
    ∃ rs : ℕ → ρ, rs 0 = r ∧ rs ((mkGrid c.t1 c.t2).length - 1) = r' ∧
      TorchForwardRec env c (fun i => (pt N c.y1 :: ys)[i]?) (fun i => (mkGrid c.t1 c.t2)[i]?) rs :=
  torchOttoChain_spec' env c hN (fun _ => hd) ys r r' h

theorem torchStochChain_spec (env : Env ρ ℝ) (c : Cfg d N M ℝ) (hN : 0 < N)
    (ys : Traj d N ℝ) (r r' : ρ) (h2 : 2 ≤ (mkGrid c.t1 c.t2).length)
    (h : chain (torchStochSlice env c) 1 (mkGrid c.t1 c.t2).tail (stochInit N c.y1) r = .ok (ys, r')) :
    ∃ rs : ℕ → ρ, rs 0 = r ∧ rs ((mkGrid c.t1 c.t2).length - 1) = r' ∧
      TorchStochRec env c (fun i => (stochInit N c.y1 :: ys)[i]?) (fun i => (mkGrid c.t1 c.t2)[i]?) rs := by
  obtain ⟨hl, rs, h0, h1, hs⟩ := chain_ok_iff.1 h
  rw [List.length_tail] at h1 hl
  refine ⟨rs, h0, h1, ?_⟩
  intro i x y ti hx hy ht
  have hi : i + 1 < (mkGrid c.t1 c.t2).length := by
    have := (List.getElem?_eq_some_iff.1 hy).1
    rw [List.length_cons] at this; omega
  obtain ⟨tt, htt⟩ := grid_get hi
  have htt' : (mkGrid c.t1 c.t2).tail[i]? = some tt := by
    rw [List.getElem?_tail]; exact htt
  have hst := hs i tt x y htt' hx hy
  have hti : tt - dtc = ti := by rw [grid_time ht htt, dtc_real]; ring
  unfold torchStochSlice at hst
  rw [hti, RandM.bind_app, noisyStep_real] at hst
  simp only at hst
  have hrm : rs (i+1) = normalsNext env d N (rs i) := by
    split at hst
    · exact ((RandM.lift_ok).1 hst).2.symm
    · exact ((RandM.pure_ok).1 hst).2.symm
  refine ⟨_, rfl, hrm, ?_, ?_⟩
  · intro hf
    rw [hf] at hst
    exact ((RandM.pure_ok).1 hst).1.symm
  · intro hf
    rw [hf, if_pos rfl] at hst
    have := ((RandM.lift_ok).1 hst).1
    cases hU : c.U with
    | none => rw [hU] at this; cases this
    | some U =>
      cases hv : U.call1 with
      | none => rw [hU] at this; simp only [torchStochRw, hv] at this; cases this
      | some v =>
        rw [hU] at this
        simp only [torchStochRw, hv] at this
        exact ⟨U, v, rfl, hv, torchReweight_ok env hN _ _ y this⟩

theorem torchDensityAt_ok (env : Env ρ ℝ) (hN : 0 < N) (hd : 2 ≤ d)
    (z b y : Mat d N ℝ) (r r' : ρ) (h : torchDensityAt env M "RBF" z b r = .ok (y, r')) :
    r' = tunifsNext env d M r ∧ y = tscoreRho z b (tunifs env d M r) := by
  unfold torchDensityAt at h
  rw [densityBox_real hN, RandM.liftM_ok, pure_bind] at h
  obtain ⟨S, r1, hS, h⟩ := RandM.bind_ok.1 h
  obtain ⟨hlt, hS, hr⟩ := torchInducing_lt hS
  rw [torchScoreFn_real _ _ _ _ (classify_tensor hd _) (by intro w h; cases h), RandM.liftM_ok,
    pure_bind] at h
  obtain ⟨h1, h2⟩ := RandM.pure_ok.1 h
  refine ⟨by rw [← h2, hr], ?_⟩
  rw [← h1, hS]
  funext a n
  simp only [tscoreRho, tcloudScore, cloudScoreL, torchLengthScales_real, tr]
  congr 1
  funext m a
  simp only [tinducing, tlow, thigh]
  split <;> rfl

theorem torchBwDensityAt_ok (env : Env ρ ℝ) (hN : 0 < N) (hd : 2 ≤ d) (kern : String)
    (z b y : Mat d N ℝ) (r r' : ρ) (h : torchBwDensityAt env M kern z b r = .ok (y, r')) :
    r' = tunifsNext env d M r ∧ y = tscoreB z b (tunifs env d M r) := by
  unfold torchBwDensityAt at h
  rw [hullBox_real hN, RandM.liftM_ok, pure_bind] at h
  obtain ⟨S, r1, hS, h⟩ := RandM.bind_ok.1 h
  obtain ⟨hlt, hS, hr⟩ := torchInducing_lt hS
  rw [torchScore_real _ _ _ _ (classify_tensor hd _), RandM.liftM_ok, pure_bind] at h
  obtain ⟨h1, h2⟩ := RandM.pure_ok.1 h
  refine ⟨by rw [← h2, hr], ?_⟩
  rw [← h1, hS]
  funext a n
  simp only [tscoreB, tcloudScore, cloudScoreL, torchLengthScales_real, LS.at]
  rfl

theorem torchBackChain_spec' (env : Env ρ ℝ) (c : Cfg d N M ℝ) (hN : 0 < N)
    (hk : effKern c.kern = "RBF")
    (Z bs : Traj d N ℝ) (grid : List ℝ) (hd : 3 ≤ grid.length → 2 ≤ d) (r r' : ρ) (h2 : 2 ≤ grid.length)
    (hZ : Z.length = grid.length)
    (h : chain (torchBack env c) 1 (visits Z grid) (pt N c.y2) r = .ok (bs, r')) :
    ∃ rs : ℕ → ρ, rs (grid.length - 2) = r ∧ rs 0 = r' ∧
      TorchBackwardRec env c grid.length (fun i => Z[i]?)
        (fun i => (pt N c.y1 :: (bs.reverse ++ [pt N c.y2]))[i]?) (fun i => grid[i]?) rs := by
  obtain ⟨hl, rs, h0, h1, hs⟩ := chain_ok_iff.1 h
  rw [visits_length hZ] at h1 hl
  refine ⟨fun j => rs (grid.length - 2 - j), by simp [h0], by simpa using h1, ?_⟩
  intro j z b y tj hj1 hj2 hz hb hy ht
  simp only at hz hb hy ht
  have key : ∀ i, i ≤ bs.length → (pt N c.y1 :: (bs.reverse ++ [pt N c.y2]))[i+1]?
      = (pt N c.y2 :: bs)[bs.length - i]? := by
    intro i hi
    rw [List.getElem?_cons_succ]
    by_cases he : i = bs.length
    · subst he
      rw [List.getElem?_append_right (by simp)]
      simp
    · rw [List.getElem?_append_left (by simp; omega), List.getElem?_reverse (by omega)]
      obtain ⟨m, hm⟩ : ∃ m, bs.length - i = m + 1 := ⟨bs.length - i - 1, by omega⟩
      rw [hm, List.getElem?_cons_succ]
      congr 1; omega
  have hs' : (grid.length - 2 - j) + 2 < grid.length := by omega
  have hzt := visits_get hZ (s := grid.length - 2 - j) (z := z) (t := tj) hs'
    (by rw [show grid.length - 1 - (grid.length - 2 - j) = j + 1 by omega]; exact hz)
    (by rw [show grid.length - 1 - (grid.length - 2 - j) = j + 1 by omega]; exact ht)
  have hb' : (pt N c.y2 :: bs)[grid.length - 2 - j]? = some b := by
    have := key j (by omega)
    rw [hb, hl] at this
    rw [← this]
  have hy' : (pt N c.y2 :: bs)[grid.length - 2 - j + 1]? = some y := by
    obtain ⟨i, rfl⟩ : ∃ i, j = i + 1 := ⟨j - 1, by omega⟩
    have := key i (by omega)
    rw [hy, hl] at this
    rw [← show grid.length - 2 - i = grid.length - 2 - (i+1) + 1 by omega, ← this]
  have hst := hs _ _ b y hzt hb' hy'
  have hnext : grid.length - 2 - (j - 1) = grid.length - 2 - j + 1 := by omega
  simp only [hnext]
  simp only [torchBack, backStep, hk] at hst
  obtain ⟨gro, r1, hgro, hst⟩ := RandM.bind_ok.1 hst
  obtain ⟨rfl, rfl⟩ := torchDensityAt_ok env hN (hd (by omega)) z b gro _ _ hgro
  have hiff : ((1 + (grid.length - 2 - j) = 1 ∧ c.deterministic = true) ∨ c.deterministic = false)
      ↔ (j + 2 = grid.length ∨ c.deterministic = false) := by
    cases c.deterministic
    · simp
    · simp; omega
  refine ⟨fun hc => ?_, fun hc => ?_⟩
  · rw [if_pos (hiff.2 hc), RandM.bind_app, normalMat_real] at hst
    simp only [RandM.pure_app, dtc_real, real_sq, real_sqrt] at hst
    injection hst with hst
    injection hst with hst1 hst2
    exact ⟨fun _ => hst1.symm, hst2.symm⟩
  · rw [if_neg (fun h => hc (hiff.1 h))] at hst
    obtain ⟨grb, r2, hgrb, hst⟩ := RandM.bind_ok.1 hst
    obtain ⟨rfl, rfl⟩ := torchBwDensityAt_ok env hN (hd (by omega)) _ z b grb _ _ hgrb
    simp only [RandM.pure_app, dtc_real, real_sq, real_lit_half] at hst
    injection hst with hst
    injection hst with hst1 hst2
    refine ⟨fun _ _ => ?_, hst2.symm⟩
    rw [← hst1]
    funext a n
    ring

theorem torchBackChain_spec (env : Env ρ ℝ) (c : Cfg d N M ℝ) (hN : 0 < N) (hd : 2 ≤ d)
    (hk : effKern c.kern = "RBF")
    (Z bs : Traj d N ℝ) (grid : List ℝ) (r r' : ρ) (h2 : 2 ≤ grid.length)
    (hZ : Z.length = grid.length)
    (h : chain (torchBack env c) 1 (visits Z grid) (pt N c.y2) r = .ok (bs, r')) :
    ∃ rs : ℕ → ρ, rs (grid.length - 2) = r ∧ rs 0 = r' ∧
      TorchBackwardRec env c grid.length (fun i => Z[i]?)
        (fun i => (pt N c.y1 :: (bs.reverse ++ [pt N c.y2]))[i]?) (fun i => grid[i]?) rs :=
  torchBackChain_spec' env c hN hk Z bs grid (fun _ => hd) r r' h2 hZ h

theorem effKern_rbf {kern : String} (h : kern = "RBF" ∨ kern = "periodic") : effKern kern = "RBF" := by
  rcases h with rfl | rfl <;> rfl


section
variable {K : Type} [Add K] [Sub K] [Mul K] [Div K] [Neg K] [NumOps K]

theorem seqM_total {n : ℕ} {α : Type} : ∀ {n : ℕ} {f : Fin n → RandM ρ α}, (∀ i, Total (f i)) →
    Total (seqM n f)
  | 0, f, _ => Total.pure _
  | n+1, f, h => (h 0).bind fun a => (seqM_total (n := n) fun i => h i.succ).bind fun v => Total.pure _

theorem normalVec_total (env : Env ρ K) (s : K) (d : ℕ) : Total (normalVec env s d) :=
  fun r => ⟨_, _, rfl⟩

theorem forwardStoch_first_error (env : Env ρ K) (c : Cfg d N M K) (hd : 2 ≤ d)
    (t0 t1 : K) (ts : List K) (r : ρ) (e : PyErr)
    (h : stochSlice env c 1 t1 (stochInit N c.y1) r = .error e) :
    forwardStoch env c (t0 :: t1 :: ts) (zerosT d N (t0 :: t1 :: ts).length) r = .error e := by
  unfold forwardStoch
  have : (t0 :: t1 :: ts).length = (t1 :: ts).length + 1 := rfl
  rw [this, enumStoch_eq env c t0 (t1 :: ts) hd]
  rw [RandM.bind_app, RandM.bind_app, chain, RandM.bind_app, h]

end

end DPFC
