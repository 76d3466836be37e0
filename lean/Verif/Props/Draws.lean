import Verif.Lib.Draws
import Verif.Lib.Examples
import Verif.Lib.FanStoch

/-!
# C15: the random draw budget (any arithmetic)

`Spec.Counters env cn cu`: `cn`, `cu` count the normals and uniforms drawn. `k` is the number of
grid points.
-/

set_option linter.unusedSectionVars false

namespace DPFC
open Spec
section
variable {K ρ : Type} [Add K] [Sub K] [Mul K] [Div K] [Neg K] [NumOps K]
variable {N M d : Nat} {env : Env ρ K} {cn cu : ρ → Nat}

/-- **C15** (numpy, deterministic, no Brownian-bridge reweighting). A successful construction with
`k >= 3` grid points draws exactly `2*dim*N` normals and `dim*M*(3k-7)` uniforms. -/
theorem C15_draw_budget (hc : Counters env cn cu) (c : Cfg d N M K)
    (hdet : c.deterministic = true) (hb : ¬ (c.reweight = true ∧ c.brownBridge = true))
    (r r' : ρ) (o : Obj d N M K) (h : construct env c r = .ok (o, r')) (k : Nat)
    (hk : o.timegrid.length = k) (h3 : 3 ≤ k) :
    cn r' = cn r + 2 * d * N ∧ cu r' = cu r + d * M * (3 * k - 7) := by
  rw [(construct_fields h).2] at hk
  obtain ⟨ys, r1, zt, r2, bs, h1, hz, hB, -⟩ :=
    (construct_det_iff env c hdet (by omega) r r' o).1 h
  have hr12 : r2 = r1 := by
    unfold trueFlow at hz
    rw [if_neg (by simpa using hb)] at hz
    exact ((RandM.pure_ok.1 hz).2).symm
  subst hr12
  have hl := chain_length h1
  rw [List.length_tail, hk] at hl
  have e1 := Draws.chain1 (draws_ottoSlice_one hc c) (draws_ottoSlice hc c) _
    (by rw [List.length_tail, hk]; omega) _ _ _ _ h1
  have hv : (visits (pt N c.y1 :: ys) (mkGrid c.t1 c.t2)).length = k - 2 := by
    simp [visits, hk, hl]; omega
  have e2 := Draws.chain1 (step := npBack env c)
    (fun t x => draws_backStep_noisy hc (draws_densityAt hc (effKern c.kern)) c.f c.g _ 1
      (.inl ⟨rfl, hdet⟩) t x)
    (fun ti t x hti => draws_backStep_det hc (draws_densityAt hc (effKern c.kern))
      (draws_bwDensityAt hc (effKern c.kern)) c.f c.g _ ti (by simp [hdet]; omega) t x) _
    (by rw [hv]; omega) _ _ _ _ hB
  rw [List.length_tail, hk] at e1
  rw [hv] at e2
  obtain ⟨m, rfl⟩ : ∃ m, k = m + 3 := ⟨k - 3, by omega⟩
  rw [e2.1, e2.2, e1.1, e1.2]
  simp only [show m + 3 - 1 - 1 = m + 1 by omega, show m + 3 - 2 - 1 = m by omega,
    show 3 * (m + 3) - 7 = 3 * m + 2 by omega]
  constructor <;> ring

/-- **C15** (numpy, deterministic, Brownian-bridge reweighting): `3*dim*N` normals and
`dim*M*(4k-9)` uniforms. -/
theorem C15_draw_budget_bridge (hc : Counters env cn cu) (c : Cfg d N M K)
    (hdet : c.deterministic = true) (hr : c.reweight = true) (hb : c.brownBridge = true)
    (r r' : ρ) (o : Obj d N M K) (h : construct env c r = .ok (o, r')) (k : Nat)
    (hk : o.timegrid.length = k) (h3 : 3 ≤ k) :
    cn r' = cn r + 3 * d * N ∧ cu r' = cu r + d * M * (4 * k - 9) := by
  rw [(construct_fields h).2] at hk
  obtain ⟨ys, r1, zt, r2, bs, h1, hz, hB, -⟩ :=
    (construct_det_iff env c hdet (by omega) r r' o).1 h
  unfold trueFlow at hz
  rw [if_pos (by simp [hr, hb])] at hz
  obtain ⟨us, q, hu, hq⟩ := RandM.bind_ok.1 hz
  obtain ⟨-, rfl⟩ := RandM.pure_ok.1 hq
  have hl := chain_length h1
  rw [List.length_tail, hk] at hl
  have e1 := Draws.chain1 (draws_ottoSlice_one hc c) (draws_ottoSlice hc c) _
    (by rw [List.length_tail, hk]; omega) _ _ _ _ h1
  have e3 := Draws.chain1 (draws_trueSlice_one hc c) (draws_trueSlice hc c) _
    (by rw [List.length_tail, hk]; omega) _ _ _ _ hu
  have hv : (visits (pt N c.y1 :: ys) (mkGrid c.t1 c.t2)).length = k - 2 := by
    simp [visits, hk, hl]; omega
  have e2 := Draws.chain1 (step := npBack env c)
    (fun t x => draws_backStep_noisy hc (draws_densityAt hc (effKern c.kern)) c.f c.g _ 1
      (.inl ⟨rfl, hdet⟩) t x)
    (fun ti t x hti => draws_backStep_det hc (draws_densityAt hc (effKern c.kern))
      (draws_bwDensityAt hc (effKern c.kern)) c.f c.g _ ti (by simp [hdet]; omega) t x) _
    (by rw [hv]; omega) _ _ _ _ hB
  rw [List.length_tail, hk] at e1 e3
  rw [hv] at e2
  obtain ⟨m, rfl⟩ : ∃ m, k = m + 3 := ⟨k - 3, by omega⟩
  rw [e2.1, e2.2, e3.1, e3.2, e1.1, e1.2]
  simp only [show m + 3 - 1 - 1 = m + 1 by omega, show m + 3 - 2 - 1 = m by omega,
    show 4 * (m + 3) - 9 = 4 * m + 3 by omega]
  constructor <;> ring

/-- **C15** (numpy, stochastic): `dim*N*(2k-3)` normals and `dim*M*(k-2)` uniforms. -/
theorem C15_draw_budget_stochastic (hc : Counters env cn cu) (c : Cfg d N M K)
    (hdet : c.deterministic = false)
    (r r' : ρ) (o : Obj d N M K) (h : construct env c r = .ok (o, r')) (k : Nat)
    (hk : o.timegrid.length = k) (h2 : 2 ≤ k) :
    cn r' = cn r + d * N * (2 * k - 3) ∧ cu r' = cu r + d * M * (k - 2) := by
  rw [(construct_fields h).2] at hk
  by_cases hd : 2 ≤ d
  swap
  · rw [construct_stoch_dim1 env c hdet (by omega) (by omega)] at h
    cases h
  obtain ⟨ys, r1, bs, h1, hB, -⟩ := (construct_stoch_iff env c hdet (by omega) hd r r' o).1 h
  have hl := chain_length h1
  rw [List.length_tail, hk] at hl
  have e1 := Draws.chain (m := 1) (fun ti t x _ => draws_stochSlice hc c ti t x) _ _ _ le_rfl _ _ _ h1
  have hv : (visits (stochInit N c.y1 :: (ys.dropLast ++ [pt N c.y2])) (mkGrid c.t1 c.t2)).length
      = k - 2 := by
    simp [visits, hk, hl]; omega
  have e2 := Draws.chain (m := 1) (step := npBack env c)
    (fun ti t x _ => draws_backStep_noisy hc (draws_densityAt hc (effKern c.kern)) c.f c.g _ ti
      (.inr hdet) t x) _ _ _ le_rfl _ _ _ hB
  rw [List.length_tail, hk] at e1
  rw [hv] at e2
  obtain ⟨m, rfl⟩ : ∃ m, k = m + 2 := ⟨k - 2, by omega⟩
  rw [e2.1, e2.2, e1.1, e1.2]
  simp only [show m + 2 - 1 = m + 1 by omega, show m + 2 - 2 = m by omega,
    show 2 * (m + 2) - 3 = 2 * m + 1 by omega]
  constructor <;> ring

/-- **C15** (torch, deterministic, no Brownian-bridge reweighting): the same budget as numpy. -/
theorem C15_torch_draw_budget (hc : Counters env cn cu) (c : Cfg d N M K)
    (hdet : c.deterministic = true) (hb : ¬ (c.reweight = true ∧ c.brownBridge = true))
    (r r' : ρ) (o : Obj d N M K) (h : torchConstruct env c r = .ok (o, r')) (k : Nat)
    (hk : o.timegrid.length = k) (h3 : 3 ≤ k) :
    cn r' = cn r + 2 * d * N ∧ cu r' = cu r + d * M * (3 * k - 7) := by
  obtain ⟨_, hg, _⟩ := torchConstruct_fields h
  obtain ⟨ys, r1, zt, r2, bs, h1, hz, hB, -⟩ :=
    (torchConstruct_det_iff env c hdet _ hg (by omega) r r' o).1 h
  have hr12 : r2 = r1 := by
    unfold torchTrueFlow at hz
    rw [if_neg (by simpa using hb)] at hz
    exact ((RandM.pure_ok.1 hz).2).symm
  subst hr12
  have hl := chain_length h1
  rw [List.length_tail, hk] at hl
  have e1 := Draws.chain1 (draws_torchOttoSlice_one hc c) (draws_torchOttoSlice hc c) _
    (by rw [List.length_tail, hk]; omega) _ _ _ _ h1
  have hv : (visits (pt N c.y1 :: ys) o.timegrid).length = k - 2 := by
    simp [visits, hk, hl]; omega
  have e2 := Draws.chain1 (step := torchBack env c)
    (fun t x => draws_backStep_noisy hc (draws_torchDensityAt hc (effKern c.kern)) c.f c.g _ 1
      (.inl ⟨rfl, hdet⟩) t x)
    (fun ti t x hti => draws_backStep_det hc (draws_torchDensityAt hc (effKern c.kern))
      (draws_torchBwDensityAt hc (effKern c.kern)) c.f c.g _ ti (by simp [hdet]; omega) t x) _
    (by rw [hv]; omega) _ _ _ _ hB
  rw [List.length_tail, hk] at e1
  rw [hv] at e2
  obtain ⟨m, rfl⟩ : ∃ m, k = m + 3 := ⟨k - 3, by omega⟩
  rw [e2.1, e2.2, e1.1, e1.2]
  simp only [show m + 3 - 1 - 1 = m + 1 by omega, show m + 3 - 2 - 1 = m by omega,
    show 3 * (m + 3) - 7 = 3 * m + 2 by omega]
  constructor <;> ring

/-- **C15** (torch, deterministic, Brownian-bridge reweighting): the same budget as numpy. -/
theorem C15_torch_draw_budget_bridge (hc : Counters env cn cu) (c : Cfg d N M K)
    (hdet : c.deterministic = true) (hr : c.reweight = true) (hb : c.brownBridge = true)
    (r r' : ρ) (o : Obj d N M K) (h : torchConstruct env c r = .ok (o, r')) (k : Nat)
    (hk : o.timegrid.length = k) (h3 : 3 ≤ k) :
    cn r' = cn r + 3 * d * N ∧ cu r' = cu r + d * M * (4 * k - 9) := by
  obtain ⟨_, hg, _⟩ := torchConstruct_fields h
  obtain ⟨ys, r1, zt, r2, bs, h1, hz, hB, -⟩ :=
    (torchConstruct_det_iff env c hdet _ hg (by omega) r r' o).1 h
  unfold torchTrueFlow at hz
  rw [if_pos (by simp [hr, hb])] at hz
  obtain ⟨us, q, hu, hq⟩ := RandM.bind_ok.1 hz
  obtain ⟨-, rfl⟩ := RandM.pure_ok.1 hq
  have hl := chain_length h1
  rw [List.length_tail, hk] at hl
  have e1 := Draws.chain1 (draws_torchOttoSlice_one hc c) (draws_torchOttoSlice hc c) _
    (by rw [List.length_tail, hk]; omega) _ _ _ _ h1
  have e3 := Draws.chain1 (draws_torchTrueSlice_one hc c) (draws_torchTrueSlice hc c) _
    (by rw [List.length_tail, hk]; omega) _ _ _ _ hu
  have hv : (visits (pt N c.y1 :: ys) o.timegrid).length = k - 2 := by
    simp [visits, hk, hl]; omega
  have e2 := Draws.chain1 (step := torchBack env c)
    (fun t x => draws_backStep_noisy hc (draws_torchDensityAt hc (effKern c.kern)) c.f c.g _ 1
      (.inl ⟨rfl, hdet⟩) t x)
    (fun ti t x hti => draws_backStep_det hc (draws_torchDensityAt hc (effKern c.kern))
      (draws_torchBwDensityAt hc (effKern c.kern)) c.f c.g _ ti (by simp [hdet]; omega) t x) _
    (by rw [hv]; omega) _ _ _ _ hB
  rw [List.length_tail, hk] at e1 e3
  rw [hv] at e2
  obtain ⟨m, rfl⟩ : ∃ m, k = m + 3 := ⟨k - 3, by omega⟩
  rw [e2.1, e2.2, e3.1, e3.2, e1.1, e1.2]
  simp only [show m + 3 - 1 - 1 = m + 1 by omega, show m + 3 - 2 - 1 = m by omega,
    show 4 * (m + 3) - 9 = 4 * m + 3 by omega]
  constructor <;> ring

/-- **C15** (torch, stochastic): the same budget as numpy. -/
theorem C15_torch_draw_budget_stochastic (hc : Counters env cn cu) (c : Cfg d N M K)
    (hdet : c.deterministic = false)
    (r r' : ρ) (o : Obj d N M K) (h : torchConstruct env c r = .ok (o, r')) (k : Nat)
    (hk : o.timegrid.length = k) (h2 : 2 ≤ k) :
    cn r' = cn r + d * N * (2 * k - 3) ∧ cu r' = cu r + d * M * (k - 2) := by
  obtain ⟨_, hg, _⟩ := torchConstruct_fields h
  by_cases hd : 2 ≤ d
  swap
  · obtain ⟨t0, ts, ht⟩ : ∃ t0 ts, o.timegrid = t0 :: ts :=
      List.exists_cons_of_ne_nil (by intro he; rw [he] at hk; simp at hk; omega)
    rw [ht] at hg
    rw [torchConstruct_stoch_dim1 env c hdet t0 ts hg (by omega)] at h
    cases h
  obtain ⟨ys, r1, bs, h1, hB, -⟩ := (torchConstruct_stoch_iff env c hdet _ hg (by omega) hd r r' o).1 h
  have hl := chain_length h1
  rw [List.length_tail, hk] at hl
  have e1 := Draws.chain (m := 1) (fun ti t x _ => draws_torchStochSlice hc c ti t x) _ _ _ le_rfl _ _ _ h1
  have hv : (visits (stochInit N c.y1 :: ys) o.timegrid).length = k - 2 := by
    simp [visits, hk, hl]; omega
  have e2 := Draws.chain (m := 1) (step := torchBack env c)
    (fun ti t x _ => draws_backStep_noisy hc (draws_torchDensityAt hc (effKern c.kern)) c.f c.g _ ti
      (.inr hdet) t x) _ _ _ le_rfl _ _ _ hB
  rw [List.length_tail, hk] at e1
  rw [hv] at e2
  obtain ⟨m, rfl⟩ : ∃ m, k = m + 2 := ⟨k - 2, by omega⟩
  rw [e2.1, e2.2, e1.1, e1.2]
  simp only [show m + 2 - 1 = m + 1 by omega, show m + 2 - 2 = m by omega,
    show 2 * (m + 2) - 3 = 2 * m + 1 by omega]
  constructor <;> ring

/-- **C15** (control queries). A successful `calculate_u` draws nothing for `ti <= 5` or `ti >= k-5`
(the random state is even unchanged) and otherwise exactly `dim*M` uniforms; numpy. -/
theorem C15_control_draws (hc : Counters env cn cu) (o : Obj d N M K) {n m : Nat} (x : Mat n m K)
    (ti : Int) (r r' : ρ) (u : Mat m n K) (h : calculateU env o x ti r = .ok (u, r')) :
    ((ti ≤ 5 ∨ (o.timegrid.length : Int) - 5 ≤ ti) → r' = r) ∧
    (¬ (ti ≤ 5 ∨ (o.timegrid.length : Int) - 5 ≤ ti) → cn r' = cn r ∧ cu r' = cu r + d * M) := by
  unfold calculateU at h
  obtain ⟨b, r1, hb, h⟩ := RandM.bind_ok.1 h
  obtain ⟨_, rfl⟩ := RandM.lift_ok.1 hb
  obtain ⟨z, r1, hz, h⟩ := RandM.bind_ok.1 h
  obtain ⟨_, rfl⟩ := RandM.lift_ok.1 hz
  obtain ⟨zt, r1, hzt, h⟩ := RandM.bind_ok.1 h
  obtain ⟨_, rfl⟩ := RandM.lift_ok.1 hzt
  obtain ⟨bn, r1, hbn, h⟩ := RandM.bind_ok.1 h
  obtain ⟨_, rfl⟩ := RandM.lift_ok.1 hbn
  constructor
  · intro hti
    rw [if_pos hti] at h
    exact (RandM.lift_ok.1 h).2.symm
  · intro hti
    rw [if_neg hti] at h
    exact ((draws_npInducing hc bn M).bind fun _ => Draws.lift _) _ _ _ h

/-- **C15** (control queries, torch). -/
theorem C15_torch_control_draws (hc : Counters env cn cu) (o : Obj d N M K) {n m : Nat} (x : Mat n m K)
    (ti : Int) (r r' : ρ) (u : Dyn2 K) (h : torchCalculateU env o x ti r = .ok (u, r')) :
    ((ti ≤ 5 ∨ (o.timegrid.length : Int) - 5 ≤ ti) → r' = r) ∧
    (¬ (ti ≤ 5 ∨ (o.timegrid.length : Int) - 5 ≤ ti) → cn r' = cn r ∧ cu r' = cu r + d * M) := by
  unfold torchCalculateU at h
  obtain ⟨b, r1, hb, h⟩ := RandM.bind_ok.1 h
  obtain ⟨_, rfl⟩ := RandM.lift_ok.1 hb
  obtain ⟨z, r1, hz, h⟩ := RandM.bind_ok.1 h
  obtain ⟨_, rfl⟩ := RandM.lift_ok.1 hz
  obtain ⟨zt, r1, hzt, h⟩ := RandM.bind_ok.1 h
  obtain ⟨_, rfl⟩ := RandM.lift_ok.1 hzt
  obtain ⟨bn, r1, hbn, h⟩ := RandM.bind_ok.1 h
  obtain ⟨_, rfl⟩ := RandM.lift_ok.1 hbn
  constructor
  · intro hti
    rw [if_pos hti] at h
    obtain ⟨_, r1, hu, h⟩ := RandM.bind_ok.1 h
    obtain ⟨_, rfl⟩ := RandM.lift_ok.1 hu
    exact (RandM.pure_ok.1 h).2.symm
  · intro hti
    rw [if_neg hti] at h
    exact ((draws_torchInducing hc bn M).bind fun _ => (Draws.lift _).bind fun _ =>
      (Draws.lift _).bind fun _ => Draws.pure _) _ _ _ h

end

/-! ### The hypotheses can be met -/

/-- An environment with explicit counters. -/
noncomputable def countEnv : Env (ℕ × ℕ) ℝ where
  normal r := (r.1, (r.1 + 1, r.2))
  uniform r := (1/2, (r.1, r.2 + 1))
  emd {n} _ _ _ := .ok fun i j => if i = j then 1 / n else 0

theorem countEnv_counters : Counters countEnv Prod.fst Prod.snd :=
  ⟨fun _ => rfl, fun _ => rfl, fun _ => rfl, fun _ => rfl⟩

/-- 3 dimensions, 5 particles, 4 inducing points, 101 grid points: 30 normals, 3552 uniforms. -/
example : ∃ o r', construct countEnv (exCfg 3 5 4 100 true true false) (0, 0) = .ok (o, r') ∧
    r' = (30, 3552) := by
  obtain ⟨o, r', h⟩ := construct_det_total countEnv (exCfg 3 5 4 100 true true false) (by norm_num) rfl
    (by rw [exCfg_grid]; norm_num) rfl (fun _ => ⟨by simp [exCfg], fun n _ _ _ => ⟨_, rfl⟩⟩)
    (fun _ _ => by simp [exCfg]) (0, 0)
  have := C15_draw_budget countEnv_counters _ rfl (by simp [exCfg]) _ r' o h 101
    (by rw [(construct_fields h).2, exCfg_grid]) (by norm_num)
  exact ⟨o, r', h, Prod.ext this.1 this.2⟩

/-- Torch, stochastic: 3 dimensions, 5 particles, 4 inducing points, 101 grid points: 2985 normals, 1188 uniforms. -/
example : ∃ o r', torchConstruct countEnv (exFanS 3 5 4 100) (0, 0) = .ok (o, r') ∧ r' = (2985, 1188) := by
  obtain ⟨o, r', h, hl⟩ := ex_torch_stoch countEnv 3 5 4 100 (by norm_num) (by norm_num) (by norm_num) (0, 0)
  have := C15_torch_draw_budget_stochastic countEnv_counters _ rfl _ r' o h 101 hl (by norm_num)
  exact ⟨o, r', h, Prod.ext this.1 this.2⟩

end DPFC
