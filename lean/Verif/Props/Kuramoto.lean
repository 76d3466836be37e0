import Verif.Lib.KuramotoTotal
import Verif.Spec.Transport

/-!
# C75, C76: particle flows for angles

The class of the Kuramoto example: `BRIDGE_ND_reweight` with states that are angles.
-/

namespace DPFC
open Spec

variable {ρ : Type} {N M d : ℕ}

/-- **C75** (angles). After any construction that returns, every slice of both flows except index 0 has all its
entries in `[0, 2π)`; whatever the drift, constraint, solver, grid and random stream. -/
theorem C75_on_circle (env : Env ρ ℝ) (c : PhaseCfg d N ℝ) (r r' : ρ) (o : PhaseObj d N ℝ)
    (h : phaseConstruct env M c r = .ok (o, r')) (hk : 0 < c.k) (i : ℕ) (hi : 1 ≤ i) :
    (∀ z, o.Z[i]? = some z → ∀ a n, 0 ≤ z a n ∧ z a n < 2 * Real.pi) ∧
    (∀ b, o.B[i]? = some b → ∀ a n, 0 ≤ b a n ∧ b a n < 2 * Real.pi) :=
  ⟨fun z hz => phaseConstruct_onCircle h hk i hi z (.inl hz), fun b hb => phaseConstruct_onCircle h hk i hi b (.inr hb)⟩

/-- **C75** (grid). For a horizon of `n` steps of length `dt` the time grid has the `n + 1` points `t1 + i dt`. -/
theorem C75_grid (t1 dt : ℝ) (hdt : 0 < dt) (n : ℕ) :
    (phaseGrid t1 (t1 + n * dt) dt).length = n + 1 ∧
    ∀ i ≤ n, (phaseGrid t1 (t1 + n * dt) dt)[i]? = some (t1 + i * dt) := by
  refine ⟨phaseGrid_steps t1 dt hdt n, fun i hi => ?_⟩
  have hl := phaseGrid_steps t1 dt hdt n
  rw [List.getElem?_eq_getElem (by omega)]
  congr 1
  exact phaseGrid_getElem_real _ _ _ _ _ (List.getElem?_eq_getElem (by omega))

/-- **C75** (ends). If `k` is the number of grid points and at least 2, both flows have `k` slices; the forward flow
starts in a Gaussian cloud around `y1` with variance `g/2`, *not* reduced to `[0, 2π)`; the backward flow ends in `y1`
exactly and starts from the last forward slice. -/
theorem C75_ends (env : Env ρ ℝ) (c : PhaseCfg d N ℝ) (r r' : ρ) (o : PhaseObj d N ℝ)
    (h : phaseConstruct env M c r = .ok (o, r')) (h2 : 2 ≤ (phaseGrid c.t1 c.t2 c.dt).length)
    (hk : c.k = (phaseGrid c.t1 c.t2 c.dt).length) :
    o.timegrid = phaseGrid c.t1 c.t2 c.dt ∧ o.Z.length = c.k ∧ o.B.length = c.k ∧
    o.Z[0]? = some (gaussStart c.y1 c.g (pnormals env d N r)) ∧
    o.B[0]? = some (fun a _ => c.y1 a) ∧
    o.B[c.k - 1]? = o.Z[c.k - 1]? := by
  obtain ⟨hl, y, r0, ys, r1, bs, zl, b, hy, hys, _, htg, hZ, hzl, hb, hbs, hB⟩ := phaseConstruct_ok h h2
  rw [mvNormal_real] at hy
  injection hy with hy
  injection hy with hy hr0
  subst hy
  have hyl := chain_length hys
  have hbl := chain_length hbs
  rw [List.length_tail] at hyl
  have hZl : o.Z.length = c.k := by
    rw [hZ, List.length_append, List.length_cons, zerosT_length]; omega
  rw [phaseVisits_length _ _ (by omega)] at hbl
  refine ⟨htg, hZl, ?_, by rw [hZ]; rfl, by rw [hB]; rfl, ?_⟩
  · rw [hB, List.length_cons, List.length_append, List.length_reverse, List.length_drop, List.length_set,
      zerosT_length]
    omega
  · have e : o.Z[c.k - 1]? = some zl := by rw [← hzl, List.getLast?_eq_getElem?, hZl]
    rw [e, hB]
    obtain ⟨m, hm⟩ : ∃ m, c.k = m + 2 := ⟨c.k - 2, by omega⟩
    rw [show c.k - 1 = m + 1 by omega, List.getElem?_cons_succ, List.getElem?_append_right (by simp; omega),
      List.length_reverse, List.getElem?_drop]
    rw [show (phaseGrid c.t1 c.t2 c.dt).length - 1 + (m - bs.length) = m + 1 by omega]
    rw [List.getElem?_set_self (by rw [zerosT_length]; omega)]

/-- **C75** (too few slices). If `k` is smaller than the number of grid points the constructor never returns. -/
theorem C75_too_few (env : Env ρ ℝ) (c : PhaseCfg d N ℝ) (hk : c.k < (phaseGrid c.t1 c.t2 c.dt).length) (r : ρ) :
    ∀ p, phaseConstruct env M c r ≠ .ok p := by
  rintro ⟨o, r'⟩ h
  unfold phaseConstruct at h
  obtain ⟨Z, r1, hZ, _⟩ := RandM.bind_ok.1 h
  rcases phaseFwd_short env c _ _ _ _ _ _ hZ with h | h
  · rw [zerosT_length] at h; omega
  · rw [h] at hk; simp at hk

/-- **C75** (too many slices). If `k` is larger than the number of grid points, the surplus forward slices stay zero,
the last forward slice copied into the backward flow is one of them, and the slice of the last grid point, from which
the backward flow starts, is zero too: the terminal cloud of the forward flow is ignored. -/
theorem C75_too_many (env : Env ρ ℝ) (c : PhaseCfg d N ℝ) (r r' : ρ) (o : PhaseObj d N ℝ)
    (h : phaseConstruct env M c r = .ok (o, r')) (h2 : 2 ≤ (phaseGrid c.t1 c.t2 c.dt).length)
    (hk : (phaseGrid c.t1 c.t2 c.dt).length < c.k) :
    (∀ i, (phaseGrid c.t1 c.t2 c.dt).length ≤ i → i < c.k → o.Z[i]? = some fun _ _ => 0) ∧
    (∀ i, (phaseGrid c.t1 c.t2 c.dt).length - 1 ≤ i → i < c.k → o.B[i]? = some fun _ _ => 0) := by
  obtain ⟨hl, y, r0, ys, r1, bs, zl, b, hy, hys, _, htg, hZ, hzl, hb, hbs, hB⟩ := phaseConstruct_ok h h2
  have hyl := chain_length hys
  have hbl := chain_length hbs
  rw [List.length_tail] at hyl
  have hZl : o.Z.length = c.k := by
    rw [hZ, List.length_append, List.length_cons, zerosT_length]; omega
  rw [phaseVisits_length _ _ (by omega)] at hbl
  have hZ0 : ∀ i, (phaseGrid c.t1 c.t2 c.dt).length ≤ i → i < c.k → o.Z[i]? = some fun _ _ => 0 := by
    intro i h1 h3
    rw [hZ, List.getElem?_append_right (by rw [List.length_cons]; omega)]
    unfold zerosT
    rw [List.getElem?_replicate, if_pos (by rw [List.length_cons]; omega)]
    simp
  refine ⟨hZ0, fun i h1 h3 => ?_⟩
  have hzl0 : zl = fun _ _ => 0 := by
    have := hZ0 (c.k - 1) (by omega) (by omega)
    rw [List.getLast?_eq_getElem?, hZl, this] at hzl
    exact (Option.some.inj hzl).symm
  obtain ⟨m, rfl⟩ : ∃ m, i = m + 1 := ⟨i - 1, by omega⟩
  rw [hB, List.getElem?_cons_succ, List.getElem?_append_right (by simp; omega), List.getElem?_drop,
    List.length_reverse, hzl0]
  rw [show (phaseGrid c.t1 c.t2 c.dt).length - 1 + (m - bs.length) = m + 1 by omega, List.getElem?_set, zerosT_length]
  unfold zerosT
  split
  · rw [if_pos (by omega)]
  · rw [List.getElem?_replicate, if_pos h3]
    simp

/-- **C75** (the constructor returns). With particles, coordinates, the RBF kernel and at least as many slices
as grid points (at least 2), the construction returns for every drift and random stream, without reweighting always,
with reweighting whenever the constraint is callable and the solver returns plans. (Exact arithmetic: a cloud without
spread gives `0/0`, which is 0 here and NaN in the code.) -/
theorem C75_returns (env : Env ρ ℝ) (c : PhaseCfg d N ℝ) (hN : 0 < N) (hd : 0 < d) (hkern : c.kern = "RBF")
    (h2 : 2 ≤ (phaseGrid c.t1 c.t2 c.dt).length) (hk : (phaseGrid c.t1 c.t2 c.dt).length ≤ c.k)
    (hw : c.reweight = false ∨ (∃ U, c.U = some U) ∧ ∀ n (a b : Fin n → ℝ) D, ∃ T, env.emd a b D = .ok T) (r : ρ) :
    ∃ o r', phaseConstruct env M c r = .ok (o, r') :=
  phaseConstruct_total env c hN hd hkern h2 hk hw r

/-- **C75** (default constraint). The default `U=1` is not callable: with reweighting the construction raises
TypeError. -/
theorem C75_default_constraint (env : Env ρ ℝ) (c : PhaseCfg d N ℝ) (hr : c.reweight = true) (hU : c.U = none)
    (h2 : 2 ≤ (phaseGrid c.t1 c.t2 c.dt).length) (hk : (phaseGrid c.t1 c.t2 c.dt).length ≤ c.k) (r : ρ) :
    phaseConstruct env M c r = .error .typeError :=
  phaseConstruct_noU env c hr hU h2 hk r

/-- **C76** (the whole run). A construction that returns draws `N x d` standard normals for the initial cloud, runs
the forward recurrence and then the backward recurrence, each continuing the random stream where the previous one
stopped. -/
theorem C76_full_run (env : Env ρ ℝ) (c : PhaseCfg d N ℝ) (hN : 0 < N) (hd : 0 < d) (hkern : c.kern = "RBF")
    (r r' : ρ) (o : PhaseObj d N ℝ) (h : phaseConstruct env M c r = .ok (o, r'))
    (h2 : 2 ≤ (phaseGrid c.t1 c.t2 c.dt).length) (hk : c.k = (phaseGrid c.t1 c.t2 c.dt).length) :
    ∃ rsF rsB : ℕ → ρ,
      rsF 0 = pnormalsNext env d N r ∧
      PhaseForwardRec env M c (fun i => o.Z[i]?) (fun i => o.timegrid[i]?) rsF ∧
      rsB (c.k - 2) = rsF (c.k - 1) ∧
      PhaseBackwardRec env M c c.k (fun i => o.Z[i]?) (fun i => o.B[i]?) (fun i => o.timegrid[i]?) rsB ∧
      rsB 0 = r' := by
  obtain ⟨hl, y, r0, ys, r1, bs, zl, b, hy, hys, _, htg, hZ, hzl, hb, hbs, hB⟩ := phaseConstruct_ok h h2
  rw [mvNormal_real] at hy
  injection hy with hy
  injection hy with hy hr0
  have hZ' : o.Z = y :: ys := by
    rw [hZ, hk, Nat.sub_self]; simp [zerosT]
  have hyl := chain_length hys
  rw [List.length_tail] at hyl
  have hb' : b = zl := by
    rw [hk, List.getElem?_set_self (by rw [zerosT_length]; omega)] at hb
    exact (Option.some.inj hb).symm
  have hdrop : ((zerosT d N c.k : Traj d N ℝ).set (c.k - 1) zl).drop ((phaseGrid c.t1 c.t2 c.dt).length - 1) = [zl] := by
    rw [← hk]
    rw [List.drop_eq_getElem_cons (by simp [zerosT]; omega)]
    simp [zerosT]
    omega
  rw [hdrop] at hB
  rw [hb'] at hbs
  obtain ⟨rsF, f0, f1, hF⟩ := phaseFwdChain_spec env c hN hkern y ys r0 r1 hys
  obtain ⟨rsB, b0, b1, hBr⟩ := phaseBackChain_spec env c hN hd hkern o.Z bs (pt N c.y1) zl _ r1 r' h2
    (by rw [hZ', List.length_cons]; omega) hbs
  refine ⟨rsF, rsB, by rw [f0]; exact hr0.symm, ?_, ?_, ?_, b1⟩
  · rw [hZ', htg]; exact hF
  · rw [hk, b0, f1]
  · rw [hk, htg, hB]; exact hBr

theorem mean_mem {x p : Fin N → ℝ} {l u : ℝ} (hp : ∀ m, 0 ≤ p m) (h1 : ∑ m, p m = 1) (hx : ∀ m, l ≤ x m ∧ x m ≤ u) :
    l ≤ ∑ m, x m * p m ∧ ∑ m, x m * p m ≤ u := by
  constructor
  · calc l = ∑ m, l * p m := by rw [← Finset.mul_sum, h1, mul_one]
      _ ≤ _ := Finset.sum_le_sum fun m _ => mul_le_mul_of_nonneg_right (hx m).1 (hp m)
  · calc _ ≤ ∑ m, u * p m := Finset.sum_le_sum fun m _ => mul_le_mul_of_nonneg_right (hx m).2 (hp m)
      _ = u := by rw [← Finset.mul_sum, h1, mul_one]

/-- **C76** (transport of angles). If the solver returns couplings, transporting a cloud of angles in `[0, 2π)`
replaces every coordinate by a weighted mean of the representatives: the final reduction modulo `2π` changes nothing,
and the new entries stay between the smallest and the largest old one. -/
theorem C76_transport (env : Env ρ ℝ) (hs : SolverCouples env) (v : Fin N → ℝ) (x y : Fin d → Fin N → ℝ)
    (hx : ∀ a n, 0 ≤ x a n ∧ x a n < 2 * Real.pi) (hd : ∃ i j, sqdist x i j ≠ 0) (h : PhaseTransportedTo env v x y) :
    ∃ T, IsCoupling (softmax v) (fun _ => 1 / N) T ∧
      (∀ a n, y a n = ∑ m, x a m * (N * T m n)) ∧
      (∀ n, ∑ m, N * T m n = 1) ∧
      ∀ a n, (∃ m, x a m ≤ y a n) ∧ ∃ m, y a n ≤ x a m := by
  obtain ⟨T, hT, hy⟩ := h hd
  obtain ⟨i0, _, _⟩ := hd
  have hN : 0 < N := i0.pos
  haveI : Nonempty (Fin N) := ⟨i0⟩
  have hNr : (N : ℝ) ≠ 0 := by positivity
  have hc : IsCoupling (softmax v) (fun _ => 1 / N) T := by
    refine hs N _ _ _ _ ⟨fun i => ?_, ?_⟩ ⟨fun i => by positivity, ?_⟩ hT
    · exact div_nonneg (Real.exp_pos _).le (Finset.sum_nonneg fun _ _ => (Real.exp_pos _).le)
    · unfold softmax
      rw [← Finset.sum_div]
      exact div_self (Finset.sum_pos (fun _ _ => Real.exp_pos _) Finset.univ_nonempty).ne'
    · simp [hNr]
  have h1 : ∀ n, ∑ m, N * T m n = 1 := by
    intro n
    rw [← Finset.mul_sum, hc.2.2 n]
    field_simp
  have hp : ∀ m n, 0 ≤ N * T m n := fun m n => mul_nonneg (Nat.cast_nonneg _) (hc.1 m n)
  have e : ∀ a n, ∑ m, N * x a m * T m n = ∑ m, x a m * (N * T m n) :=
    fun a n => Finset.sum_congr rfl fun m _ => by ring
  obtain hmin : ∀ a, ∃ m, ∀ j, x a m ≤ x a j := fun a => Finite.exists_min (x a)
  obtain hmax : ∀ a, ∃ m, ∀ j, x a j ≤ x a m := fun a => Finite.exists_max (x a)
  have hy' : ∀ a n, y a n = ∑ m, x a m * (N * T m n) := by
    intro a n
    obtain ⟨l, hl⟩ := hmin a
    obtain ⟨u, hu⟩ := hmax a
    have := mean_mem (x := x a) (fun m => hp m n) (h1 n) fun j => ⟨hl j, hu j⟩
    rw [hy, e]
    exact phase_of_mem ((hx a l).1.trans this.1) (this.2.trans_lt (hx a u).2)
  refine ⟨T, hc, hy', h1, fun a n => ?_⟩
  obtain ⟨l, hl⟩ := hmin a
  obtain ⟨u, hu⟩ := hmax a
  have := mean_mem (x := x a) (fun m => hp m n) (h1 n) fun j => ⟨hl j, hu j⟩
  rw [hy']
  exact ⟨⟨l, this.1⟩, u, this.2⟩

/-- **C76** (angles are not averaged as angles). Two particles at angles `ε` and `2π - ε`, which are `2ε` apart on the
circle, with equal weights and the constant plan, are both moved to `π`, the opposite side. -/
theorem C76_wrong_side (env : Env ρ ℝ) (ε : ℝ) (h0 : 0 < ε) (h1 : ε < Real.pi)
    (hT : ∀ D, env.emd (fun _ : Fin 2 => (1:ℝ)/2) (fun _ => 1/2) D = .ok fun _ _ => 1/4) :
    phaseReweight env (some fun _ _ => 0) (fun (_ : Fin 1) (n : Fin 2) => if n = 0 then ε else 2 * Real.pi - ε)
      = .ok fun _ _ => Real.pi := by
  rw [phaseReweight_ok env (by norm_num)]
  refine ⟨_, fun _ _ => 1/4, rfl, ?_, ?_⟩
  · have : softmax (fun _ : Fin 2 => (0:ℝ)) = fun _ => 1/2 := by funext n; simp [softmax]
    simp only [this]
    exact hT _
  · funext a n
    have hp := Real.pi_pos
    rw [Fin.sum_univ_two]
    simp only [if_true, Fin.one_eq_zero_iff, OfNat.ofNat_ne_one, if_false, Nat.cast_ofNat]
    rw [show (2:ℝ) * ε * (1/4) + 2 * (2 * Real.pi - ε) * (1/4) = Real.pi by ring, phase_of_mem hp.le (by linarith)]

/-! ### Examples -/

/-- An example: Kuramoto oscillators on `steps + 1` grid points. -/
noncomputable def exKura (d N steps : ℕ) : PhaseCfg d N ℝ :=
  kuraCfg N 0 (0 + steps * (1/1000)) (1/1000) (fun a => 3 + a.val) (kuraWs (1/2)) 2 1

theorem exKura_grid (d N steps : ℕ) :
    (phaseGrid (exKura d N steps).t1 (exKura d N steps).t2 (exKura d N steps).dt).length = steps + 1 :=
  phaseGrid_steps 0 (1/1000) (by norm_num) steps

theorem exKura_runs (d N M steps : ℕ) (hN : 0 < N) (hd : 0 < d) (hs : 0 < steps) (r : ℕ) :
    ∃ o r', phaseConstruct exEnv M (exKura d N steps) r = .ok (o, r') :=
  C75_returns exEnv (exKura d N steps) hN hd rfl (by rw [exKura_grid]; omega) le_rfl (.inr ⟨⟨_, rfl⟩, exEnv_total⟩) r

/-- C75, C76: a run with 6 oscillators, 5 particles, 8 grid points. -/
example : ∃ o r', phaseConstruct exEnv 4 (exKura 6 5 7) 0 = .ok (o, r') ∧ 0 < (exKura 6 5 7).k ∧
    2 ≤ (phaseGrid (exKura 6 5 7).t1 (exKura 6 5 7).t2 (exKura 6 5 7).dt).length ∧
    (exKura 6 5 7).k = (phaseGrid (exKura 6 5 7).t1 (exKura 6 5 7).t2 (exKura 6 5 7).dt).length ∧
    (exKura 6 5 7).reweight = true := by
  obtain ⟨o, r', h⟩ := exKura_runs 6 5 4 7 (by norm_num) (by norm_num) (by norm_num) 0
  have := exKura_grid 6 5 7
  refine ⟨o, r', h, ?_, by omega, rfl, rfl⟩
  show 0 < (phaseGrid (exKura 6 5 7).t1 (exKura 6 5 7).t2 (exKura 6 5 7).dt).length
  omega

/-- The example with another number of slices. -/
noncomputable def exKuraK (d N steps k : ℕ) : PhaseCfg d N ℝ := { exKura d N steps with k := k }

theorem exKuraK_grid (d N steps k : ℕ) :
    (phaseGrid (exKuraK d N steps k).t1 (exKuraK d N steps k).t2 (exKuraK d N steps k).dt).length = steps + 1 :=
  exKura_grid d N steps

/-- C75_too_few: 5 slices, 8 grid points. -/
example : ∀ p, phaseConstruct exEnv 4 (exKuraK 6 5 7 5) 0 ≠ .ok p :=
  C75_too_few exEnv _ (by rw [exKuraK_grid]; show 5 < 7 + 1; norm_num) 0

/-- C75_too_many: 10 slices, 8 grid points. -/
example : ∃ o r', phaseConstruct exEnv 4 (exKuraK 6 5 7 10) 0 = .ok (o, r') ∧
    (phaseGrid (exKuraK 6 5 7 10).t1 (exKuraK 6 5 7 10).t2 (exKuraK 6 5 7 10).dt).length < (exKuraK 6 5 7 10).k := by
  obtain ⟨o, r', h⟩ := C75_returns exEnv (M := 4) (exKuraK 6 5 7 10) (by norm_num) (by norm_num) rfl
    (by rw [exKuraK_grid]; norm_num) (by rw [exKuraK_grid]; show 8 ≤ 10; norm_num) (.inr ⟨⟨_, rfl⟩, exEnv_total⟩) 0
  exact ⟨o, r', h, by rw [exKuraK_grid]; show 8 < 10; norm_num⟩

/-- C75_default_constraint. -/
example : phaseConstruct exEnv 4 { exKura 6 5 7 with U := none } 0 = .error .typeError :=
  C75_default_constraint exEnv _ rfl rfl
    (by have h := exKura_grid 6 5 7; refine le_trans ?_ h.ge; norm_num) le_rfl 0

/-- C76_transport, C76_wrong_side: the hypotheses are met by a solver returning the product coupling. -/
example : SolverCouples (⟨fun r => (r, r + 1), fun r => (1/2, r + 1), fun {_} a b _ => .ok fun i j => a i * b j⟩ : Env ℕ ℝ)
    ∧ ∃ i j, sqdist (fun (_ : Fin 1) (n : Fin 2) => if n = 0 then (1:ℝ) else 2) i j ≠ 0 := by
  refine ⟨fun n a b C T ha hb h => ?_, 0, 1, by norm_num [sqdist]⟩
  cases h
  exact ⟨fun i j => mul_nonneg (ha.1 i) (hb.1 j), fun i => by rw [← Finset.mul_sum, hb.2, mul_one],
    fun j => by rw [← Finset.sum_mul, ha.2, one_mul]⟩

end DPFC
