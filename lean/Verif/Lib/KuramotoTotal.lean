import Verif.Lib.KuramotoReal
import Verif.Lib.Examples

/-! The phase-oscillator constructor: grid, short grids, totality. -/

namespace DPFC
open Spec

variable {ρ : Type} {N M d : ℕ}

theorem phaseGrid_steps (t1 dt : ℝ) (hdt : 0 < dt) (n : ℕ) : (phaseGrid t1 (t1 + n * dt) dt).length = n + 1 := by
  unfold phaseGrid npArange
  rw [List.length_map, List.length_range]
  have e : (lit 2 1 : ℝ) = 2 := by simp
  have : (t1 + n * dt + dt / lit 2 1 - t1) / dt = (n : ℝ) + 1/2 := by
    rw [e]; field_simp; ring
  rw [this]
  show ⌈(n : ℝ) + 1/2⌉₊ = n + 1
  refine le_antisymm (Nat.ceil_le.2 (by push_cast; linarith)) (Nat.succ_le_of_lt (Nat.lt_ceil.2 ?_))
  linarith

theorem zerosT_onCircle {k i : ℕ} {x : Mat d N ℝ} (h : (zerosT d N k : Traj d N ℝ)[i]? = some x) : OnCircle x := by
  unfold zerosT at h
  obtain rfl := List.eq_of_mem_replicate (List.mem_of_getElem? h)
  intro a n
  have := two_pi_pos'
  simp [this]

theorem phaseConstruct_short_grid {env : Env ρ ℝ} {c : PhaseCfg d N ℝ} {r r' : ρ} {o : PhaseObj d N ℝ}
    (h : phaseConstruct env M c r = .ok (o, r')) (h2 : (phaseGrid c.t1 c.t2 c.dt).length < 2) (hk : 0 < c.k) :
    (o.Z = zerosT d N c.k ∨ ∃ y, o.Z = (zerosT d N c.k).set 0 y) ∧ o.B = (zerosT d N c.k).set 0 (pt N c.y1) := by
  unfold phaseConstruct at h
  generalize hg : phaseGrid c.t1 c.t2 c.dt = grid at h h2
  obtain ⟨Z, r1, hZ, h⟩ := RandM.bind_ok.1 h
  obtain ⟨B, r2, hB, h⟩ := RandM.bind_ok.1 h
  obtain ⟨rfl, rfl⟩ := RandM.pure_ok.1 h
  have hdl : grid.dropLast = [] := by
    match grid, h2 with
    | [], _ => rfl
    | [a], _ => rfl
  constructor
  · match grid, h2 with
    | [], _ =>
      unfold phaseForward enumLoop at hZ
      exact .inl (RandM.pure_ok.1 hZ).1.symm
    | [a], _ =>
      unfold phaseForward at hZ
      rw [enumLoop, phaseFwdBody_zero _ _ _ _ (by simpa [zerosT] using hk), bind_assoc] at hZ
      obtain ⟨y, r3, _, hZ⟩ := RandM.bind_ok.1 hZ
      simp only [enumLoop, pure_bind] at hZ
      exact .inr ⟨y, (RandM.pure_ok.1 hZ).1.symm⟩
  · unfold phaseBackward at hB
    rw [hdl] at hB
    simp only [enumLoop, pure_bind] at hB
    rw [pinRows_ok _ _ 0 (pyIdx_zero (by simpa [zerosT] using hk)), RandM.liftM_ok] at hB
    exact (RandM.pure_ok.1 hB).1.symm

theorem phaseConstruct_onCircle {env : Env ρ ℝ} {c : PhaseCfg d N ℝ} {r r' : ρ} {o : PhaseObj d N ℝ}
    (h : phaseConstruct env M c r = .ok (o, r')) (hk : 0 < c.k) (i : ℕ) (hi : 1 ≤ i) (x : Mat d N ℝ)
    (hx : o.Z[i]? = some x ∨ o.B[i]? = some x) : OnCircle x := by
  by_cases h2 : 2 ≤ (phaseGrid c.t1 c.t2 c.dt).length
  · obtain ⟨hl, y, r0, ys, r1, bs, zl, b, hy, hys, _, _, hZ, hzl, hb, hbs, hB⟩ := phaseConstruct_ok h h2
    have hZc : ∀ x ∈ ys ++ zerosT d N (c.k - (phaseGrid c.t1 c.t2 c.dt).length), OnCircle x := by
      intro x hx
      rcases List.mem_append.1 hx with hx | hx
      · exact chain_forall (fun i t x y r r' => phaseSlice_onCircle i t x y r r') hys x hx
      · obtain ⟨j, hj⟩ := List.mem_iff_getElem?.1 hx
        exact zerosT_onCircle hj
    obtain ⟨j, rfl⟩ : ∃ j, i = j + 1 := ⟨i - 1, by omega⟩
    have hyl := chain_length hys
    rw [List.length_tail] at hyl
    have hzlc : OnCircle zl := by
      rw [hZ, List.cons_append, List.getLast?_cons_of_ne_nil (by
        intro e
        have := congrArg List.length e
        rw [List.length_append, List.length_nil] at this
        omega)] at hzl
      exact hZc _ (List.mem_of_getLast? hzl)
    rcases hx with hx | hx
    · rw [hZ, List.cons_append, List.getElem?_cons_succ] at hx
      exact hZc x (List.mem_of_getElem? hx)
    · rw [hB, List.getElem?_cons_succ] at hx
      rcases List.mem_append.1 (List.mem_of_getElem? hx) with hx | hx
      · exact chain_forall (fun i t x y r r' => phaseBackStep_onCircle i t x y r r') hbs x (List.mem_reverse.1 hx)
      · rcases List.mem_or_eq_of_mem_set (List.mem_of_mem_drop hx) with hx | rfl
        · obtain ⟨j, hj⟩ := List.mem_iff_getElem?.1 hx
          exact zerosT_onCircle hj
        · exact hzlc
  · obtain ⟨hZ, hB⟩ := phaseConstruct_short_grid h (by omega) hk
    have key : ∀ w : Mat d N ℝ, ((zerosT d N c.k).set 0 w)[i]? = some x → OnCircle x := by
      intro w h
      rw [List.getElem?_set_ne (by omega)] at h
      exact zerosT_onCircle h
    rcases hx with hx | hx
    · rcases hZ with hZ | ⟨y, hZ⟩
      · rw [hZ] at hx; exact zerosT_onCircle hx
      · rw [hZ] at hx; exact key _ hx
    · rw [hB] at hx; exact key _ hx

theorem chain_total {τ S : Type} {step : Nat → τ → S → RandM ρ S}
    (hP : ∀ i t x r, ∃ y r', step i t x r = .ok (y, r')) :
    ∀ (ts : List τ) (ti : Nat) (x : S) (r : ρ), ∃ ys r', chain step ti ts x r = .ok (ys, r')
  | [], ti, x, r => ⟨[], r, rfl⟩
  | t :: ts, ti, x, r => by
    obtain ⟨y, r1, h1⟩ := hP ti t x r
    obtain ⟨ys, r2, h2⟩ := chain_total hP ts (ti+1) y r1
    refine ⟨y :: ys, r2, ?_⟩
    rw [chain]
    exact RandM.bind_ok.2 ⟨y, r1, h1, RandM.bind_ok.2 ⟨ys, r2, h2, rfl⟩⟩

theorem phaseConstruct_total (env : Env ρ ℝ) (c : PhaseCfg d N ℝ) (hN : 0 < N) (hd : 0 < d) (hkern : c.kern = "RBF")
    (h2 : 2 ≤ (phaseGrid c.t1 c.t2 c.dt).length) (hk : (phaseGrid c.t1 c.t2 c.dt).length ≤ c.k)
    (hw : c.reweight = false ∨ (∃ U, c.U = some U) ∧ EmdTotal env) (r : ρ) :
    ∃ o r', phaseConstruct env M c r = .ok (o, r') := by
  have hst : ∀ i t x r, ∃ y r', phaseSlice env M c i t x r = .ok (y, r') := by
    intro i t x r
    have h2 : ∀ raw r1, ∃ y r', (if c.reweight = true then
        (liftM (phaseReweight env c.U raw) : RandM ρ (Mat d N ℝ)) else pure raw) r1 = .ok (y, r') := by
      intro raw r1
      by_cases hr : c.reweight = true
      · rcases hw with hw | ⟨⟨U, hU⟩, he⟩
        · rw [hw] at hr; cases hr
        · obtain ⟨T, hT⟩ := he N (softmax (U raw)) (fun _ => 1 / N)
            (fun i j => sqdist raw i j / hi fun i => hi fun j => sqdist raw i j)
          rw [if_pos hr]
          exact ⟨_, r1, RandM.lift_ok.2 ⟨(phaseReweight_ok env hN c.U raw _).2 ⟨U, T, hU, hT, rfl⟩, rfl⟩⟩
      · rw [if_neg hr]
        exact ⟨raw, r1, rfl⟩
    unfold phaseSlice
    by_cases hi : i = 1
    · simp only [if_pos hi]
      obtain ⟨y, r', h⟩ := h2 _ _
      exact ⟨y, r', RandM.bind_ok.2 ⟨_, _, phaseNoisy_real env c x _ r, h⟩⟩
    · simp only [if_neg hi]
      obtain ⟨y, r', h⟩ := h2 _ _
      exact ⟨y, r', RandM.bind_ok.2 ⟨_, _, phaseFlow_real env hN c hkern x _ r, h⟩⟩
  have hbst : ∀ i (t : Mat d N ℝ × ℝ) x r, ∃ y r', phaseBackStep env M c i t x r = .ok (y, r') := by
    rintro i ⟨z, t⟩ x r
    rw [phaseBackStep_real env hN hd c hkern]
    split <;> exact ⟨_, _, rfl⟩
  obtain ⟨ys, r1, hys⟩ := chain_total hst (phaseGrid c.t1 c.t2 c.dt).tail 1
    (gaussStart c.y1 c.g (pnormals env d N r)) (pnormalsNext env d N r)
  have hzl := List.getLast?_eq_some_getLast (l := gaussStart c.y1 c.g (pnormals env d N r) :: ys
    ++ zerosT d N (c.k - (phaseGrid c.t1 c.t2 c.dt).length)) (by simp)
  generalize List.getLast _ _ = zl at hzl
  obtain ⟨b, hb⟩ : ∃ b, ((zerosT d N c.k).set (c.k - 1) zl)[(phaseGrid c.t1 c.t2 c.dt).length - 1]? = some b :=
    ⟨_, List.getElem?_eq_getElem (by rw [List.length_set, zerosT_length]; omega)⟩
  obtain ⟨bs, r2, hbs⟩ := chain_total hbst
    (phaseVisits (gaussStart c.y1 c.g (pnormals env d N r) :: ys
      ++ zerosT d N (c.k - (phaseGrid c.t1 c.t2 c.dt).length)) (phaseGrid c.t1 c.t2 c.dt)) 1 b r1
  exact ⟨_, _, phaseConstruct_of h2 hk (mvNormal_real env c.y1 c.g r) hys hzl hb hbs⟩

/-- Without a callable constraint the reweighted construction raises TypeError. -/
theorem phaseConstruct_noU (env : Env ρ ℝ) (c : PhaseCfg d N ℝ) (hr : c.reweight = true) (hU : c.U = none)
    (h2 : 2 ≤ (phaseGrid c.t1 c.t2 c.dt).length) (hk : (phaseGrid c.t1 c.t2 c.dt).length ≤ c.k) (r : ρ) :
    phaseConstruct env M c r = .error .typeError := by
  unfold phaseConstruct
  generalize hg : phaseGrid c.t1 c.t2 c.dt = grid at h2 hk
  obtain ⟨t0, t1, ts, rfl⟩ : ∃ t0 t1 ts, grid = t0 :: t1 :: ts := by
    match grid, h2 with
    | a :: b :: l, _ => exact ⟨a, b, l, rfl⟩
  have hs : phaseSlice env M c 1 t1 (gaussStart c.y1 c.g (pnormals env d N r)) (pnormalsNext env d N r)
      = .error .typeError := by
    unfold phaseSlice
    rw [if_pos rfl, RandM.bind_app, phaseNoisy_real]
    simp only [hr, if_true, hU, phaseReweight]
    rfl
  have : phaseForward env M c (t0 :: t1 :: ts) (zerosT d N c.k) r = .error .typeError := by
    rw [phaseForward_eq env c t0 (t1 :: ts) _ (by simpa [zerosT] using hk), RandM.bind_app, mvNormal_real]
    simp only [chain]
    rw [RandM.bind_app, RandM.bind_app, hs]
  rw [RandM.bind_app, this]

end DPFC
