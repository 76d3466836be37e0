import Verif.Lib.KuramotoTotal
import Verif.Lib.KuramotoModel

/-! Controls and closed loop of the phase-oscillator example. -/

namespace DPFC
section
variable {K ρ : Type} [Add K] [Sub K] [Mul K] [Div K] [Neg K] [NumOps K] [PhaseOps K]
variable {N M d n : Nat}

theorem setItem_nat {α : Type} (l : List α) {i : Nat} (h : i < l.length) (v : α) :
    setItem l (i : Int) v = .ok (l.set i v) := by
  unfold setItem pyIdx
  rw [if_pos (by omega), if_pos (by omega)]
  simp

/-- Control, controlled and uncontrolled state after one step. -/
def phaseLoopStep (env : Env ρ K) (ctl : Mat d 1 K → Int → RandM ρ (Mat d 1 K))
    (f : (Fin d → K) → Fin d → K) (g h : K) (ti : Nat) (_tt : K) (s : (Fin d → K) × (Fin d → K) × (Fin d → K)) :
    RandM ρ ((Fin d → K) × (Fin d → K) × (Fin d → K)) := do
  let u ← ctl (fun a _ => s.2.1 a) ti
  let xi ← normalVec env (NumOps.sqrt h) d
  let eta ← normalVec env (NumOps.sqrt h) d
  pure (fun a => u a 0, fun a => wrap (s.2.1 a + h * f s.2.1 a + h * sq g * u a 0 + g * xi a),
    fun a => wrap (s.2.2 a + h * f s.2.2 a + g * eta a))

theorem phaseLoopBody_step (env : Env ρ K) (ctl : Mat d 1 K → Int → RandM ρ (Mat d 1 K)) (kb : Nat)
    (f : (Fin d → K) → Fin d → K) (g h : K) (y0 : Fin d → K) (ti : Nat) (tt : K) (F G U : List (Fin d → K))
    (RF RG : List K) (x y u : Fin d → K) (h1 : 1 ≤ ti) (hkb : ti + 1 < kb) (hF : ti < F.length) (hG : ti < G.length)
    (hU : ti < U.length) (hRF : ti < RF.length) (hRG : ti < RG.length) (hx : F[ti-1]? = some x)
    (hy : G[ti-1]? = some y) :
    phaseLoopBody env ctl kb f g h y0 ti tt ⟨F, G, U, RF, RG⟩ = (do
      let p ← phaseLoopStep env ctl f g h ti tt (u, x, y)
      pure ⟨F.set ti p.2.1, G.set ti p.2.2, U.set ti p.1, RF.set ti (orderParam p.2.1), RG.set ti (orderParam p.2.2)⟩) := by
  have e : ((ti : Int) - 1) = ((ti - 1 : ℕ) : Int) := by omega
  have gx : pyGet F ((ti : Int) - 1) = .ok x := by rw [e]; exact pyGet_of_getElem? hx
  have gy : pyGet G ((ti : Int) - 1) = .ok y := by rw [e]; exact pyGet_of_getElem? hy
  unfold phaseLoopBody phaseLoopStep
  rw [if_neg (by omega)]
  simp only [if_neg (show ¬ (ti : Int) = (kb : Int) - 1 by omega), gx, gy, setItem_nat F hF, setItem_nat G hG,
    setItem_nat U hU, setItem_nat RF hRF, setItem_nat RG hRG, RandM.liftM_ok, pure_bind, bind_assoc]

theorem phaseLoop_chain (env : Env ρ K) (ctl : Mat d 1 K → Int → RandM ρ (Mat d 1 K)) (kb : Nat)
    (f : (Fin d → K) → Fin d → K) (g h : K) (y0 : Fin d → K) : ∀ (ts : List K) (ti : Nat) (F G U : List (Fin d → K))
    (RF RG : List K) (x y u : Fin d → K), 1 ≤ ti → ti + ts.length < kb →
    F.length = ti + ts.length + 1 → G.length = ti + ts.length + 1 → U.length = ti + ts.length + 1 →
    RF.length = ti + ts.length + 1 → RG.length = ti + ts.length + 1 →
    F[ti-1]? = some x → G[ti-1]? = some y →
    enumLoop (phaseLoopBody env ctl kb f g h y0) ti ts ⟨F, G, U, RF, RG⟩ = (do
      let l ← chain (phaseLoopStep env ctl f g h) ti ts (u, x, y)
      pure ⟨F.take ti ++ l.map (·.2.1) ++ F.drop (ti + ts.length), G.take ti ++ l.map (·.2.2) ++ G.drop (ti + ts.length),
        U.take ti ++ l.map (·.1) ++ U.drop (ti + ts.length),
        RF.take ti ++ l.map (fun p => orderParam p.2.1) ++ RF.drop (ti + ts.length),
        RG.take ti ++ l.map (fun p => orderParam p.2.2) ++ RG.drop (ti + ts.length)⟩) := by
  intro ts
  induction ts with
  | nil =>
    intro ti F G U RF RG x y u h1 hkb hF hG hU hRF hRG hx hy
    simp only [enumLoop, chain, pure_bind, List.map_nil, List.append_nil, List.length_nil, Nat.add_zero,
      List.take_append_drop]
  | cons tt ts ih =>
    intro ti F G U RF RG x y u h1 hkb hF hG hU hRF hRG hx hy
    simp only [List.length_cons] at hF hG hU hRF hRG hkb
    simp only [enumLoop, chain, phaseLoopBody_step env ctl kb f g h y0 ti tt F G U RF RG x y u h1 (by omega) (by omega)
      (by omega) (by omega) (by omega) (by omega) hx hy, bind_assoc, pure_bind]
    congr 1; funext p
    rw [ih (ti+1) (F.set ti p.2.1) (G.set ti p.2.2) (U.set ti p.1) (RF.set ti (orderParam p.2.1))
      (RG.set ti (orderParam p.2.2)) p.2.1 p.2.2 p.1 (by omega) (by omega)
      (by simp; omega) (by simp; omega) (by simp; omega) (by simp; omega) (by simp; omega)
      (by simp [show ti < F.length by omega]) (by simp [show ti < G.length by omega])]
    congr 1; funext l
    congr 1
    have take_set : ∀ {α : Type} (T : List α) (q : α), ti < T.length →
        (T.set ti q).take (ti + 1) = T.take ti ++ [q] := by
      intro α T q hT
      rw [List.take_add_one, List.getElem?_set, List.take_set_of_le (Nat.le_refl _)]
      simp [hT]
    rw [take_set F _ (by omega), take_set G _ (by omega), take_set U _ (by omega), take_set RF _ (by omega),
      take_set RG _ (by omega), List.drop_set_of_lt (by omega), List.drop_set_of_lt (by omega),
      List.drop_set_of_lt (by omega), List.drop_set_of_lt (by omega), List.drop_set_of_lt (by omega)]
    simp only [List.map_cons, List.append_assoc, List.singleton_append, List.length_cons,
      show ti + 1 + ts.length = ti + (ts.length + 1) by omega, List.cons_append, List.nil_append]

/-- The closed loop on a grid of at least two points. -/
theorem phaseLoop_eq (env : Env ρ K) (o : PhaseObj d N K) (grid : List K) (f : (Fin d → K) → Fin d → K) (g h : K)
    (y0 : Fin d → K) (hk : 2 ≤ grid.length) (hkb : grid.length ≤ o.timegrid.length) :
    phaseLoop env M o grid f g h y0 = (do
      let l ← chain (phaseLoopStep env (phaseU env M o) f g h) 1 grid.dropLast.tail (fun _ => lit 0 1, y0, y0)
      pure ⟨y0 :: (l.map (·.2.1) ++ [fun _ => lit 0 1 / lit 0 1]), y0 :: (l.map (·.2.2) ++ [fun _ => lit 0 1 / lit 0 1]),
        (fun _ => lit 0 1) :: (l.map (·.1) ++ [fun _ => lit 0 1]),
        lit 0 1 :: (l.map (fun p => orderParam p.2.1) ++ [lit 0 1]),
        lit 0 1 :: (l.map (fun p => orderParam p.2.2) ++ [lit 0 1])⟩) := by
  obtain ⟨m, hm⟩ : ∃ m, grid.length = m + 2 := ⟨grid.length - 2, by omega⟩
  have hd : grid.dropLast.length = m + 1 := by rw [List.length_dropLast, hm]; rfl
  unfold phaseLoop
  simp only [hm]
  rcases hts : grid.dropLast with _ | ⟨t0, ts⟩
  · rw [hts] at hd; simp at hd
  rw [hts] at hd
  have hts' : ts.length = m := by simpa using hd
  simp only [enumLoop, List.tail_cons]
  have h0 : ∀ s : PhasePaths d K, 0 < s.cont.length → 0 < s.free.length →
      phaseLoopBody env (phaseU env M o) o.timegrid.length f g h y0 0 t0 s
        = pure { s with cont := s.cont.set 0 y0, free := s.free.set 0 y0 } := by
    intro s h1 h2
    unfold phaseLoopBody
    rw [if_pos rfl]
    simp only [setItem_nat _ h1, setItem_nat _ h2, RandM.liftM_ok, pure_bind]
  rw [h0 _ (by simp) (by simp), pure_bind,
    phaseLoop_chain env (phaseU env M o) o.timegrid.length f g h y0 ts 1 _ _ _ _ _ y0 y0 (fun _ => lit 0 1) le_rfl (by omega)
      (by simp [hts']; omega) (by simp [hts']; omega) (by simp [hts']; omega) (by simp [hts']; omega)
      (by simp [hts']; omega) (by simp) (by simp)]
  congr 1; funext l
  congr 1
  have dr : ∀ {α : Type} (v : α), List.drop (1 + m) (List.replicate (m + 2) v) = [v] := by
    intro α v
    rw [List.drop_replicate, show m + 2 - (1 + m) = 1 by omega]; rfl
  have drs : ∀ {α : Type} (v w : α), List.drop (1 + m) ((List.replicate (m + 2) v).set 0 w) = [v] := by
    intro α v w
    rw [List.drop_set_of_lt (by omega), dr]
  rw [hts']
  simp only [drs, dr]
  rfl

end

open Spec
variable {ρ : Type} {N M d n : ℕ}

theorem normalVec_real (env : Env ρ ℝ) (s : ℝ) (d : ℕ) (r : ρ) :
    normalVec env s d r = .ok (fun a => s * vnormals env d r a, vnormalsNext env d r) := by
  unfold normalVec
  simp

theorem phaseU_real (env : Env ρ ℝ) (hN : 0 < N) (hd : 0 < d) (o : PhaseObj d N ℝ) (hkern : o.cfg.kern = "RBF")
    (x : Mat d n ℝ) (ti : Int) (b z : Mat d N ℝ) (hb : pyGet o.B ti = .ok b) (hz : pyGet o.Z ti = .ok z) (r : ρ) :
    phaseU env M o x ti r = .ok (fun a j => phaseControl b z (inducing (fun a => max (lo (z a)) (lo (b a)))
      (fun a => min (hi (z a)) (hi (b a))) (unifs env d M r)) (fun a => x a j) a, unifsNext env d M r) := by
  unfold phaseU
  simp only [hb, hz, interBox_real hN, RandM.liftM_ok, pure_bind]
  rw [RandM.bind_app, npInducing_gen]
  simp only
  rw [real_lit_milli, hkern, scoreAllFn_real milli_gt _ _ _ _ (.inl hd), RandM.liftM_ok, pure_bind,
    scoreAllFn_real milli_gt _ _ _ _ (.inl hd), RandM.liftM_ok, pure_bind]
  simp only [RandM.pure_app, lengthScales_real]
  rfl

theorem phaseLoopStep_ok {env : Env ρ ℝ} {ctl : Mat d 1 ℝ → Int → RandM ρ (Mat d 1 ℝ)}
    {f : (Fin d → ℝ) → Fin d → ℝ} {g h : ℝ} {ti : ℕ} {t : ℝ} {p q : (Fin d → ℝ) × (Fin d → ℝ) × (Fin d → ℝ)} {r r' : ρ} :
    phaseLoopStep env ctl f g h ti t p r = .ok (q, r') ↔ ∃ u q1, ctl (fun a _ => p.2.1 a) ti r = .ok (u, q1) ∧
      q.1 = (fun a => u a 0) ∧
      q.2.1 = phaseEM f g h p.2.1 (fun a => u a 0) (vnormals env d q1) ∧
      q.2.2 = phaseEM f g h p.2.2 (fun _ => 0) (vnormals env d (vnormalsNext env d q1)) ∧
      r' = vnormalsNext env d (vnormalsNext env d q1) := by
  have e1 : ∀ (x u ξ : Fin d → ℝ), (fun a => wrap (x a + h * f x a + h * sq g * u a + g * (Real.sqrt h * ξ a)))
      = phaseEM f g h x u ξ := by
    intro x u ξ
    funext a
    rw [wrap_real]
    unfold phaseEM
    congr 1
    rw [real_sq]; ring
  have e2 : ∀ (x ξ : Fin d → ℝ), (fun a => wrap (x a + h * f x a + g * (Real.sqrt h * ξ a)))
      = phaseEM f g h x (fun _ => 0) ξ := by
    intro x ξ
    funext a
    rw [wrap_real]
    unfold phaseEM
    congr 1
    ring
  unfold phaseLoopStep
  simp only [RandM.bind_ok, RandM.pure_ok, normalVec_real, real_sqrt]
  constructor
  · rintro ⟨u, q1, h1, x', q2, h2, y', q3, h3, rfl, rfl⟩
    cases h2; cases h3
    exact ⟨u, q1, h1, rfl, e1 _ _ _, e2 _ _, rfl⟩
  · rintro ⟨u, q1, h1, h2, h3, h4, rfl⟩
    refine ⟨u, q1, h1, _, _, rfl, _, _, rfl, ?_, rfl⟩
    rw [e1 p.2.1 (fun a => u a 0), e2, ← h3, ← h4, ← h2]

theorem phaseLoop_run (env : Env ρ ℝ) (o : PhaseObj d N ℝ) (grid : List ℝ) (f : (Fin d → ℝ) → Fin d → ℝ) (g h : ℝ)
    (y0 : Fin d → ℝ) (hk : 2 ≤ grid.length) (hkb : grid.length ≤ o.timegrid.length) (r r' : ρ) (s : PhasePaths d ℝ)
    (hs : phaseLoop env M o grid f g h y0 r = .ok (s, r')) :
    ∃ rs : ℕ → ρ, rs 1 = r ∧ rs (grid.length - 1) = r' ∧
      PhaseRun env (fun x i => phaseU env M o (fun a (_ : Fin 1) => x a) i) f g h y0 grid.length s.cont s.free s.used
        s.rCont s.rFree rs := by
  rw [phaseLoop_eq env o grid f g h y0 hk hkb, RandM.bind_ok] at hs
  obtain ⟨l, r1, hl, hs⟩ := hs
  rw [RandM.pure_ok] at hs
  obtain ⟨rfl, rfl⟩ := hs
  obtain ⟨hlen, rs, h0, h1, hstep⟩ := chain_ok_iff.1 hl
  have hts : grid.dropLast.tail.length = grid.length - 2 := by
    rw [List.length_tail, List.length_dropLast]; omega
  rw [hts] at hlen h1
  obtain ⟨m, hm⟩ : ∃ m, grid.length = m + 2 := ⟨grid.length - 2, by omega⟩
  rw [hm] at hlen h1 hts ⊢
  rw [show m + 2 - 2 = m by omega] at hlen h1 hts
  refine ⟨fun i => rs (i - 1), by simpa using h0, by
    show rs (m + 2 - 1 - 1) = r1
    rw [← h1]; congr 1, ?_⟩
  have hz : (lit 0 1 : ℝ) = 0 := real_lit_zero 1
  have hlast : ∀ {α : Type} (a b : α) (l : List α), l.length = m → (a :: (l ++ [b]))[m + 2 - 1]? = some b := by
    intro α a b l hl
    rw [show m + 2 - 1 = m + 1 by omega, List.getElem?_cons_succ, List.getElem?_append_right (by omega)]
    simp [hl]
  refine ⟨by simp [hlen], ⟨rfl, rfl⟩, ?_, ?_, ?_⟩
  · simp only [hz]; exact ⟨rfl, rfl, rfl⟩
  · rw [hlast _ _ _ (by simpa using hlen), hlast _ _ _ (by simpa using hlen), hlast _ _ _ (by simpa using hlen)]
    simp [hz]
  · intro i x w hi hi' hx hw
    obtain ⟨j, rfl⟩ : ∃ j, i = j + 1 := ⟨i - 1, by omega⟩
    have hj : j < l.length := by omega
    obtain ⟨t, ht⟩ : ∃ t, grid.dropLast.tail[j]? = some t := by
      rw [List.getElem?_eq_getElem (by omega)]; exact ⟨_, rfl⟩
    obtain ⟨p, hp⟩ : ∃ p, (((fun _ => lit 0 1), y0, y0) :: l)[j]? = some p := by
      rw [List.getElem?_eq_getElem (by simp; omega)]; exact ⟨_, rfl⟩
    obtain ⟨q, hq⟩ : ∃ q, l[j]? = some q := by
      rw [List.getElem?_eq_getElem hj]; exact ⟨_, rfl⟩
    have hpre : ∀ (v : Fin d → ℝ) (φ : (Fin d → ℝ) × (Fin d → ℝ) × (Fin d → ℝ) → (Fin d → ℝ)),
        φ ((fun _ => lit 0 1), y0, y0) = y0 → (y0 :: (l.map φ ++ [v]))[j]? = some (φ p) := by
      intro v φ hφ
      have : y0 :: (l.map φ ++ [v]) = (((fun _ => (lit 0 1 : ℝ)), y0, y0) :: l).map φ ++ [v] := by
        rw [List.map_cons, hφ]; rfl
      rw [this, List.getElem?_append_left (by simp; omega), List.getElem?_map, hp]
      rfl
    have hpost : ∀ {α : Type} (a v : α) (φ : (Fin d → ℝ) × (Fin d → ℝ) × (Fin d → ℝ) → α),
        (a :: (l.map φ ++ [v]))[j+1]? = some (φ q) := by
      intro α a v φ
      rw [List.getElem?_cons_succ, List.getElem?_append_left (by simpa using hj), List.getElem?_map, hq]
      rfl
    have hpx : p.2.1 = x := by
      simp only [Nat.add_sub_cancel] at hx
      rw [hpre _ (·.2.1) rfl] at hx
      exact Option.some.inj hx
    have hpw : p.2.2 = w := by
      simp only [Nat.add_sub_cancel] at hw
      rw [hpre _ (·.2.2) rfl] at hw
      exact Option.some.inj hw
    have := hstep j t p q ht hp (by rw [List.getElem?_cons_succ]; exact hq)
    obtain ⟨u, q1, e1, e2, e3, e4, e5⟩ := phaseLoopStep_ok.1 this
    rw [hpx] at e1 e3
    rw [hpw] at e4
    refine ⟨u, q1, q.2.1, q.2.2, ?_, ?_, ?_, e3, ?_, e4, ?_, ?_, ?_⟩
    · rw [Nat.add_sub_cancel, ← e1, Nat.add_comm j 1]
    · rw [hpost, e2]
    · rw [hpost]
    · rw [hpost]
    · rw [hpost, orderParam_real]
    · rw [hpost, orderParam_real]
    · rw [Nat.add_sub_cancel]; exact e5

theorem phaseLoop_total (env : Env ρ ℝ) (o : PhaseObj d N ℝ) (grid : List ℝ) (f : (Fin d → ℝ) → Fin d → ℝ) (g h : ℝ)
    (y0 : Fin d → ℝ) (hk : 2 ≤ grid.length) (hkb : grid.length ≤ o.timegrid.length)
    (hq : ∀ (i : ℕ) (x : Mat d 1 ℝ) (q : ρ), 1 ≤ i → i < grid.length - 1 →
      ∃ u q', phaseU env M o x i q = .ok (u, q')) (r : ρ) :
    ∃ s r', phaseLoop env M o grid f g h y0 r = .ok (s, r') := by
  have key : ∀ (ts : List ℝ) (i : ℕ) (p : (Fin d → ℝ) × (Fin d → ℝ) × (Fin d → ℝ)) (r : ρ), 1 ≤ i →
      i + ts.length ≤ grid.length - 1 →
      ∃ l r', chain (phaseLoopStep env (phaseU env M o) f g h) i ts p r = .ok (l, r') := by
    intro ts
    induction ts with
    | nil => intro i p r _ _; exact ⟨[], r, rfl⟩
    | cons t ts ih =>
      intro i p r hi hl
      rw [List.length_cons] at hl
      obtain ⟨u, q1, hu⟩ := hq i (fun a _ => p.2.1 a) r hi (by omega)
      have hs := (phaseLoopStep_ok (env := env) (ctl := phaseU env M o) (f := f) (g := g) (h := h) (ti := i) (t := t)
        (p := p) (q := (fun a => u a 0, _, _)) (r := r)
        (r' := vnormalsNext env d (vnormalsNext env d q1))).2 ⟨u, q1, hu, rfl, rfl, rfl, rfl⟩
      obtain ⟨l, r', hl'⟩ := ih (i+1) _ (vnormalsNext env d (vnormalsNext env d q1)) (by omega) (by omega)
      exact ⟨_, r', by rw [chain, RandM.bind_ok]; exact ⟨_, _, hs, by
        rw [RandM.bind_ok]; exact ⟨l, r', hl', rfl⟩⟩⟩
  obtain ⟨l, r', hl⟩ := key grid.dropLast.tail 1 (fun _ => lit 0 1, y0, y0) r le_rfl
    (by rw [List.length_tail, List.length_dropLast]; omega)
  rw [phaseLoop_eq env o grid f g h y0 hk hkb]
  exact ⟨_, r', RandM.bind_ok.2 ⟨l, r', hl, rfl⟩⟩

end DPFC
