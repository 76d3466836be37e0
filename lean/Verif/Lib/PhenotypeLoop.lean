import Verif.Lib.PhenotypeReal
import Verif.Lib.PhenotypeModel
import Verif.Lib.GridReal

/-! The closed loop of the phenotype-differentiation example. -/

namespace DPFC
section
variable {K ρ : Type} [Add K] [Sub K] [Mul K] [Div K] [Neg K] [NumOps K]
variable {N M : Nat}

theorem setCol_nat {α : Type} (l : List α) {i : Nat} (h : i < l.length) (v : α) :
    setCol l (i : Int) v = .ok (l.set i v) := by
  unfold setCol pyIdx
  rw [if_pos (by omega), if_pos (by omega)]
  simp

/-- The control of step `ti`. -/
def phenoCtl (ctl : Mat 2 1 K → Int → RandM ρ (Mat 2 1 K)) (lin : (Fin 2 → K) → Int → Except PyErr (Fin 2 → K)) (kb : Nat)
    (x : Fin 2 → K) (ti : Nat) : RandM ρ (Fin 2 → K) :=
  if kb ≤ ti + 4 then (lin x ((kb - ti : Nat) : Int) : Except PyErr (Fin 2 → K))
  else do
    let u ← ctl (fun a _ => x a) ti
    pure fun a => u a 0

/-- Control, controlled and uncontrolled state after one step. -/
def phenoLoopStep (env : Env ρ K) (C : (Fin 2 → K) → Nat → RandM ρ (Fin 2 → K)) (f : (Fin 2 → K) → Fin 2 → K) (g : K)
    (ti : Nat) (_tt : K) (s : (Fin 2 → K) × (Fin 2 → K) × (Fin 2 → K)) :
    RandM ρ ((Fin 2 → K) × (Fin 2 → K) × (Fin 2 → K)) := do
  let u ← C s.2.1 ti
  let xi ← normalVec env (NumOps.sqrt dtc) 2
  let eta ← normalVec env (NumOps.sqrt dtc) 2
  pure (u, fun a => s.2.1 a + dtc * f s.2.1 a + dtc * sq g * u a + g * xi a, fun a => s.2.2 a + dtc * f s.2.2 a + g * eta a)

theorem phenoLoopBody_step (env : Env ρ K) (ctl : Mat 2 1 K → Int → RandM ρ (Mat 2 1 K))
    (lin : (Fin 2 → K) → Int → Except PyErr (Fin 2 → K)) (kb : Nat) (f : (Fin 2 → K) → Fin 2 → K) (g : K) (y0 : Fin 2 → K)
    (ti : Nat) (tt : K) (F G U : List (Fin 2 → K)) (x y u : Fin 2 → K) (h1 : 1 ≤ ti) (hkb : ti ≤ kb) (hF : ti < F.length)
    (hG : ti < G.length) (hU : ti < U.length) (hx : F[ti-1]? = some x) (hy : G[ti-1]? = some y) :
    phenoLoopBody env ctl lin kb f g y0 ti tt ⟨F, G, U⟩ = (do
      let p ← phenoLoopStep env (phenoCtl ctl lin kb) f g ti tt (u, x, y)
      pure ⟨F.set ti p.2.1, G.set ti p.2.2, U.set ti p.1⟩) := by
  have e : ((ti : Int) - 1) = ((ti - 1 : ℕ) : Int) := by omega
  have gx : pyGet F ((ti : Int) - 1) = .ok x := by rw [e]; exact pyGet_of_getElem? hx
  have gy : pyGet G ((ti : Int) - 1) = .ok y := by rw [e]; exact pyGet_of_getElem? hy
  have ek : (kb : Int) - ti = ((kb - ti : ℕ) : Int) := by omega
  unfold phenoLoopBody phenoLoopStep phenoCtl
  rw [if_neg (by omega)]
  simp only [gx, gy, setCol_nat F hF, setCol_nat G hG, setCol_nat U hU, RandM.liftM_ok, pure_bind, bind_assoc, ek]
  by_cases hc : kb ≤ ti + 4
  · rw [if_pos (by omega), if_pos hc]
  · rw [if_neg (by omega), if_neg hc]
    simp only [bind_assoc, pure_bind]

theorem phenoLoop_chain (env : Env ρ K) (ctl : Mat 2 1 K → Int → RandM ρ (Mat 2 1 K))
    (lin : (Fin 2 → K) → Int → Except PyErr (Fin 2 → K)) (kb : Nat)
    (f : (Fin 2 → K) → Fin 2 → K) (g : K) (y0 : Fin 2 → K) : ∀ (ts : List K) (ti : Nat) (F G U : List (Fin 2 → K))
    (x y u : Fin 2 → K), 1 ≤ ti → ti + ts.length ≤ kb →
    F.length = ti + ts.length → G.length = ti + ts.length → U.length = ti + ts.length →
    F[ti-1]? = some x → G[ti-1]? = some y →
    enumLoop (phenoLoopBody env ctl lin kb f g y0) ti ts ⟨F, G, U⟩ = (do
      let l ← chain (phenoLoopStep env (phenoCtl ctl lin kb) f g) ti ts (u, x, y)
      pure ⟨F.take ti ++ l.map (·.2.1), G.take ti ++ l.map (·.2.2), U.take ti ++ l.map (·.1)⟩) := by
  intro ts
  induction ts with
  | nil =>
    intro ti F G U x y u h1 hkb hF hG hU hx hy
    simp only [List.length_nil, Nat.add_zero] at hF hG hU
    simp only [enumLoop, chain, pure_bind, List.map_nil, List.append_nil, ← hF, List.take_length]
    rw [hF, ← hG, List.take_length, hG, ← hU, List.take_length]
  | cons tt ts ih =>
    intro ti F G U x y u h1 hkb hF hG hU hx hy
    simp only [List.length_cons] at hF hG hU hkb
    simp only [enumLoop, chain, phenoLoopBody_step env ctl lin kb f g y0 ti tt F G U x y u h1 (by omega) (by omega)
      (by omega) (by omega) hx hy, bind_assoc, pure_bind]
    congr 1; funext p
    rw [ih (ti+1) (F.set ti p.2.1) (G.set ti p.2.2) (U.set ti p.1) p.2.1 p.2.2 p.1 (by omega) (by omega)
      (by simp; omega) (by simp; omega) (by simp; omega)
      (by simp [show ti < F.length by omega]) (by simp [show ti < G.length by omega])]
    congr 1; funext l
    congr 1
    have take_set : ∀ {α : Type} (T : List α) (q : α), ti < T.length →
        (T.set ti q).take (ti + 1) = T.take ti ++ [q] := by
      intro α T q hT
      rw [List.take_add_one, List.getElem?_set, List.take_set_of_le (Nat.le_refl _)]
      simp [hT]
    rw [take_set F _ (by omega), take_set G _ (by omega), take_set U _ (by omega)]
    simp only [List.map_cons, List.append_assoc, List.singleton_append]

/-- The closed loop on a nonempty grid. -/
theorem phenoLoop_eq (env : Env ρ K) (o : PhenoObj 2 N K) (lin : (Fin 2 → K) → Int → Except PyErr (Fin 2 → K))
    (f : (Fin 2 → K) → Fin 2 → K) (g : K) (y0 : Fin 2 → K) (hk : 1 ≤ o.timegrid.length) :
    phenoLoop env M o lin f g y0 = (do
      let l ← chain (phenoLoopStep env (phenoCtl (phenoU env M o) lin o.timegrid.length) f g) 1 o.timegrid.tail
        (fun _ => lit 0 1, y0, y0)
      pure ⟨y0 :: l.map (·.2.1), y0 :: l.map (·.2.2), (fun _ => lit 0 1) :: l.map (·.1)⟩) := by
  unfold phenoLoop
  generalize hkb : o.timegrid.length = kb at hk ⊢
  rcases hts : o.timegrid with _ | ⟨t0, ts⟩
  · rw [hts] at hkb; simp at hkb; omega
  rw [hts, List.length_cons] at hkb
  simp only [enumLoop, List.tail_cons]
  have h0 : ∀ s : PhenoPaths K, 0 < s.cont.length → 0 < s.free.length →
      phenoLoopBody env (phenoU env M o) lin kb f g y0 0 t0 s
        = pure { s with cont := s.cont.set 0 y0, free := s.free.set 0 y0 } := by
    intro s h1 h2
    unfold phenoLoopBody
    rw [if_pos rfl]
    simp only [setCol_nat _ h1, setCol_nat _ h2, RandM.liftM_ok, pure_bind]
  have hk' : 0 < kb := by omega
  rw [h0 _ (by simpa using hk') (by simpa using hk'), pure_bind,
    phenoLoop_chain env (phenoU env M o) lin kb f g y0 ts 1 _ _ _ y0 y0 (fun _ => lit 0 1) le_rfl (by omega)
      (by simp; omega) (by simp; omega) (by simp; omega) (by simp [hk']) (by simp [hk'])]
  congr 1; funext l
  congr 1
  obtain ⟨m, rfl⟩ : ∃ m, kb = m + 1 := ⟨kb - 1, by omega⟩
  simp [List.replicate_succ]

end

open Spec
variable {ρ : Type} {N M : ℕ}

theorem phenoLoopStep_ok {env : Env ρ ℝ} {C : (Fin 2 → ℝ) → ℕ → RandM ρ (Fin 2 → ℝ)}
    {f : (Fin 2 → ℝ) → Fin 2 → ℝ} {g : ℝ} {ti : ℕ} {t : ℝ} {p q : (Fin 2 → ℝ) × (Fin 2 → ℝ) × (Fin 2 → ℝ)} {r r' : ρ} :
    phenoLoopStep env C f g ti t p r = .ok (q, r') ↔ ∃ u q1, C p.2.1 ti r = .ok (u, q1) ∧
      q.1 = u ∧ q.2.1 = phenoEM f g p.2.1 u (vnormals env 2 q1) ∧
      q.2.2 = phenoEM f g p.2.2 (fun _ => 0) (vnormals env 2 (vnormalsNext env 2 q1)) ∧
      r' = vnormalsNext env 2 (vnormalsNext env 2 q1) := by
  have e1 : ∀ (x u ξ : Fin 2 → ℝ), (fun a => x a + (1/1000) * f x a + (1/1000) * sq g * u a
      + g * (Real.sqrt (1/1000) * ξ a)) = phenoEM f g x u ξ := by
    intro x u ξ
    funext a
    unfold phenoEM
    rw [real_sq]; ring
  have e2 : ∀ (x ξ : Fin 2 → ℝ), (fun a => x a + (1/1000) * f x a + g * (Real.sqrt (1/1000) * ξ a))
      = phenoEM f g x (fun _ => 0) ξ := by
    intro x ξ
    funext a
    unfold phenoEM
    ring
  unfold phenoLoopStep
  simp only [RandM.bind_ok, RandM.pure_ok, normalVec_real, real_sqrt, dtc_real]
  constructor
  · rintro ⟨u, q1, h1, x', q2, h2, y', q3, h3, rfl, rfl⟩
    cases h2; cases h3
    exact ⟨u, q1, h1, rfl, e1 _ _ _, e2 _ _, rfl⟩
  · rintro ⟨u, q1, h1, h2, h3, h4, rfl⟩
    refine ⟨u, q1, h1, _, _, rfl, _, _, rfl, ?_, rfl⟩
    rw [e1 p.2.1 u, e2, ← h3, ← h4, ← h2]

theorem phenoLoop_run (env : Env ρ ℝ) (o : PhenoObj 2 N ℝ) (lin : (Fin 2 → ℝ) → Int → Except PyErr (Fin 2 → ℝ))
    (f : (Fin 2 → ℝ) → Fin 2 → ℝ) (g : ℝ) (y0 : Fin 2 → ℝ) (hk : 1 ≤ o.timegrid.length) (r r' : ρ) (s : PhenoPaths ℝ)
    (hs : phenoLoop env M o lin f g y0 r = .ok (s, r')) :
    ∃ rs : ℕ → ρ, rs 1 = r ∧ rs o.timegrid.length = r' ∧
      PhenoRun env (phenoCtl (phenoU env M o) lin o.timegrid.length) f g y0 o.timegrid.length s.cont s.free s.used rs := by
  rw [phenoLoop_eq env o lin f g y0 hk, RandM.bind_ok] at hs
  obtain ⟨l, r1, hl, hs⟩ := hs
  rw [RandM.pure_ok] at hs
  obtain ⟨rfl, rfl⟩ := hs
  obtain ⟨hlen, rs, h0, h1, hstep⟩ := chain_ok_iff.1 hl
  rw [List.length_tail] at hlen h1
  refine ⟨fun i => rs (i - 1), by simpa using h0, h1, ?_⟩
  have hz : (lit 0 1 : ℝ) = 0 := real_lit_zero 1
  refine ⟨by simp [hlen]; omega, ⟨rfl, rfl, by simp only [hz]; rfl⟩, ?_⟩
  intro i x w hi hi' hx hw
  obtain ⟨j, rfl⟩ : ∃ j, i = j + 1 := ⟨i - 1, by omega⟩
  have hj : j < l.length := by omega
  obtain ⟨t, ht⟩ : ∃ t, o.timegrid.tail[j]? = some t := by
    rw [List.getElem?_eq_getElem (by rw [List.length_tail]; omega)]; exact ⟨_, rfl⟩
  obtain ⟨p, hp⟩ : ∃ p, (((fun _ => lit 0 1), y0, y0) :: l)[j]? = some p := by
    rw [List.getElem?_eq_getElem (by simp; omega)]; exact ⟨_, rfl⟩
  obtain ⟨q, hq⟩ : ∃ q, l[j]? = some q := by
    rw [List.getElem?_eq_getElem hj]; exact ⟨_, rfl⟩
  have hpre : ∀ (φ : (Fin 2 → ℝ) × (Fin 2 → ℝ) × (Fin 2 → ℝ) → (Fin 2 → ℝ)),
      φ ((fun _ => lit 0 1), y0, y0) = y0 → (y0 :: l.map φ)[j]? = some (φ p) := by
    intro φ hφ
    have : y0 :: l.map φ = (((fun _ => (lit 0 1 : ℝ)), y0, y0) :: l).map φ := by
      rw [List.map_cons, hφ]
    rw [this, List.getElem?_map, hp]
    rfl
  have hpost : ∀ {α : Type} (a : α) (φ : (Fin 2 → ℝ) × (Fin 2 → ℝ) × (Fin 2 → ℝ) → α),
      (a :: l.map φ)[j+1]? = some (φ q) := by
    intro α a φ
    rw [List.getElem?_cons_succ, List.getElem?_map, hq]
    rfl
  have hpx : p.2.1 = x := by
    simp only [Nat.add_sub_cancel] at hx
    rw [hpre (·.2.1) rfl] at hx
    exact Option.some.inj hx
  have hpw : p.2.2 = w := by
    simp only [Nat.add_sub_cancel] at hw
    rw [hpre (·.2.2) rfl] at hw
    exact Option.some.inj hw
  have := hstep j t p q ht hp (by rw [List.getElem?_cons_succ]; exact hq)
  obtain ⟨u, q1, e1, e2, e3, e4, e5⟩ := phenoLoopStep_ok.1 this
  rw [hpx] at e1 e3
  rw [hpw] at e4
  refine ⟨u, q1, ?_, ?_, ?_, ?_, ?_⟩
  · rw [Nat.add_sub_cancel, ← e1, Nat.add_comm j 1]
  · rw [hpost, e2]
  · rw [hpost, e3]
  · rw [hpost, e4]
  · rw [Nat.add_sub_cancel]; exact e5

theorem phenoLoop_total (env : Env ρ ℝ) (o : PhenoObj 2 N ℝ) (lin : (Fin 2 → ℝ) → Int → Except PyErr (Fin 2 → ℝ))
    (f : (Fin 2 → ℝ) → Fin 2 → ℝ) (g : ℝ) (y0 : Fin 2 → ℝ) (hk : 1 ≤ o.timegrid.length)
    (hq : ∀ (i : ℕ) (x : Fin 2 → ℝ) (q : ρ), 1 ≤ i → i < o.timegrid.length →
      ∃ u q', phenoCtl (phenoU env M o) lin o.timegrid.length x i q = .ok (u, q')) (r : ρ) :
    ∃ s r', phenoLoop env M o lin f g y0 r = .ok (s, r') := by
  have key : ∀ (ts : List ℝ) (i : ℕ) (p : (Fin 2 → ℝ) × (Fin 2 → ℝ) × (Fin 2 → ℝ)) (r : ρ), 1 ≤ i →
      i + ts.length ≤ o.timegrid.length →
      ∃ l r', chain (phenoLoopStep env (phenoCtl (phenoU env M o) lin o.timegrid.length) f g) i ts p r = .ok (l, r') := by
    intro ts
    induction ts with
    | nil => intro i p r _ _; exact ⟨[], r, rfl⟩
    | cons t ts ih =>
      intro i p r hi hl
      rw [List.length_cons] at hl
      obtain ⟨u, q1, hu⟩ := hq i p.2.1 r hi (by omega)
      have hs := (phenoLoopStep_ok (env := env) (f := f) (g := g) (ti := i) (t := t)
        (p := p) (q := (u, _, _)) (r := r)
        (r' := vnormalsNext env 2 (vnormalsNext env 2 q1))).2 ⟨u, q1, hu, rfl, rfl, rfl, rfl⟩
      obtain ⟨l, r', hl'⟩ := ih (i+1) _ (vnormalsNext env 2 (vnormalsNext env 2 q1)) (by omega) (by omega)
      exact ⟨_, r', by rw [chain, RandM.bind_ok]; exact ⟨_, _, hs, by
        rw [RandM.bind_ok]; exact ⟨l, r', hl', rfl⟩⟩⟩
  obtain ⟨l, r', hl⟩ := key o.timegrid.tail 1 (fun _ => lit 0 1, y0, y0) r le_rfl
    (by rw [List.length_tail]; omega)
  rw [phenoLoop_eq env o lin f g y0 hk]
  exact ⟨_, r', RandM.bind_ok.2 ⟨l, r', hl, rfl⟩⟩

theorem phenoOuterGrid_length (t1 t2 : ℝ) : (phenoOuterGrid t1 t2).length = ⌈(t2 - t1) * 1000 + 1⌉₊ := by
  unfold phenoOuterGrid npArange
  rw [List.length_map, List.length_range, real_lit_milli, real_lit_zero]
  have : (t2 - t1 + 1/1000 - 0) / (1/1000 : ℝ) = (t2 - t1) * 1000 + 1 := by ring
  rw [this]
  rfl

end DPFC
