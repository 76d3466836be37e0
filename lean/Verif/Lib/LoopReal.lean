import Verif.Lib.Loop
import Verif.Lib.FlowReal
import Verif.Lib.QueryEquiv
import Verif.Spec.Loop

/-! The closed loop in exact arithmetic. -/

namespace DPFC
open Spec

section
variable {ρ : Type} {N M d n : ℕ}

theorem contStep_real (env : Env ρ ℝ) (f : Mat d n ℝ → Mat d n ℝ) (g : ℝ) (x u : Mat d n ℝ) (r : ρ) :
    contStep env f g x u r = .ok (controlledStep f g x u (normals env d n r), normalsNext env d n r) := by
  unfold contStep controlledStep
  rw [RandM.bind_app, normalMat_real]
  simp only [RandM.pure_app, dtc_real, real_sqrt, real_sq]
  congr 2
  funext a j
  ring

theorem freeStep_real (env : Env ρ ℝ) (f : Mat d n ℝ → Mat d n ℝ) (g : ℝ) (x : Mat d n ℝ) (r : ρ) :
    freeStep env f g x r = .ok (controlledStep f g x (fun _ _ => 0) (normals env d n r), normalsNext env d n r) := by
  unfold freeStep controlledStep
  rw [RandM.bind_app, normalMat_real]
  simp only [RandM.pure_app, dtc_real, real_sqrt]
  congr 2
  funext a j
  ring

theorem loopStep_ok {env : Env ρ ℝ} {ctl : Mat n d ℝ → Int → RandM ρ (Mat d n ℝ)} {f : Mat d n ℝ → Mat d n ℝ}
    {g : ℝ} {ti : ℕ} {t : ℝ} {p q : Mat d n ℝ × Mat d n ℝ × Mat d n ℝ} {r r' : ρ} :
    loopStep env ctl f g ti t p r = .ok (q, r') ↔ ∃ q1, ctl (tr p.2.1) ti r = .ok (q.1, q1) ∧
      q.2.1 = controlledStep f g p.2.1 q.1 (normals env d n q1) ∧
      q.2.2 = controlledStep f g p.2.2 (fun _ _ => 0) (normals env d n (normalsNext env d n q1)) ∧
      r' = normalsNext env d n (normalsNext env d n q1) := by
  unfold loopStep
  simp only [RandM.bind_ok, RandM.pure_ok, contStep_real, freeStep_real]
  constructor
  · rintro ⟨u, q1, h1, x', q2, h2, y', q3, h3, rfl, rfl⟩
    cases h2; cases h3
    exact ⟨q1, h1, rfl, rfl, rfl⟩
  · rintro ⟨q1, h1, h2, h3, rfl⟩
    exact ⟨q.1, q1, h1, _, _, rfl, _, _, rfl, by rw [← h2, ← h3], rfl⟩

theorem closedLoop_run (env : Env ρ ℝ) (o : Obj d N M ℝ) (f : Mat d n ℝ → Mat d n ℝ) (g : ℝ) (y1 : Fin d → ℝ)
    (hk : 2 ≤ o.timegrid.length) (r r' : ρ) (s : Paths d n ℝ) (h : closedLoop env o f g y1 r = .ok (s, r')) :
    ∃ rs : ℕ → ρ, rs 1 = r ∧ rs (o.timegrid.length - 1) = r' ∧
      LoopRun env (fun x i => calculateU env o x i) f g y1 o.timegrid.length s.cont s.free s.used rs := by
  rw [closedLoop_eq env o f g y1 hk, RandM.bind_ok] at h
  obtain ⟨l, r1, hl, h⟩ := h
  rw [RandM.pure_ok] at h
  obtain ⟨rfl, rfl⟩ := h
  obtain ⟨hlen, rs, h0, h1, hstep⟩ := chain_ok_iff.1 hl
  have hts : o.timegrid.dropLast.tail.length = o.timegrid.length - 2 := by
    rw [List.length_tail, List.length_dropLast]; omega
  rw [hts] at hlen h1
  refine ⟨fun i => rs (i - 1), by simpa using h0, by
    show rs (o.timegrid.length - 1 - 1) = r1
    rw [← h1, Nat.sub_sub], ?_⟩
  have hz : (lit 0 1 : ℝ) = 0 := real_lit_zero 1
  refine ⟨by simp [hlen]; omega, by simp [hlen]; omega, by simp [hlen]; omega, rfl, rfl, ?_, ?_, ?_⟩
  · show some (fun _ _ => (lit 0 1 : ℝ)) = some fun _ _ => 0
    rw [hz]
  · obtain ⟨m, hm⟩ : ∃ m, o.timegrid.length = m + 2 := ⟨_, (Nat.sub_add_cancel hk).symm⟩
    rw [hm] at hlen ⊢
    have : m = (l.map (·.1)).length := by simpa using hlen.symm
    rw [show m + 2 - 1 = m + 1 by omega, List.getElem?_cons_succ]
    conv_lhs => rw [this]
    rw [List.getElem?_append_right le_rfl, Nat.sub_self]
    show some (fun _ _ => (lit 0 1 : ℝ)) = some fun _ _ => 0
    rw [hz]
  · intro i x w hi hi' hx hw
    obtain ⟨j, rfl⟩ : ∃ j, i = j + 1 := ⟨i - 1, by omega⟩
    have hj : j < l.length := by omega
    obtain ⟨t, ht⟩ : ∃ t, o.timegrid.dropLast.tail[j]? = some t := by
      rw [List.getElem?_eq_getElem (by omega)]; exact ⟨_, rfl⟩
    obtain ⟨p, hp⟩ : ∃ p, (((pt n fun _ => lit 0 1), pt n y1, pt n y1) :: l)[j]? = some p := by
      rw [List.getElem?_eq_getElem (by simp; omega)]; exact ⟨_, rfl⟩
    obtain ⟨q, hq⟩ : ∃ q, l[j]? = some q := by
      rw [List.getElem?_eq_getElem hj]; exact ⟨_, rfl⟩
    have hpx : p.2.1 = x := by
      simp only [Nat.add_sub_cancel] at hx
      have : (pt n y1 :: l.map (·.2.1)) = (((pt n fun _ => (lit 0 1 : ℝ)), pt n y1, pt n y1) :: l).map (·.2.1) := rfl
      rw [this, List.getElem?_map, hp] at hx
      exact Option.some.inj hx
    have hpw : p.2.2 = w := by
      simp only [Nat.add_sub_cancel] at hw
      have : (pt n y1 :: l.map (·.2.2)) = (((pt n fun _ => (lit 0 1 : ℝ)), pt n y1, pt n y1) :: l).map (·.2.2) := rfl
      rw [this, List.getElem?_map, hp] at hw
      exact Option.some.inj hw
    have := hstep j t p q ht hp (by rw [List.getElem?_cons_succ]; exact hq)
    obtain ⟨q1, e1, e2, e3, e4⟩ := loopStep_ok.1 this
    rw [hpx] at e1 e2
    rw [hpw] at e3
    refine ⟨q.1, q1, ?_, ?_, ?_, ?_, ?_⟩
    · rw [Nat.add_sub_cancel, ← e1, Nat.add_comm j 1]; rfl
    · rw [List.getElem?_cons_succ, List.getElem?_append_left (by simpa using hj), List.getElem?_map, hq]; rfl
    · rw [List.getElem?_cons_succ, List.getElem?_map, hq, ← e2]; rfl
    · rw [List.getElem?_cons_succ, List.getElem?_map, hq, ← e3]; rfl
    · rw [Nat.add_sub_cancel]; exact e4

/-- The loop returns if no query raises. -/
theorem closedLoop_total (env : Env ρ ℝ) (o : Obj d N M ℝ) (f : Mat d n ℝ → Mat d n ℝ) (g : ℝ) (y1 : Fin d → ℝ)
    (hk : 2 ≤ o.timegrid.length)
    (hq : ∀ (i : ℕ) (x : Mat n d ℝ) (q : ρ), 1 ≤ i → i < o.timegrid.length - 1 →
      ∃ u q', calculateU env o x i q = .ok (u, q')) (r : ρ) :
    ∃ s r', closedLoop env o f g y1 r = .ok (s, r') := by
  have key : ∀ (ts : List ℝ) (i : ℕ) (p : Mat d n ℝ × Mat d n ℝ × Mat d n ℝ) (r : ρ), 1 ≤ i →
      i + ts.length ≤ o.timegrid.length - 1 →
      ∃ l r', chain (loopStep env (calculateU env o) f g) i ts p r = .ok (l, r') := by
    intro ts
    induction ts with
    | nil => intro i p r _ _; exact ⟨[], r, rfl⟩
    | cons t ts ih =>
      intro i p r hi hl
      rw [List.length_cons] at hl
      obtain ⟨u, q1, hu⟩ := hq i (tr p.2.1) r hi (by omega)
      have hs := (loopStep_ok (env := env) (ctl := calculateU env o) (f := f) (g := g) (ti := i) (t := t) (p := p)
        (q := (u, controlledStep f g p.2.1 u (normals env d n q1),
          controlledStep f g p.2.2 (fun _ _ => 0) (normals env d n (normalsNext env d n q1)))) (r := r)
        (r' := normalsNext env d n (normalsNext env d n q1))).2 ⟨q1, hu, rfl, rfl, rfl⟩
      obtain ⟨l, r', hl'⟩ := ih (i+1) _ (normalsNext env d n (normalsNext env d n q1)) (by omega) (by omega)
      exact ⟨_, r', by rw [chain, RandM.bind_ok]; exact ⟨_, _, hs, by
        rw [RandM.bind_ok]; exact ⟨l, r', hl', rfl⟩⟩⟩
  obtain ⟨l, r', hl⟩ := key o.timegrid.dropLast.tail 1 (pt n fun _ => lit 0 1, pt n y1, pt n y1) r le_rfl
    (by rw [List.length_tail, List.length_dropLast]; omega)
  rw [closedLoop_eq env o f g y1 hk]
  exact ⟨_, r', RandM.bind_ok.2 ⟨l, r', hl, rfl⟩⟩

end

section
variable {K ρ : Type} [Add K] [Sub K] [Mul K] [Div K] [Neg K] [NumOps K]
variable {N M d n : Nat}

/-- The steps do not look at the time. -/
theorem loopStep_times (env : Env ρ K) (ctl : Mat n d K → Int → RandM ρ (Mat d n K)) (f : Mat d n K → Mat d n K)
    (g : K) : ∀ (ts ts' : List K) (i : ℕ) (p : Mat d n K × Mat d n K × Mat d n K), ts'.length = ts.length →
    chain (loopStep env ctl f g) i ts' p = chain (loopStep env ctl f g) i ts p
  | [], [], _, _, _ => rfl
  | t :: ts, t' :: ts', i, p, h => by
    have : loopStep env ctl f g i t' p = loopStep env ctl f g i t p := rfl
    simp only [chain, this, loopStep_times env ctl f g ts ts' (i+1) _ (by simpa using h)]
  | [], _ :: _, _, _, h => by simp at h
  | _ :: _, [], _, _, h => by simp at h

/-- The loop only queries the indices `1, ..., k-2`. -/
theorem closedLoop_congr (env : Env ρ K) (o o' : Obj d N M K) (f : Mat d n K → Mat d n K) (g : K) (y1 : Fin d → K)
    (hk : 2 ≤ o.timegrid.length) (ht : o'.timegrid.length = o.timegrid.length)
    (hq : ∀ (i : ℕ) (x : Mat n d K), 1 ≤ i → i < o.timegrid.length - 1 →
      calculateU env o' x i = calculateU env o x i) :
    closedLoop env o' f g y1 = closedLoop env o f g y1 := by
  rw [closedLoop_eq env o f g y1 hk, closedLoop_eq env o' f g y1 (by rw [ht]; exact hk),
    loopStep_times env (calculateU env o') f g o.timegrid.dropLast.tail o'.timegrid.dropLast.tail _ _
      (by simp [ht])]
  have key : ∀ (ts : List K) (i : ℕ) (p : Mat d n K × Mat d n K × Mat d n K), 1 ≤ i →
      i + ts.length ≤ o.timegrid.length - 1 →
      chain (loopStep env (calculateU env o') f g) i ts p = chain (loopStep env (calculateU env o) f g) i ts p := by
    intro ts
    induction ts with
    | nil => intro i p _ _; rfl
    | cons t ts ih =>
      intro i p hi hl
      rw [List.length_cons] at hl
      have : loopStep env (calculateU env o') f g i t p = loopStep env (calculateU env o) f g i t p := by
        unfold loopStep; rw [hq i _ hi (by omega)]
      simp only [chain, this, ih (i+1) _ (show 1 ≤ i + 1 by omega) (by omega)]
  rw [key _ 1 _ le_rfl (by rw [List.length_tail, List.length_dropLast]; omega)]

end
end DPFC
