import Verif.Model.Loop
import Verif.Lib.Flow
import Verif.Lib.Obj

/-! The closed loop as a chain of steps. -/

namespace DPFC
section
variable {K ρ : Type} [Add K] [Sub K] [Mul K] [Div K] [Neg K] [NumOps K]
variable {N M d n : Nat}

/-- Control, controlled and uncontrolled ensemble after one step. -/
def loopStep (env : Env ρ K) (ctl : Mat n d K → Int → RandM ρ (Mat d n K)) (f : Mat d n K → Mat d n K) (g : K)
    (ti : Nat) (_tt : K) (s : Mat d n K × Mat d n K × Mat d n K) :
    RandM ρ (Mat d n K × Mat d n K × Mat d n K) := do
  let uu ← ctl (tr s.2.1) ti
  let x' ← contStep env f g s.2.1 uu
  let y' ← freeStep env f g s.2.2
  pure (uu, x', y')

theorem loopBody_step (env : Env ρ K) (ctl : Mat n d K → Int → RandM ρ (Mat d n K)) (f : Mat d n K → Mat d n K)
    (g : K) (y1 : Fin d → K) (ti : Nat) (tt : K) (F G U : Traj d n K) (x y u : Mat d n K) (h1 : 1 ≤ ti)
    (hF : ti < F.length) (hG : ti < G.length) (hU : ti < U.length) (hx : F[ti-1]? = some x)
    (hy : G[ti-1]? = some y) :
    loopBody env ctl f g y1 ti tt ⟨F, G, U⟩ = (do
      let p ← loopStep env ctl f g ti tt (u, x, y)
      pure ⟨F.set ti p.2.1, G.set ti p.2.2, U.set ti p.1⟩) := by
  have e : ((ti : Int) - 1) = ((ti - 1 : ℕ) : Int) := by omega
  have gx : pyGet F ((ti : Int) - 1) = .ok x := by
    rw [e, pyGet_nat F (by omega)]
    rw [List.getElem?_eq_getElem (by omega)] at hx
    rw [Option.some.inj hx]
  have gy : pyGet G ((ti : Int) - 1) = .ok y := by
    rw [e, pyGet_nat G (by omega)]
    rw [List.getElem?_eq_getElem (by omega)] at hy
    rw [Option.some.inj hy]
  unfold loopBody loopStep
  rw [if_neg (by omega)]
  simp only [gx, gy, setSlice_nat F hF, setSlice_nat G hG, setSlice_nat U hU, RandM.liftM_ok, pure_bind, bind_assoc]

theorem loop_chain (env : Env ρ K) (ctl : Mat n d K → Int → RandM ρ (Mat d n K)) (f : Mat d n K → Mat d n K)
    (g : K) (y1 : Fin d → K) : ∀ (ts : List K) (ti : Nat) (F G U : Traj d n K) (x y u : Mat d n K), 1 ≤ ti →
    F.length = ti + ts.length → G.length = ti + ts.length → U.length = ti + ts.length + 1 →
    F[ti-1]? = some x → G[ti-1]? = some y →
    enumLoop (loopBody env ctl f g y1) ti ts ⟨F, G, U⟩ = (do
      let l ← chain (loopStep env ctl f g) ti ts (u, x, y)
      pure ⟨F.take ti ++ l.map (·.2.1), G.take ti ++ l.map (·.2.2),
        U.take ti ++ l.map (·.1) ++ U.drop (ti + ts.length)⟩) := by
  intro ts
  induction ts with
  | nil =>
    intro ti F G U x y u h1 hF hG hU hx hy
    simp only [enumLoop, chain, pure_bind, List.map_nil, List.append_nil, List.length_nil, Nat.add_zero,
      List.take_append_drop]
    rw [List.take_of_length_le (by simpa using hF.le), List.take_of_length_le (by simpa using hG.le)]
  | cons tt ts ih =>
    intro ti F G U x y u h1 hF hG hU hx hy
    simp only [List.length_cons] at hF hG hU
    simp only [enumLoop, chain, loopBody_step env ctl f g y1 ti tt F G U x y u h1 (by omega) (by omega) (by omega)
      hx hy, bind_assoc, pure_bind]
    congr 1; funext p
    rw [ih (ti+1) (F.set ti p.2.1) (G.set ti p.2.2) (U.set ti p.1) p.2.1 p.2.2 p.1 (by omega)
      (by simp; omega) (by simp; omega) (by simp; omega) (by simp [show ti < F.length by omega])
      (by simp [show ti < G.length by omega])]
    congr 1; funext l
    congr 1
    have take_set : ∀ (T : Traj d n K) (q : Mat d n K), ti < T.length →
        (T.set ti q).take (ti + 1) = T.take ti ++ [q] := by
      intro T q hT
      rw [List.take_add_one, List.getElem?_set, List.take_set_of_le (Nat.le_refl _)]
      simp [hT]
    rw [take_set F _ (by omega), take_set G _ (by omega), take_set U _ (by omega),
      List.drop_set_of_lt (by omega)]
    simp only [List.map_cons, List.append_assoc, List.singleton_append, List.length_cons,
      show ti + 1 + ts.length = ti + (ts.length + 1) by omega, List.cons_append, List.nil_append]

/-- The closed loop on a grid of at least two points. -/
theorem closedLoop_eq (env : Env ρ K) (o : Obj d N M K) (f : Mat d n K → Mat d n K) (g : K) (y1 : Fin d → K)
    (hk : 2 ≤ o.timegrid.length) :
    closedLoop env o f g y1 = (do
      let l ← chain (loopStep env (calculateU env o) f g) 1 o.timegrid.dropLast.tail
        (pt n fun _ => lit 0 1, pt n y1, pt n y1)
      pure ⟨pt n y1 :: l.map (·.2.1), pt n y1 :: l.map (·.2.2),
        (pt n fun _ => lit 0 1) :: (l.map (·.1) ++ [pt n fun _ => lit 0 1])⟩) := by
  obtain ⟨m, hm⟩ : ∃ m, o.timegrid.length = m + 2 := ⟨o.timegrid.length - 2, by omega⟩
  have hd : o.timegrid.dropLast.length = m + 1 := by rw [List.length_dropLast, hm]; rfl
  unfold closedLoop
  rw [hm]
  rcases hts : o.timegrid.dropLast with _ | ⟨t0, ts⟩
  · rw [hts] at hd; simp at hd
  rw [hts] at hd
  have hts' : ts.length = m := by simpa using hd
  simp only [enumLoop, List.tail_cons]
  have h0 : loopBody env (calculateU env o) f g y1 0 t0 ⟨zerosT d n (m + 2 - 1), zerosT d n (m + 2 - 1),
      zerosT d n (m + 2)⟩ = pure ⟨(zerosT d n (m + 1)).set 0 (pt n y1), (zerosT d n (m + 1)).set 0 (pt n y1),
        zerosT d n (m + 2)⟩ := by
    unfold loopBody
    rw [if_pos rfl, show m + 2 - 1 = m + 1 by omega]
    have := setSlice_nat (zerosT d n (m + 1) : Traj d n K) (i := 0) (by simp [zerosT]) (pt n y1)
    rw [show (fun a (_ : Fin n) => y1 a) = pt n y1 from rfl]
    simp only [this, RandM.liftM_ok, pure_bind]
  rw [h0, pure_bind, loop_chain env (calculateU env o) f g y1 ts 1 _ _ _ (pt n y1) (pt n y1)
    (pt n fun _ => lit 0 1) le_rfl (by simp [zerosT, hts']; omega) (by simp [zerosT, hts']; omega)
    (by simp [zerosT, hts']; omega) (by simp [zerosT]) (by simp [zerosT])]
  congr 1; funext l
  congr 1
  simp only [zerosT, List.replicate_succ, List.set_cons_zero, List.take_succ_cons, List.take_zero,
    List.cons_append, List.nil_append, hts']
  have : List.drop (1 + m) (List.replicate (m + 2) (fun (_ : Fin d) (_ : Fin n) => (lit 0 1 : K)))
      = [fun _ _ => lit 0 1] := by
    rw [List.drop_replicate, show m + 2 - (1 + m) = 1 by omega]; rfl
  simp only [List.replicate_succ] at this
  rw [this]
  rfl

end
end DPFC
