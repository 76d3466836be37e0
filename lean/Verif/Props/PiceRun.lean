import Verif.Props.PiceFit

/-!
# C93: the whole path-integral run and the simulation with its result
-/

namespace DPFC
open Spec
variable {ρ : Type} {n m b : ℕ}

section
variable (env : Env ρ ℝ) (c : PicePars ℝ) (pinv : Mat (b+1) (b+1) ℝ → Mat (b+1) (b+1) ℝ) (grid : List ℝ)

/-- **C93** (final simulation). It always returns. The paths follow the Euler-Maruyama scheme of
`dX = f dt + g^2 u dt + g dW`, where `u` is the polynomial control of the given coefficients, evaluated at the left end of
each step and recorded at its right end. The fit simulates `f + g u`: the final simulation is that of the fit with
coefficients multiplied by `g`. -/
theorem C93_evaluation (hb : b ≤ 15) (hg : grid ≠ []) (A : ℕ → Fin 2 → Fin (b+1) → ℝ) (r : ρ) :
    ∃ (P : PicePaths m ℝ) (r' : ρ) (F V E : ℕ → Fin 2 → Fin m → ℝ) (rs : ℕ → ρ),
      piceEval env c m grid ((List.range grid.length).map A) r = .ok (P, r') ∧
      P.F = (List.range grid.length).map F ∧
      P.U = (List.range grid.length).map (fun i => if i = 0 then 0 else fun a j =>
        polyControl (A (i-1)) (fun e => F (i-1) e j) a) ∧
      F 0 = (fun a _ => c.x1 a) ∧ rs 0 = r ∧ rs (grid.length - 1) = r' ∧
      (∀ i, i + 1 < grid.length → F (i+1) = fun a j => F i a j + 1/1000 * (circuit c.p (fun e => F i e j) a
        + c.g^2 * polyControl (A i) (fun e => F i e j) a) + c.g * (Real.sqrt (1/1000) * normals env 2 m (rs i) a j)) ∧
      PiceSimulation env (circuit c.p) c.g c.x1 grid.length (fun i a l => c.g * A i a l) F V E rs := by
  have hk : 1 ≤ grid.length := List.length_pos_iff.2 hg
  have hpoly : ∀ (B : Fin 2 → Fin (b+1) → ℝ) x a, polyControl (fun a l => c.g * B a l) x a = c.g * polyControl B x a := by
    intro B x a
    unfold polyControl
    rw [Finset.mul_sum]
    exact Finset.sum_congr rfl fun l _ => by ring
  refine ⟨_, _, fun i => (simSeq env c A (c.g^2) m r i).1,
    fun i => if i + 1 < grid.length then fun a j =>
      polyControl (fun a l => c.g * A i a l) (fun e => (simSeq env c A (c.g^2) m r i).1 e j) a else 0,
    fun i => if i + 1 < grid.length then fun a j =>
      c.g * (Real.sqrt (1/1000) * normals env 2 m (simSeq env c A (c.g^2) m r i).2 a j) else 0,
    fun i => (simSeq env c A (c.g^2) m r i).2, piceEval_real env c A grid hk r, rfl, ?_, rfl, rfl, rfl, ?_, ?_⟩
  · refine arrT_congr fun i _ => ?_
    by_cases h : i = 0
    · rw [if_pos h, if_pos h]
    · rw [if_neg h, if_neg h, ufPice_poly hb]
  · intro i hi
    funext a j
    simp only [simSeq, ufPice_poly hb]
    ring
  · refine ⟨rfl, ?_, fun _ _ => rfl, ?_, ?_, ?_⟩
    · intro i hi; rw [if_pos hi]
    · intro i hi; rw [if_pos hi]
    · intro i hi
      simp only [if_pos hi]
      funext a j
      simp only [simSeq, ufPice_poly hb, hpoly]
      ring
    · rw [if_neg (by omega), if_neg (by omega)]
      exact ⟨rfl, rfl⟩

/-- **C93** (whole run). With `max_iter ≥ 2` and a nonempty grid the run always returns. The coefficients used at the end are
those with which the *last iteration was simulated*; the run ends either because that iteration stopped, or after
iteration `max_iter - 2`, and then the coefficients fitted in it are not used. The final simulation continues the random
stream. -/
theorem C93_run (hg : grid ≠ []) (hM : 2 ≤ c.maxIter) (r : ρ) :
    ∃ it s P r', piceRun env c pinv n m grid r = .ok ((it, s, P), r') ∧
      ∃ s0 q0 fl q1 A, PiceReach (n := n) env c pinv grid r it s0 q0 ∧ it + 1 < c.maxIter ∧
        piceIter env c pinv grid it s0 q0 = .ok ((fl, s), q1) ∧ (fl = false → it + 2 = c.maxIter) ∧
        s0.At[it]? = some A ∧ piceEval env c m grid A q1 = .ok (P, r') := by
  have hk : 1 ≤ grid.length := List.length_pos_iff.2 hg
  obtain ⟨it, s0, q0, fl, s, q1, h1, hR, hit, hlt, hend⟩ := piceLoop_run (n := n) env c pinv grid hk (c.maxIter - 2) 0 _ r
    (PiceReach.init (r := r)) (by omega)
  obtain ⟨A, Z, E, U, e1, e2, I⟩ := reach_inv env c pinv grid hk hR
  have hAt : s.At[it]? = some (arrT grid.length (A it)) := by
    have h := hit
    rw [piceIter_real env c pinv grid hk hlt I.toRep q0] at h
    simp only [Except.ok.injEq, Prod.mk.injEq] at h
    obtain ⟨h, -⟩ := h
    by_cases hC : Close c.x2 (itZ env c (A it) n q0 (grid.length - 1))
    · rw [if_pos hC] at h
      simp only [Prod.mk.injEq] at h
      rw [← h.2]
      show s0.At[it]? = _
      rw [I.At, arrT_get _ (by omega)]
    · rw [if_neg hC] at h
      simp only [Prod.mk.injEq] at h
      rw [← h.2]
      show (arrT c.maxIter _)[it]? = _
      rw [arrT_get _ (by omega), Function.update_of_ne (by omega)]
  obtain ⟨P, r', hP⟩ : ∃ P r', piceEval env c m grid (arrT grid.length (A it)) q1 = .ok (P, r') :=
    ⟨_, _, piceEval_real env c (A it) grid hk q1⟩
  refine ⟨it, s, P, r', ?_, s0, q0, fl, q1, arrT grid.length (A it), hR, hlt, hit, hend, ?_, hP⟩
  · unfold piceRun
    rw [RandM.bind_app, show c.maxIter - 1 = c.maxIter - 2 + 1 by omega, h1]
    simp only [pyGet_of_getElem? hAt, RandM.liftM_ok, pure_bind]
    rw [RandM.bind_app, hP]
    rfl
  · rw [I.At]; exact arrT_get _ (by omega)

/-- **C93** (too few iterations). With `max_iter ≤ 1` the run raises NameError (the loop variable is undefined); with an
empty grid and more iterations it raises IndexError. -/
theorem C93_errors (r : ρ) :
    (c.maxIter ≤ 1 → piceRun env c pinv n m grid r = .error .nameError) ∧
    (2 ≤ c.maxIter → piceRun env c pinv n m [] r = .error .indexError) := by
  constructor
  · intro h
    unfold piceRun
    rw [RandM.bind_app, show c.maxIter - 1 = 0 by omega, piceLoop]
    rfl
  · intro h
    unfold piceRun
    rw [RandM.bind_app, show c.maxIter - 1 = c.maxIter - 2 + 1 by omega, piceLoop, RandM.bind_app]
    have : piceIter env c pinv [] 0 (piceInit c n b ([] : List ℝ).length) r = .error .indexError := by
      unfold piceIter
      have hA : pyGet (piceInit c n b ([] : List ℝ).length).At ((0 : ℕ) : Int) = .ok [] := by
        apply pyGet_of_getElem?
        unfold piceInit
        simp only [List.length_nil, List.replicate_zero]
        rw [List.getElem?_replicate, if_pos (by omega)]
      rw [hA]
      rfl
    rw [this]

end

/-- A run of the concrete setting: 3 paths, orders up to 5, 3 time points, 4 final paths. -/
example : ∃ it s P r', piceRun (b := 5) exEnv (exPice ![0, 2]) (fun H => H) 3 4 [0, 1/1000, 2/1000] 7
    = .ok ((it, s, P), r') := by
  obtain ⟨it, s, P, r', h, -⟩ := C93_run (n := 3) (m := 4) (b := 5) exEnv (exPice ![0, 2]) (fun H => H)
    [0, 1/1000, 2/1000] (by simp) (by simp [exPice]) 7
  exact ⟨it, s, P, r', h⟩

end DPFC
