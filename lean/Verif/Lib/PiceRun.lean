import Verif.Lib.PiceIter

/-! The annealing of the path-integral fit, the final simulation and the whole run. -/

namespace DPFC
open Spec
variable {ρ : Type} {n b k : ℕ}

theorem meanDiff_real (M : ℕ) (e : ℕ → ℝ) {i : ℕ} (h1 : 50 < i) (h2 : i ≤ M) :
    meanDiff (arrT M e) i = (e (i-1) - e (i-50)) / 49 := by
  have hs : ((arrT M e).drop (i-50)).take 50 = arrT 50 fun t => e (i - 50 + t) := by
    apply List.ext_getElem?
    intro j
    by_cases hj : j < 50
    · rw [List.getElem?_take_of_lt hj, List.getElem?_drop, arrT_get _ (by omega), arrT_get _ hj]
    · rw [List.getElem?_eq_none (by simp; omega), List.getElem?_eq_none (by simp; omega)]
  have ht : (arrT 50 fun t => e (i - 50 + t)).tail = arrT 49 fun t => e (i - 50 + (t + 1)) := by
    apply List.ext_getElem?
    intro j
    rw [List.getElem?_tail]
    by_cases hj : j < 49
    · rw [arrT_get _ (by omega), arrT_get _ hj]
    · rw [List.getElem?_eq_none (by simp; omega), List.getElem?_eq_none (by simp; omega)]
  have hz : List.zipWith (fun a b => b - a) (arrT 50 fun t => e (i - 50 + t)) (arrT 49 fun t => e (i - 50 + (t + 1)))
      = arrT 49 fun t => e (i - 50 + (t + 1)) - e (i - 50 + t) := by
    apply List.ext_getElem?
    intro j
    rw [List.getElem?_zipWith]
    by_cases hj : j < 49
    · rw [arrT_get _ (by omega : j < 50), arrT_get _ hj, arrT_get _ hj]
    · rw [List.getElem?_eq_none (l := arrT 49 fun t => e (i - 50 + (t + 1))) (by simp; omega),
        List.getElem?_eq_none (l := arrT 49 fun t => e (i - 50 + (t + 1)) - e (i - 50 + t)) (by simp; omega)]
      split <;> simp_all
  unfold meanDiff
  simp only [hs, ht, hz, sumT_arrT]
  rw [Finset.sum_range_sub (fun t => e (i - 50 + t))]
  have hl : (arrT 49 fun t => e (i - 50 + (t + 1)) - e (i - 50 + t)).length = 49 := by simp
  rw [hl, show i - 50 + 49 = i - 1 by omega]
  simp [real_lit]

/-- Paths and controls of the final simulation. -/
theorem piceEval_loop {m : ℕ} (env : Env ρ ℝ) (c : PicePars ℝ) (A : ℕ → Mat 2 (b+1) ℝ) (r : ρ) : ∀ (ts : List ℝ) (ti : ℕ)
    (F U : ℕ → Mat 2 m ℝ), ti + 1 + ts.length = k → F ti = (simSeq env c A (c.g^2) m r ti).1 →
    enumLoop (piceEvalBody env c (arrT k A)) (ti+1) ts ⟨arrT k F, arrT k U⟩ (simSeq env c A (c.g^2) m r ti).2
      = .ok (⟨arrT k fun i => if i ≤ ti then F i else (simSeq env c A (c.g^2) m r i).1,
          arrT k fun i => if i ≤ ti then U i else ufPice (A (i-1)) (simSeq env c A (c.g^2) m r (i-1)).1⟩,
        (simSeq env c A (c.g^2) m r (k-1)).2) := by
  intro ts
  induction ts with
  | nil =>
    intro ti F U hk hF
    simp only [List.length_nil, Nat.add_zero] at hk
    subst hk
    rw [enumLoop]
    have h1 : arrT (ti+1) F = arrT (ti+1) fun i => if i ≤ ti then F i else (simSeq env c A (c.g^2) m r i).1 :=
      arrT_congr fun i hi => by rw [if_pos (by omega)]
    have h2 : arrT (ti+1) U = arrT (ti+1) fun i => if i ≤ ti then U i else
        ufPice (A (i-1)) (simSeq env c A (c.g^2) m r (i-1)).1 :=
      arrT_congr fun i hi => by rw [if_pos (by omega)]
    rw [← h1, ← h2]
    rfl
  | cons t ts ih =>
    intro ti F U hk hF
    simp only [List.length_cons] at hk
    have hbody : piceEvalBody env c (arrT k A) (ti+1) t ⟨arrT k F, arrT k U⟩ (simSeq env c A (c.g^2) m r ti).2
        = .ok (⟨arrT k (Function.update F (ti+1) (simSeq env c A (c.g^2) m r (ti+1)).1),
          arrT k (Function.update U (ti+1) (ufPice (A ti) (simSeq env c A (c.g^2) m r ti).1))⟩,
          (simSeq env c A (c.g^2) m r (ti+1)).2) := by
      unfold piceEvalBody
      rw [if_neg (by omega)]
      have e : (((ti + 1 : ℕ) : Int) - 1) = (ti : Int) := by omega
      simp only [e, arrT_pyGet F (show ti < k by omega), arrT_pyGet A (show ti < k by omega),
        arrT_setSlice U (show ti + 1 < k by omega), RandM.liftM_ok, pure_bind]
      rw [RandM.bind_app, normalMat_real]
      simp only [arrT_setSlice F (show ti + 1 < k by omega), RandM.liftM_ok, pure_bind, dtc_real, real_sqrt, phenoF_real, real_sq, hF]
      rfl
    rw [enumLoop, RandM.bind_app, hbody]
    simp only []
    rw [ih (ti+1) _ _ (by omega) (by rw [Function.update_self])]
    congr 2
    congr 1
    · refine arrT_congr fun i hi => ?_
      by_cases h1 : i ≤ ti
      · rw [if_pos (by omega), if_pos h1, Function.update_of_ne (by omega)]
      · rw [if_neg h1]
        by_cases h2 : i ≤ ti + 1
        · obtain rfl : i = ti + 1 := by omega
          rw [if_pos h2, Function.update_self]
        · rw [if_neg h2]
    · refine arrT_congr fun i hi => ?_
      by_cases h1 : i ≤ ti
      · rw [if_pos (by omega), if_pos h1, Function.update_of_ne (by omega)]
      · rw [if_neg h1]
        by_cases h2 : i ≤ ti + 1
        · obtain rfl : i = ti + 1 := by omega
          rw [if_pos h2, Function.update_self]; rfl
        · rw [if_neg h2]

theorem piceEval_real {m : ℕ} (env : Env ρ ℝ) (c : PicePars ℝ) (A : ℕ → Mat 2 (b+1) ℝ) (grid : List ℝ)
    (hk : 1 ≤ grid.length) (r : ρ) :
    piceEval env c m grid (arrT grid.length A) r
      = .ok (⟨arrT grid.length fun i => (simSeq env c A (c.g^2) m r i).1,
          arrT grid.length fun i => if i = 0 then 0 else ufPice (A (i-1)) (simSeq env c A (c.g^2) m r (i-1)).1⟩,
        (simSeq env c A (c.g^2) m r (grid.length-1)).2) := by
  obtain ⟨t0, ts, rfl⟩ : ∃ t0 ts, grid = t0 :: ts := by
    match grid, hk with
    | a :: l, _ => exact ⟨a, l, rfl⟩
  unfold piceEval
  have hz : (zerosT 2 m (t0 :: ts).length : Traj 2 m ℝ) = arrT (t0 :: ts).length fun _ => 0 := by
    unfold zerosT
    simp only [arrT_replicate, real_lit_zero]
    rfl
  rw [hz, enumLoop]
  have h0 : ∀ U : Traj 2 m ℝ, piceEvalBody env c (arrT (t0 :: ts).length A) 0 t0 ⟨arrT (t0 :: ts).length fun _ => 0, U⟩
      = pure ⟨arrT (t0 :: ts).length (Function.update (fun _ => 0) 0 fun a _ => c.x1 a), U⟩ := by
    intro U
    unfold piceEvalBody
    rw [if_pos rfl]
    simp only [arrT_setSlice _ (show 0 < (t0 :: ts).length by simp), RandM.liftM_ok, pure_bind]
  rw [h0, pure_bind]
  have := piceEval_loop (k := (t0 :: ts).length) env c A r ts 0 (Function.update (fun _ => 0) 0 fun a _ => c.x1 a)
    (fun _ => (0 : Mat 2 m ℝ)) (by simp [Nat.add_comm]) (by rw [Function.update_self]; rfl)
  refine this.trans ?_
  congr 2
  congr 1
  · refine arrT_congr fun i hi => ?_
    by_cases h : i = 0
    · subst h; rw [if_pos le_rfl, Function.update_self]; rfl
    · rw [if_neg (by omega)]
  · refine arrT_congr fun i hi => ?_
    simp

/-- The loop over the iterations, from a reachable state. -/
theorem piceLoop_run (env : Env ρ ℝ) (c : PicePars ℝ) (pinv : Mat (b+1) (b+1) ℝ → Mat (b+1) (b+1) ℝ) (grid : List ℝ)
    (hk : 1 ≤ grid.length) {r : ρ} : ∀ (m i : ℕ) (s : PiceState n b ℝ) (q : ρ), PiceReach env c pinv grid r i s q →
    i + (m + 1) + 1 = c.maxIter →
    ∃ it s0 q0 fl s' q', piceLoop env c pinv grid (m+1) i s q = .ok ((it, s'), q') ∧ PiceReach env c pinv grid r it s0 q0 ∧
      piceIter env c pinv grid it s0 q0 = .ok ((fl, s'), q') ∧ it + 1 < c.maxIter ∧ (fl = false → it + 2 = c.maxIter) := by
  intro m
  induction m with
  | zero =>
    intro i s q h hM
    obtain ⟨A, Z, E, U, e1, e2, I⟩ := reach_inv env c pinv grid hk h
    obtain ⟨fl, s', q', hit⟩ : ∃ fl s' q', piceIter env c pinv grid i s q = .ok ((fl, s'), q') := by
      rw [piceIter_real env c pinv grid hk (by omega) I.toRep q]
      exact ⟨_, _, _, rfl⟩
    refine ⟨i, s, q, fl, s', q', ?_, h, hit, by omega, fun _ => by omega⟩
    rw [piceLoop, RandM.bind_app, hit]
    cases fl
    · simp only [Bool.false_eq_true, if_false]; rfl
    · simp
  | succ m ih =>
    intro i s q h hM
    obtain ⟨A, Z, E, U, e1, e2, I⟩ := reach_inv env c pinv grid hk h
    obtain ⟨fl, s', q', hit⟩ : ∃ fl s' q', piceIter env c pinv grid i s q = .ok ((fl, s'), q') := by
      rw [piceIter_real env c pinv grid hk (by omega) I.toRep q]
      exact ⟨_, _, _, rfl⟩
    cases fl with
    | true =>
      refine ⟨i, s, q, true, s', q', ?_, h, hit, by omega, by simp⟩
      rw [piceLoop, RandM.bind_app, hit]
      simp
    | false =>
      obtain ⟨it, s0, q0, fl, s'', q'', h1, h2⟩ := ih (i+1) s' q' (.next h (by omega) hit) (by omega)
      refine ⟨it, s0, q0, fl, s'', q'', ?_, h2⟩
      rw [piceLoop, RandM.bind_app, hit]
      simpa using h1

end DPFC
