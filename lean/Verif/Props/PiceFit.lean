import Verif.Props.Pice

/-!
# C92: fit, stopping and annealing of the path-integral fit
-/

namespace DPFC
open Spec
variable {ρ : Type} {n b : ℕ}

section
variable (env : Env ρ ℝ) (c : PicePars ℝ) (pinv : Mat (b+1) (b+1) ℝ → Mat (b+1) (b+1) ℝ) (grid : List ℝ)

theorem piceFit_ls (hp : ∀ H, (∀ l m, H l m = H m l) → IsPinv (Matrix.of H) (Matrix.of (pinv H))) (hb : b ≤ 15)
    (w : Fin n → ℝ) (hw : ∀ j, 0 ≤ w j) (x e : Mat 2 n ℝ) (A : Mat 2 (b+1) ℝ) (a : Fin 2) :
    ∃ v, ShortestLeastSquares w (fun l : Fin (b+1) => fun j => mono (fun d => x d j) l.val) (fun j => e a j / (1/1000)) v ∧
      piceFit c pinv w x e A a = fun l => A a l + c.eta * v l := by
  set h : Fin (b+1) → Fin n → ℝ := fun l j => mono (fun d => x d j) l.val with hh
  have hbas : ∀ (l : Fin (b+1)) j, bas (fun d => x d j) l.val = h l j :=
    fun l j => bas_mono _ _ (by have := l.isLt; omega)
  set H : Mat (b+1) (b+1) ℝ := fun l m => ∑ j, w j * h l j * h m j with hH
  have hs : ∀ l m, H l m = H m l := fun l m => Finset.sum_congr rfl fun j _ => by ring
  have hQ := isPinv_transpose (gram_symm w h) (hp H hs)
  refine ⟨_, pinv_shortest w hw h (fun j => e a j / (1/1000)) hQ, ?_⟩
  funext l
  unfold piceFit
  simp only [hbas, real_sum, dtc_real]
  rw [← hH]
  congr 1
  simp only [Matrix.mulVec, dotProduct, Matrix.transpose_apply, Matrix.of_apply, Finset.mul_sum]
  refine Finset.sum_congr rfl fun m _ => ?_
  rw [div_eq_mul_inv, Finset.sum_mul, Finset.sum_mul]
  exact Finset.sum_congr rfl fun j _ => by field_simp

/-- **C92** (fit). If the pseudo-inverse is the Moore-Penrose inverse of symmetric matrices, an iteration that does not stop
stores under `i+1`, for every time index, the old coefficients plus `eta` times the (unique) shortest least-squares
coefficients that predict noise / dt from the monomials of the state, weighted with the path weights; nothing else in the
coefficient array changes. -/
theorem C92_fit (hp : ∀ H, (∀ l m, H l m = H m l) → IsPinv (Matrix.of H) (Matrix.of (pinv H))) (hb : b ≤ 15)
    (hg : grid ≠ []) {r q q' : ρ} {i : ℕ} {s s' : PiceState n b ℝ} (hR : PiceReach env c pinv grid r i s q)
    (hi : i + 1 < c.maxIter) (h : piceIter env c pinv grid i s q = .ok ((false, s'), q')) :
    ∃ A A' Z U E rs, s.At[i]? = some ((List.range grid.length).map A) ∧
      s'.At[i+1]? = some ((List.range grid.length).map A') ∧ (∀ m, m ≠ i + 1 → s'.At[m]? = s.At[m]?) ∧
      s'.arr.Z = (List.range grid.length).map Z ∧
      PiceSimulation env (circuit c.p) c.g c.x1 grid.length A Z U E rs ∧ rs 0 = q ∧
      ∀ t, t < grid.length → ∀ a, ∃ v, ShortestLeastSquares
          (pathWeight c.x2 s.ann.alph grid.length U E (Z (grid.length - 1)))
          (fun l : Fin (b+1) => fun j => mono (fun d => Z t d j) l.val) (fun j => E t a j / (1/1000)) v ∧
        A' t a = fun l => A t a l + c.eta * v l := by
  have hk : 1 ≤ grid.length := List.length_pos_iff.2 hg
  obtain ⟨A, Z, E, U, e1, e2, I⟩ := reach_inv env c pinv grid hk hR
  rw [piceIter_real env c pinv grid hk hi I.toRep q] at h
  simp only [Except.ok.injEq, Prod.mk.injEq] at h
  obtain ⟨h, hq⟩ := h
  by_cases hC : Close c.x2 (itZ env c (A i) n q (grid.length - 1))
  · rw [if_pos hC] at h
    simp at h
  rw [if_neg hC] at h
  simp only [Prod.mk.injEq, true_and] at h
  refine ⟨A i, fun t => piceFit c pinv (pathWeight c.x2 s.ann.alph grid.length (itU env c grid.length (A i) U q)
      (itE env c grid.length (A i) E q) (itZ env c (A i) n q (grid.length - 1))) (itZ env c (A i) n q t)
      (itE env c grid.length (A i) E q t) (A i t),
    itZ env c (A i) n q, itU env c grid.length (A i) U q, itE env c grid.length (A i) E q, _, ?_, ?_, ?_,
    ?_, itSim env c hb grid.length (A i) E U I.zE I.zU hk q, rfl, ?_⟩
  · rw [I.At]; exact arrT_get _ (by omega)
  · rw [← h]
    show (arrT c.maxIter _)[i+1]? = _
    rw [arrT_get _ hi, Function.update_self]
  · intro m hm
    rw [← h, I.At]
    show (arrT c.maxIter _)[m]? = _
    by_cases hM : m < c.maxIter
    · rw [arrT_get _ hM, arrT_get _ hM, Function.update_of_ne hm]
    · rw [List.getElem?_eq_none (by simpa using hM), List.getElem?_eq_none (by simpa using hM)]
  · rw [← h]
  · intro t ht a
    obtain ⟨v, h1, h2⟩ := piceFit_ls c pinv hp hb (pathWeight c.x2 s.ann.alph grid.length
      (itU env c grid.length (A i) U q) (itE env c grid.length (A i) E q) (itZ env c (A i) n q (grid.length - 1)))
      (fun j => div_nonneg (Real.exp_pos _).le (Finset.sum_nonneg fun _ _ => (Real.exp_pos _).le))
      (itZ env c (A i) n q t) (itE env c grid.length (A i) E q t) (A i t) a
    exact ⟨v, h1, h2⟩

/-- **C92** (stopping). An iteration always returns. It stops exactly if the mean end point is within 0.01 of the target in
both coordinates; then coefficients and end-cost weights are as before. The mean end points are recorded. -/
theorem C92_stop (hg : grid ≠ []) {r q : ρ} {i : ℕ} {s : PiceState n b ℝ} (hR : PiceReach env c pinv grid r i s q)
    (hi : i + 1 < c.maxIter) :
    ∃ fl s' q' z, piceIter env c pinv grid i s q = .ok ((fl, s'), q') ∧ s'.arr.Z.getLast? = some z ∧
      (fl = true ↔ ∀ a, |endMean z a - c.x2 a| ≤ 1/100) ∧ (fl = true → s'.At = s.At ∧ s'.ann = s.ann) ∧
      s'.e1 = s.e1.set i (endMean z 0) ∧ s'.e2 = s.e2.set i (endMean z 1) := by
  have hk : 1 ≤ grid.length := List.length_pos_iff.2 hg
  obtain ⟨A, Z, E, U, e1, e2, I⟩ := reach_inv env c pinv grid hk hR
  rw [piceIter_real env c pinv grid hk hi I.toRep q]
  have hl : ∀ F : ℕ → Mat 2 n ℝ, (arrT grid.length F).getLast? = some (F (grid.length - 1)) := by
    intro F
    rw [List.getLast?_eq_getElem?]
    simp only [List.length_map, List.length_range]
    exact arrT_get _ (by omega)
  by_cases hC : Close c.x2 (itZ env c (A i) n q (grid.length - 1))
  · rw [if_pos hC]
    refine ⟨_, _, _, itZ env c (A i) n q (grid.length - 1), rfl, hl _, ⟨fun _ => hC, fun _ => rfl⟩, fun _ => ⟨rfl, rfl⟩,
      ?_, ?_⟩
    · rw [I.e1, arrT_set]
    · rw [I.e2, arrT_set]
  · rw [if_neg hC]
    refine ⟨_, _, _, itZ env c (A i) n q (grid.length - 1), rfl, hl _, ⟨fun h => by simp at h, fun h => absurd h hC⟩,
      fun h => by simp at h, ?_, ?_⟩
    · rw [I.e1, arrT_set]
    · rw [I.e2, arrT_set]

/-- **C92** (annealing step). At an iteration `i` that does not stop: "coordinate `a` is stuck" means that `i > 50`, that the
recorded means of iterations `i-50` and `i-1` differ by less than 0.049 - what happens in between does not matter - and that
its counter is not positive. If the first coordinate is stuck its weight grows by 25% and its counter is set to 50; else if
the second one is, the same there; else both counters go down by one. Nothing else changes. -/
theorem C92_anneal (hg : grid ≠ []) {r q q' : ρ} {i : ℕ} {s s' : PiceState n b ℝ} (hR : PiceReach env c pinv grid r i s q)
    (hi : i + 1 < c.maxIter) (h : piceIter env c pinv grid i s q = .ok ((false, s'), q')) :
    let stuck (e : List ℝ) (jc : ℤ) := 50 < i ∧ (∃ x y, e[i-50]? = some x ∧ e[i-1]? = some y ∧ |y - x| < 49/1000) ∧ jc ≤ 0
    (stuck s.e1 s.ann.jc1 → s'.ann = ⟨![s.ann.alph 0 * (5/4), s.ann.alph 1], 50, s.ann.jc2⟩) ∧
    (¬ stuck s.e1 s.ann.jc1 → stuck s.e2 s.ann.jc2 → s'.ann = ⟨![s.ann.alph 0, s.ann.alph 1 * (5/4)], s.ann.jc1, 50⟩) ∧
    (¬ stuck s.e1 s.ann.jc1 → ¬ stuck s.e2 s.ann.jc2 → s'.ann = ⟨s.ann.alph, s.ann.jc1 - 1, s.ann.jc2 - 1⟩) := by
  intro stuck
  have hk : 1 ≤ grid.length := List.length_pos_iff.2 hg
  obtain ⟨A, Z, E, U, e1, e2, I⟩ := reach_inv env c pinv grid hk hR
  rw [piceIter_real env c pinv grid hk hi I.toRep q] at h
  simp only [Except.ok.injEq, Prod.mk.injEq] at h
  obtain ⟨h, hq⟩ := h
  by_cases hC : Close c.x2 (itZ env c (A i) n q (grid.length - 1))
  · rw [if_pos hC] at h
    simp at h
  rw [if_neg hC] at h
  simp only [Prod.mk.injEq, true_and] at h
  have key : ∀ (e : ℕ → ℝ) (v : ℝ) (l : List ℝ) (jc : ℤ), l = arrT c.maxIter e →
      ((50 < i ∧ NumOps.ltB (NumOps.abs (meanDiff (arrT c.maxIter (Function.update e i v)) i)) (lit 1 1000 : ℝ) = true
        ∧ jc ≤ 0) ↔ stuck l jc) := by
    intro e v l jc hl
    subst hl
    refine and_congr_right fun h50 => and_congr_left fun _ => ?_
    rw [meanDiff_real c.maxIter _ h50 (by omega), Function.update_of_ne (by omega), Function.update_of_ne (by omega),
      real_ltB, real_abs]
    simp only [arrT_get e (show i - 50 < c.maxIter by omega), arrT_get e (show i - 1 < c.maxIter by omega),
      Option.some.injEq, exists_eq_left', exists_and_left]
    rw [abs_div, abs_of_pos (by norm_num : (0:ℝ) < 49), div_lt_iff₀ (by norm_num)]
    simp only [real_lit]
    norm_num
  have k1 := key e1 (endMean (itZ env c (A i) n q (grid.length - 1)) 0) s.e1 s.ann.jc1 I.e1
  have k2 := key e2 (endMean (itZ env c (A i) n q (grid.length - 1)) 1) s.e2 s.ann.jc2 I.e2
  have hann := congrArg PiceState.ann h
  simp only [piceAnneal] at hann
  rw [← hann]
  have h54 : (lit 125 100 : ℝ) = 5/4 := by simp only [real_lit]; norm_num
  refine ⟨fun hs => ?_, fun hn hs => ?_, fun hn hn' => ?_⟩
  · rw [if_pos (k1.2 hs)]
    congr 1
    funext a
    fin_cases a <;> simp [h54]
  · rw [if_neg (fun hh => hn (k1.1 hh)), if_pos (k2.2 hs)]
    congr 1
    funext a
    fin_cases a <;> simp [h54]
  · rw [if_neg (fun hh => hn (k1.1 hh)), if_neg (fun hh => hn' (k2.1 hh))]

/-- **C92** (annealing overall). Before iteration `i` each end-cost weight is `(5/4)^m` with at most one raise per 51
iterations, the first not before iteration 51: `51 m + 1 ≤ i` if `m > 0`. -/
theorem C92_anneal_bound (hg : grid ≠ []) {r q : ρ} {i : ℕ} {s : PiceState n b ℝ}
    (hR : PiceReach env c pinv grid r i s q) :
    ∃ m : Fin 2 → ℕ, ∀ a, s.ann.alph a = (5/4 : ℝ) ^ m a ∧ (0 < m a → 51 * m a + 1 ≤ i) := by
  suffices hS : ∃ m0 m1 : ℕ, s.ann.alph = ![(5/4 : ℝ) ^ m0, (5/4 : ℝ) ^ m1] ∧
      (0 < m0 → 51 * (m0 : ℤ) + (50 - s.ann.jc1) + 1 ≤ i ∧ s.ann.jc1 ≤ 50) ∧
      (0 < m1 → 51 * (m1 : ℤ) + (50 - s.ann.jc2) + 1 ≤ i ∧ s.ann.jc2 ≤ 50) by
    obtain ⟨m0, m1, ha, h0, h1⟩ := hS
    refine ⟨![m0, m1], ?_⟩
    rw [ha]
    intro a
    fin_cases a
    · refine ⟨rfl, fun h => ?_⟩
      have := h0 h
      simp only [Fin.zero_eta, Matrix.cons_val_zero]
      omega
    · refine ⟨rfl, fun h => ?_⟩
      have := h1 h
      simp only [Fin.mk_one, Matrix.cons_val_one, Matrix.cons_val_fin_one]
      omega
  induction hR with
  | init =>
    refine ⟨0, 0, ?_, by simp, by simp⟩
    funext a
    fin_cases a <;> simp [piceInit]
  | @next i s s' q q' hprev hM hit ih =>
    obtain ⟨m0, m1, ha, h0, h1⟩ := ih
    obtain ⟨c1, c2, c3⟩ := C92_anneal env c pinv grid hg hprev hM hit
    set S1 := 50 < i ∧ (∃ x y, s.e1[i-50]? = some x ∧ s.e1[i-1]? = some y ∧ |y - x| < 49/1000) ∧ s.ann.jc1 ≤ 0 with hS1
    set S2 := 50 < i ∧ (∃ x y, s.e2[i-50]? = some x ∧ s.e2[i-1]? = some y ∧ |y - x| < 49/1000) ∧ s.ann.jc2 ≤ 0 with hS2
    by_cases hs1 : S1
    · rw [c1 hs1]
      refine ⟨m0 + 1, m1, ?_, ?_, ?_⟩
      · rw [ha]; simp [pow_succ]
      · intro _
        have hj := hs1.2.2
        have h50 := hs1.1
        rcases Nat.eq_zero_or_pos m0 with hz | hz
        · subst hz; push_cast; constructor <;> (try dsimp only) <;> omega
        · have := h0 hz; push_cast; constructor <;> (try dsimp only) <;> omega
      · intro hz
        have := h1 hz
        push_cast
        try dsimp only
        constructor <;> omega
    · by_cases hs2 : S2
      · rw [c2 hs1 hs2]
        refine ⟨m0, m1 + 1, ?_, ?_, ?_⟩
        · rw [ha]; simp [pow_succ]
        · intro hz
          have := h0 hz
          push_cast
          try dsimp only
          constructor <;> omega
        · intro _
          have hj := hs2.2.2
          have h50 := hs2.1
          rcases Nat.eq_zero_or_pos m1 with hz | hz
          · subst hz; push_cast; constructor <;> (try dsimp only) <;> omega
          · have := h1 hz; push_cast; constructor <;> (try dsimp only) <;> omega
      · rw [c3 hs1 hs2]
        refine ⟨m0, m1, ha, ?_, ?_⟩
        · intro hz
          have := h0 hz
          push_cast
          try dsimp only
          constructor <;> omega
        · intro hz
          have := h1 hz
          push_cast
          try dsimp only
          constructor <;> omega

end

/-- A Moore-Penrose inverse exists and iterations that do not stop are reached: the hypotheses of `C92_fit` can be met. -/
example : ∃ pinv : Mat 6 6 ℝ → Mat 6 6 ℝ, (∀ H, (∀ l m, H l m = H m l) → IsPinv (Matrix.of H) (Matrix.of (pinv H))) ∧
    ∃ (x2 : Fin 2 → ℝ) (s s' : PiceState 3 5 ℝ) (q' : ℕ),
      PiceReach exEnv (exPice x2) pinv [0, 1/1000, 2/1000] 7 0 s 7 ∧ 0 + 1 < (exPice x2).maxIter ∧
      piceIter exEnv (exPice x2) pinv [0, 1/1000, 2/1000] 0 s 7 = .ok ((false, s'), q') := by
  have : ∀ H : Mat 6 6 ℝ, ∃ P : Mat 6 6 ℝ, (∀ l m, H l m = H m l) → IsPinv (Matrix.of H) (Matrix.of P) := by
    intro H
    by_cases hs : ∀ l m, H l m = H m l
    · obtain ⟨P, hP⟩ := exists_pinv (Matrix.of H) (by ext l m; exact hs m l)
      exact ⟨P, fun _ => hP⟩
    · exact ⟨H, fun h => absurd h hs⟩
  exact ⟨fun H => (this H).choose, fun H => (this H).choose_spec, ex_piceIter _⟩

end DPFC
