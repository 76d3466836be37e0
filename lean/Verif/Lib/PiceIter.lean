import Verif.Lib.Pice
import Verif.Lib.RecReal

/-! One iteration of the path-integral fit and its invariants. -/

namespace DPFC
open Spec
variable {ρ : Type} {n b k : ℕ}

theorem mapM_range_ok {α : Type} (f : ℕ → Except PyErr α) (F : ℕ → α) (k : ℕ) (h : ∀ i, i < k → f i = .ok (F i)) :
    (List.range k).mapM f = .ok (arrT k F) := by
  have : ∀ l : List ℕ, (∀ i ∈ l, f i = .ok (F i)) → l.mapM f = .ok (l.map F) := by
    intro l
    induction l with
    | nil => intro _; rfl
    | cons a l ih =>
      intro hl
      rw [List.mapM_cons, hl a (by simp), ih fun i hi => hl i (by simp [hi])]
      rfl
  exact this _ fun i hi => h i (List.mem_range.1 hi)

theorem zipWith_arrT {α β γ : Type} (f : α → β → γ) (F : ℕ → α) (G : ℕ → β) (k : ℕ) :
    List.zipWith f (arrT k F) (arrT k G) = arrT k fun i => f (F i) (G i) := by
  apply List.ext_getElem?
  intro i
  by_cases h : i < k
  · simp [List.getElem?_zipWith, arrT_get _ h]
  · simp [List.getElem?_zipWith, h]

theorem arrT_last {α : Type} (F : ℕ → α) (h : 1 ≤ k) : pyGet (arrT k F) (-1) = .ok (F (k-1)) := by
  unfold pyGet pyIdx
  rw [if_neg (by omega), if_pos (by simp; omega)]
  simp only [Except.ok_bind', List.length_map, List.length_range]
  have e : ((-1 : Int) + (k : Int)).toNat = k - 1 := by omega
  rw [e, arrT_get _ (by omega)]

theorem arrT_setCol {α : Type} (F : ℕ → α) {i : ℕ} (h : i < k) (v : α) :
    setCol (arrT k F) (i : Int) v = .ok (arrT k (Function.update F i v)) := by
  rw [setCol_nat _ (by simpa using h), arrT_set]

theorem piceCost_real (c : PicePars ℝ) (alph : Fin 2 → ℝ) (Z E U : ℕ → Mat 2 n ℝ) (z : Mat 2 n ℝ) (j : Fin n) :
    piceCost c alph ⟨arrT k Z, arrT k E, arrT k U⟩ z j
      = runCost k U E j + endCost c.x2 alph fun a => z a j := by
  unfold piceCost runCost endCost picePhi
  simp only [real_sum, zipWith_arrT, List.map_map, dtc_real, real_lit_half, real_sq, real_sqrt, Real.sqrt_sq_eq_abs]
  have h1 : ∀ a, sumT (List.map ((fun u : Mat 2 n ℝ => 1/2 * u a j ^ 2 * (1/1000)) ∘ U) (List.range k))
      = ∑ i ∈ Finset.range k, 1/2 * U i a j ^ 2 * (1/1000) := fun a => sumT_arrT k _
  have h2 : ∀ a, sumT (arrT k fun i => U i a j * E i a j) = ∑ i ∈ Finset.range k, U i a j * E i a j :=
    fun a => sumT_arrT k _
  simp only [h1, h2, Fin.sum_univ_two, Finset.sum_add_distrib]
  ring

theorem piceWeights_real (c : PicePars ℝ) (alph : Fin 2 → ℝ) (Z E U : ℕ → Mat 2 n ℝ) (z : Mat 2 n ℝ) :
    piceWeights c alph ⟨arrT k Z, arrT k E, arrT k U⟩ z = pathWeight c.x2 alph k U E z := by
  unfold piceWeights normWeights pathWeight
  simp only [piceCost_real, real_sum]
  rfl

/-- The arrays of the state as functions. -/
structure Rep (M k : ℕ) (s : PiceState n b ℝ) (A : ℕ → ℕ → Mat 2 (b+1) ℝ) (Z E U : ℕ → Mat 2 n ℝ) (e1 e2 : ℕ → ℝ) :
    Prop where
  At : s.At = arrT M fun m => arrT k (A m)
  arr : s.arr = ⟨arrT k Z, arrT k E, arrT k U⟩
  e1 : s.e1 = arrT M e1
  e2 : s.e2 = arrT M e2

section
variable (env : Env ρ ℝ) (c : PicePars ℝ) (pinv : Mat (b+1) (b+1) ℝ → Mat (b+1) (b+1) ℝ) (grid : List ℝ)

/-- Paths, noise, controls of an iteration from coefficients `A` and old arrays. -/
noncomputable def itZ (A : ℕ → Mat 2 (b+1) ℝ) (n : ℕ) (q : ρ) : ℕ → Mat 2 n ℝ := fun i => (simSeq env c A c.g n q i).1
noncomputable def itE (k : ℕ) (A : ℕ → Mat 2 (b+1) ℝ) (E : ℕ → Mat 2 n ℝ) (q : ρ) : ℕ → Mat 2 n ℝ :=
  fun i => if i + 1 < k then simNoise env c A n q i else E i
noncomputable def itU (k : ℕ) (A : ℕ → Mat 2 (b+1) ℝ) (U : ℕ → Mat 2 n ℝ) (q : ρ) : ℕ → Mat 2 n ℝ :=
  fun i => if i + 1 < k then ufPice (A i) (itZ env c A n q i) else U i

theorem piceSim_it (A : ℕ → Mat 2 (b+1) ℝ) (hk : 1 ≤ grid.length) (Z E U : ℕ → Mat 2 n ℝ) (q : ρ) :
    piceSim env c grid (arrT grid.length A) ⟨arrT grid.length Z, arrT grid.length E, arrT grid.length U⟩ q
      = .ok (⟨arrT grid.length (itZ env c A n q), arrT grid.length (itE env c grid.length A E q),
          arrT grid.length (itU env c grid.length A U q)⟩, (simSeq env c A c.g n q (grid.length - 1)).2) :=
  piceSim_real env c A grid hk Z E U q

/-- The condition of the `break`. -/
def Close (x2 : Fin 2 → ℝ) (z : Fin 2 → Fin n → ℝ) : Prop := ∀ a, |endMean z a - x2 a| ≤ 1/100

theorem close_iff (x2 : Fin 2 → ℝ) (z : Mat 2 n ℝ) :
    (NumOps.leB (NumOps.abs (mean (z 0) - x2 0)) (lit 1 100)
      && NumOps.leB (NumOps.abs (mean (z 1) - x2 1)) (lit 1 100 : ℝ)) = true ↔ Close x2 z := by
  have hm : ∀ a, mean (z a) = endMean z a := by
    intro a; unfold mean endMean; rw [real_sum]; simp [real_lit]
  have h1 : (lit 1 100 : ℝ) = 1/100 := by simp [real_lit]
  rw [hm, hm, h1, Bool.and_eq_true]
  simp only [real_leB, real_abs, Close, Fin.forall_fin_two]

open Classical in
theorem piceIter_real (hk : 1 ≤ grid.length) {M : ℕ} {i : ℕ} (hi : i + 1 < M) {s : PiceState n b ℝ}
    {A Z E U e1 e2} (R : Rep M grid.length s A Z E U e1 e2) (q : ρ) :
    piceIter env c pinv grid i s q = .ok (
      let z := itZ env c (A i) n q (grid.length - 1)
      let arr : PiceArr n ℝ := ⟨arrT grid.length (itZ env c (A i) n q), arrT grid.length (itE env c grid.length (A i) E q),
        arrT grid.length (itU env c grid.length (A i) U q)⟩
      let f1 := arrT M (Function.update e1 i (endMean z 0))
      let f2 := arrT M (Function.update e2 i (endMean z 1))
      if Close c.x2 z then (true, { s with arr := arr, e1 := f1, e2 := f2 })
      else (false, ⟨arrT M (Function.update (fun m => arrT grid.length (A m)) (i+1) (arrT grid.length fun t =>
          piceFit c pinv (pathWeight c.x2 s.ann.alph grid.length (itU env c grid.length (A i) U q)
            (itE env c grid.length (A i) E q) z) (itZ env c (A i) n q t) (itE env c grid.length (A i) E q t) (A i t))),
          arr, f1, f2, piceAnneal f1 f2 i s.ann⟩),
      (simSeq env c (A i) c.g n q (grid.length - 1)).2) := by
  unfold piceIter
  have hm : ∀ (z : Mat 2 n ℝ) a, mean (z a) = endMean z a := by
    intro z a; unfold mean endMean; rw [real_sum]; simp [real_lit]
  rw [R.At, R.arr, R.e1, R.e2]
  rw [arrT_pyGet _ (show i < M by omega)]
  simp only [RandM.liftM_ok, pure_bind]
  rw [RandM.bind_app, piceSim_it env c grid (A i) hk Z E U q]
  simp only [arrT_last _ hk, RandM.liftM_ok, pure_bind, arrT_setCol _ (show i < M by omega), hm]
  have hcl := close_iff c.x2 (itZ env c (A i) n q (grid.length - 1))
  rw [hm, hm] at hcl
  by_cases hC : Close c.x2 (itZ env c (A i) n q (grid.length - 1))
  · rw [if_pos (hcl.2 hC), if_pos hC]
    rfl
  · rw [if_neg (fun h => hC (hcl.1 h)), if_neg hC]
    have hf : ∀ (w : Fin n → ℝ) (Z E U : ℕ → Mat 2 n ℝ), piceFitAll c pinv w ⟨arrT grid.length Z, arrT grid.length E,
        arrT grid.length U⟩ (arrT grid.length (A i)) grid.length = .ok (arrT grid.length fun t =>
          piceFit c pinv w (Z t) (E t) (A i t)) := by
      intro w Z E U
      unfold piceFitAll
      refine mapM_range_ok _ _ _ fun t ht => ?_
      simp only [arrT_pyGet _ ht, Except.ok_bind']
    rw [hf, show ((i : Int) + 1) = ((i + 1 : ℕ) : Int) by omega]
    simp only [arrT_setCol _ hi, RandM.liftM_ok, pure_bind, piceWeights_real]
    rfl

theorem itSim (hb : b ≤ 15) (k : ℕ) (A : ℕ → Mat 2 (b+1) ℝ) (E U : ℕ → Mat 2 n ℝ) (hE : E (k-1) = 0)
    (hU : U (k-1) = 0) (hk : 1 ≤ k) (q : ρ) :
    PiceSimulation env (circuit c.p) c.g c.x1 k A (itZ env c A n q) (itU env c k A U q) (itE env c k A E q)
      (fun i => (simSeq env c A c.g n q i).2) where
  start := rfl
  noise := by
    intro i hi
    unfold itE; rw [if_pos hi]; rfl
  random := fun i _ => rfl
  control := by
    intro i hi
    unfold itU; rw [if_pos hi, ufPice_poly hb]
  step := by
    intro i hi
    unfold itU itE
    rw [if_pos hi, if_pos hi]
    funext a j
    show (simSeq env c A c.g n q (i+1)).1 a j = _
    simp only [simSeq, simNoise, itZ]
    ring
  last := by
    unfold itU itE
    rw [if_neg (by omega), if_neg (by omega)]
    exact ⟨hU, hE⟩

/-- What holds before every iteration. -/
structure PInv (M k i : ℕ) (s : PiceState n b ℝ) (A : ℕ → ℕ → Mat 2 (b+1) ℝ) (Z E U : ℕ → Mat 2 n ℝ) (e1 e2 : ℕ → ℝ) :
    Prop extends Rep M k s A Z E U e1 e2 where
  zE : E (k-1) = 0
  zU : U (k-1) = 0
  zA : ∀ m, A m (k-1) = 0
  z0 : A 0 = 0

theorem piceFit_zero (c : PicePars ℝ) (w : Fin n → ℝ) (x : Mat 2 n ℝ) :
    piceFit c pinv w x 0 (0 : Mat 2 (b+1) ℝ) = 0 := by
  funext a l
  unfold piceFit
  simp [real_sum]

theorem reach_inv (hk : 1 ≤ grid.length) {r q : ρ} {i : ℕ} {s : PiceState n b ℝ}
    (h : PiceReach env c pinv grid r i s q) :
    ∃ A Z E U e1 e2, PInv c.maxIter grid.length i s A Z E U e1 e2 := by
  induction h with
  | init =>
    refine ⟨fun _ _ => 0, fun _ => 0, fun _ => 0, fun _ => 0, fun _ => 0, fun _ => 0, ⟨?_, ?_, ?_, ?_⟩, rfl, rfl, fun _ => rfl, rfl⟩
    · unfold piceInit
      simp only [arrT_replicate, real_lit_zero]
      rfl
    · unfold piceInit zerosT
      simp only [arrT_replicate, real_lit_zero]
      rfl
    · unfold piceInit
      simp only [arrT_replicate, real_lit_zero]
    · unfold piceInit
      simp only [arrT_replicate, real_lit_zero]
  | @next i s s' q q' _ hM hit ih =>
    obtain ⟨A, Z, E, U, e1, e2, I⟩ := ih
    rw [piceIter_real env c pinv grid hk hM I.toRep q] at hit
    simp only [Except.ok.injEq, Prod.mk.injEq] at hit
    obtain ⟨hit, -⟩ := hit
    by_cases hC : Close c.x2 (itZ env c (A i) n q (grid.length - 1))
    · rw [if_pos hC] at hit
      simp at hit
    · rw [if_neg hC] at hit
      simp only [Prod.mk.injEq, true_and] at hit
      refine ⟨Function.update A (i+1) (fun t =>
          piceFit c pinv (pathWeight c.x2 s.ann.alph grid.length (itU env c grid.length (A i) U q)
            (itE env c grid.length (A i) E q) (itZ env c (A i) n q (grid.length - 1))) (itZ env c (A i) n q t)
            (itE env c grid.length (A i) E q t) (A i t)),
        itZ env c (A i) n q, itE env c grid.length (A i) E q, itU env c grid.length (A i) U q,
        Function.update e1 i (endMean (itZ env c (A i) n q (grid.length - 1)) 0),
        Function.update e2 i (endMean (itZ env c (A i) n q (grid.length - 1)) 1), ⟨?_, ?_, ?_, ?_⟩, ?_, ?_, ?_, ?_⟩
      rotate_left
      · rw [← hit]
      · rw [← hit]
      · rw [← hit]
      · unfold itE; rw [if_neg (by omega)]; exact I.zE
      · unfold itU; rw [if_neg (by omega)]; exact I.zU
      · intro m
        by_cases hm : m = i + 1
        · subst hm
          have hE : itE env c grid.length (A i) E q (grid.length - 1) = 0 := by
            unfold itE; rw [if_neg (by omega)]; exact I.zE
          rw [Function.update_self, hE, I.zA, piceFit_zero]
        · rw [Function.update_of_ne hm]; exact I.zA m
      · rw [Function.update_of_ne (by omega)]; exact I.z0
      · rw [← hit]
        refine arrT_congr fun m _ => ?_
        by_cases hm : m = i + 1
        · subst hm; rw [Function.update_self, Function.update_self]
        · rw [Function.update_of_ne hm, Function.update_of_ne hm]

end
end DPFC
