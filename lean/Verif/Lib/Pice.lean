import Verif.Spec.Pice
import Verif.Lib.PhenotypeLoop

/-! The path-integral comparison of the phenotype script: its arrays as functions of the time index. -/

namespace DPFC
open Spec
variable {ρ : Type} {n b k : ℕ}

/-- An array over `k` time points. -/
abbrev arrT {α : Type} (k : ℕ) (F : ℕ → α) : List α := (List.range k).map F

theorem arrT_get {α : Type} {k i : ℕ} (F : ℕ → α) (h : i < k) : (arrT k F)[i]? = some (F i) := by
  simp [List.getElem?_range h]

theorem arrT_pyGet {α : Type} {k i : ℕ} (F : ℕ → α) (h : i < k) : pyGet (arrT k F) (i : Int) = .ok (F i) :=
  pyGet_of_getElem? (arrT_get F h)

theorem arrT_set {α : Type} {k i : ℕ} (F : ℕ → α) (v : α) :
    (arrT k F).set i v = arrT k (Function.update F i v) := by
  apply List.ext_getElem?
  intro j
  simp only [arrT, List.getElem?_set, List.length_map, List.length_range, List.getElem?_map]
  by_cases hij : i = j
  · subst hij
    by_cases h : i < k
    · simp [h, List.getElem?_range]
    · simp [h]
  · rw [if_neg hij]
    by_cases h : j < k
    · simp [List.getElem?_range h, Function.update_of_ne (Ne.symm hij)]
    · simp [h]

theorem arrT_setSlice {d N : ℕ} (F : ℕ → Mat d N ℝ) {i : ℕ} (h : i < k) (v : Mat d N ℝ) :
    setSlice (arrT k F) (i : Int) v = .ok (arrT k (Function.update F i v)) := by
  rw [setSlice_nat _ (by simpa using h), arrT_set]

theorem arrT_congr {α : Type} {F G : ℕ → α} (h : ∀ i, i < k → F i = G i) : arrT k F = arrT k G := by
  apply List.map_congr_left
  intro i hi
  exact h i (List.mem_range.1 hi)

theorem arrT_replicate {α : Type} (k : ℕ) (v : α) : List.replicate k v = arrT k fun _ => v := by
  simp [arrT, List.map_const']

theorem arrT_inj {α : Type} {F G : ℕ → α} (h : arrT k F = arrT k G) {i : ℕ} (hi : i < k) : F i = G i := by
  have := congrArg (fun l => l[i]?) h
  simpa [arrT_get _ hi] using this

theorem sumT_arrT (k : ℕ) (F : ℕ → ℝ) : sumT (arrT k F) = ∑ i ∈ Finset.range k, F i := by
  unfold sumT
  rw [real_sum]
  have hl : (arrT k F).length = k := by simp
  rw [← Fin.sum_univ_eq_sum_range]
  refine Fintype.sum_equiv (finCongr hl) _ _ fun i => ?_
  simp [arrT]

/-- State and random state after `i` steps of the simulation. -/
noncomputable def simSeq (env : Env ρ ℝ) (c : PicePars ℝ) (A : ℕ → Mat 2 (b+1) ℝ) (γ : ℝ) (n : ℕ) (r : ρ) :
    ℕ → Mat 2 n ℝ × ρ
  | 0 => (fun a _ => c.x1 a, r)
  | i+1 =>
    let p := simSeq env c A γ n r i
    (fun a j => p.1 a j + 1/1000 * circuit c.p (fun e => p.1 e j) a + 1/1000 * γ * ufPice (A i) p.1 a j
      + c.g * (Real.sqrt (1/1000) * normals env 2 n p.2 a j), normalsNext env 2 n p.2)

/-- Noise increments of step `i`. -/
noncomputable def simNoise (env : Env ρ ℝ) (c : PicePars ℝ) (A : ℕ → Mat 2 (b+1) ℝ) (n : ℕ) (r : ρ) (i : ℕ) :
    Mat 2 n ℝ := fun a j => c.g * (Real.sqrt (1/1000) * normals env 2 n (simSeq env c A c.g n r i).2 a j)

theorem piceBody_real (env : Env ρ ℝ) (c : PicePars ℝ) (A : ℕ → Mat 2 (b+1) ℝ) {ti : ℕ} (h : ti + 1 < k) (t : ℝ)
    (Z E U : ℕ → Mat 2 n ℝ) (q : ρ) :
    piceBody env c (arrT k A) (ti + 1) t ⟨arrT k Z, arrT k E, arrT k U⟩ q
      = .ok (⟨arrT k (Function.update Z (ti+1) fun a j => Z ti a j + 1/1000 * circuit c.p (fun e => Z ti e j) a
            + 1/1000 * c.g * ufPice (A ti) (Z ti) a j + c.g * (Real.sqrt (1/1000) * normals env 2 n q a j)),
          arrT k (Function.update E ti fun a j => c.g * (Real.sqrt (1/1000) * normals env 2 n q a j)),
          arrT k (Function.update U ti (ufPice (A ti) (Z ti)))⟩, normalsNext env 2 n q) := by
  unfold piceBody
  rw [if_neg (by omega)]
  have e : (((ti + 1 : ℕ) : Int) - 1) = (ti : Int) := by omega
  rw [RandM.bind_app, normalMat_real]
  simp only [e, arrT_setSlice E (show ti < k by omega), arrT_setSlice U (show ti < k by omega), arrT_setSlice Z h,
    arrT_pyGet Z (show ti < k by omega), arrT_pyGet A (show ti < k by omega), RandM.liftM_ok, pure_bind, dtc_real,
    real_sqrt, phenoF_real]
  rfl

theorem piceBody_loop (env : Env ρ ℝ) (c : PicePars ℝ) (A : ℕ → Mat 2 (b+1) ℝ) (r : ρ) : ∀ (ts : List ℝ) (ti : ℕ)
    (Z E U : ℕ → Mat 2 n ℝ), ti + 1 + ts.length = k → Z ti = (simSeq env c A c.g n r ti).1 →
    enumLoop (piceBody env c (arrT k A)) (ti+1) ts ⟨arrT k Z, arrT k E, arrT k U⟩ (simSeq env c A c.g n r ti).2
      = .ok (⟨arrT k fun i => if i ≤ ti then Z i else (simSeq env c A c.g n r i).1,
          arrT k fun i => if ti ≤ i ∧ i + 1 < k then simNoise env c A n r i else E i,
          arrT k fun i => if ti ≤ i ∧ i + 1 < k then ufPice (A i) (simSeq env c A c.g n r i).1 else U i⟩,
        (simSeq env c A c.g n r (k-1)).2) := by
  intro ts
  induction ts with
  | nil =>
    intro ti Z E U hk hZ
    simp only [List.length_nil, Nat.add_zero] at hk
    subst hk
    rw [enumLoop]
    have h1 : arrT (ti+1) Z = arrT (ti+1) fun i => if i ≤ ti then Z i else (simSeq env c A c.g n r i).1 :=
      arrT_congr fun i hi => by rw [if_pos (by omega)]
    have h2 : arrT (ti+1) E = arrT (ti+1) fun i => if ti ≤ i ∧ i + 1 < ti + 1 then simNoise env c A n r i else E i :=
      arrT_congr fun i hi => by rw [if_neg (by omega)]
    have h3 : arrT (ti+1) U = arrT (ti+1) fun i => if ti ≤ i ∧ i + 1 < ti + 1 then
        ufPice (A i) (simSeq env c A c.g n r i).1 else U i :=
      arrT_congr fun i hi => by rw [if_neg (by omega)]
    rw [← h1, ← h2, ← h3]
    rfl
  | cons t ts ih =>
    intro ti Z E U hk hZ
    simp only [List.length_cons] at hk
    rw [enumLoop, RandM.bind_app, piceBody_real env c A (by omega) t Z E U]
    have hs : (normalsNext env 2 n (simSeq env c A c.g n r ti).2) = (simSeq env c A c.g n r (ti+1)).2 := rfl
    simp only [hs]
    rw [ih (ti+1) _ _ _ (by omega) (by rw [Function.update_self, hZ]; rfl)]
    congr 2
    congr 1
    · refine arrT_congr fun i hi => ?_
      by_cases h1 : i ≤ ti
      · rw [if_pos (by omega), if_pos h1, Function.update_of_ne (by omega)]
      · rw [if_neg h1]
        by_cases h2 : i ≤ ti + 1
        · obtain rfl : i = ti + 1 := by omega
          rw [if_pos h2, Function.update_self, hZ]; rfl
        · rw [if_neg h2]
    · refine arrT_congr fun i hi => ?_
      by_cases h1 : ti + 1 ≤ i ∧ i + 1 < k
      · rw [if_pos h1, if_pos (by omega)]
      · rw [if_neg h1]
        by_cases h2 : i = ti
        · subst h2
          rw [if_pos (by omega), Function.update_self]; rfl
        · rw [Function.update_of_ne h2, if_neg (by omega)]
    · refine arrT_congr fun i hi => ?_
      by_cases h1 : ti + 1 ≤ i ∧ i + 1 < k
      · rw [if_pos h1, if_pos (by omega)]
      · rw [if_neg h1]
        by_cases h2 : i = ti
        · subst h2
          rw [if_pos (by omega), Function.update_self, hZ]
        · rw [Function.update_of_ne h2, if_neg (by omega)]

/-- One simulation, on arrays with any contents. -/
theorem piceSim_real (env : Env ρ ℝ) (c : PicePars ℝ) (A : ℕ → Mat 2 (b+1) ℝ) (grid : List ℝ) (hk : 1 ≤ grid.length)
    (Z E U : ℕ → Mat 2 n ℝ) (r : ρ) :
    piceSim env c grid (arrT grid.length A) ⟨arrT grid.length Z, arrT grid.length E, arrT grid.length U⟩ r
      = .ok (⟨arrT grid.length fun i => (simSeq env c A c.g n r i).1,
          arrT grid.length fun i => if i + 1 < grid.length then simNoise env c A n r i else E i,
          arrT grid.length fun i => if i + 1 < grid.length then ufPice (A i) (simSeq env c A c.g n r i).1 else U i⟩,
        (simSeq env c A c.g n r (grid.length - 1)).2) := by
  obtain ⟨t0, ts, rfl⟩ : ∃ t0 ts, grid = t0 :: ts := by
    match grid, hk with
    | a :: l, _ => exact ⟨a, l, rfl⟩
  unfold piceSim
  have hp : pinRows (arrT (t0 :: ts).length Z) 0 c.x1 = .ok (arrT (t0 :: ts).length (Function.update Z 0 (pt n c.x1))) := by
    rw [pinRows_ok _ 0 0 (by simp [pyIdx]) c.x1, arrT_set]
  simp only [hp, RandM.liftM_ok, pure_bind]
  rw [enumLoop]
  have h0 : ∀ s : PiceArr n ℝ, piceBody env c (arrT (t0 :: ts).length A) 0 t0 s = pure s := by
    intro s; unfold piceBody; rw [if_pos rfl]
  rw [h0, pure_bind]
  have := piceBody_loop (k := (t0 :: ts).length) env c A r ts 0 (Function.update Z 0 (pt n c.x1)) E U
    (by simp [Nat.add_comm]) (by rw [Function.update_self]; rfl)
  refine this.trans ?_
  congr 2
  congr 1
  · refine arrT_congr fun i hi => ?_
    by_cases h : i = 0
    · subst h; rw [if_pos le_rfl, Function.update_self]; rfl
    · rw [if_neg (by omega)]
  · refine arrT_congr fun i hi => ?_
    simp
  · refine arrT_congr fun i hi => ?_
    simp

theorem bas_mono (x : Fin 2 → ℝ) (l : ℕ) (h : l ≤ 15) : bas x l = mono x l := by
  unfold mono exponents
  interval_cases l <;> simp [bas, real_sq, pow3_real, pow4_real] <;> ring

theorem ufPice_poly (hb : b ≤ 15) (A : Mat 2 (b+1) ℝ) (x : Mat 2 n ℝ) :
    ufPice A x = fun a j => polyControl A (fun e => x e j) a := by
  funext a j
  unfold ufPice polyControl
  rw [real_sum]
  refine Finset.sum_congr rfl fun l _ => ?_
  rw [bas_mono _ _ (by have := l.isLt; omega)]

end DPFC
