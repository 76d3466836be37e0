import Verif.Lib.Phenotype
import Verif.Lib.RecReal
import Verif.Lib.KuramotoLoop
import Verif.Spec.Phenotype

/-! The phenotype-differentiation class over the reals. -/

namespace DPFC
open Spec
variable {ρ : Type} {N M d n m : ℕ}

theorem phenoDensityAt_real (env : Env ρ ℝ) (hN : 0 < N) (z b : Mat 2 N ℝ) (r : ρ) :
    phenoDensityAt env M "RBF" z b r = .ok (scoreRho z b (unifs env 2 M r), unifsNext env 2 M r) := by
  unfold phenoDensityAt
  rw [interBox_real hN]
  simp only [RandM.liftM_ok, pure_bind, plotGuard_real]
  change ((npInducing env (fun a => (max (lo (z a)) (lo (b a)), min (hi (z a)) (hi (b a)))) M) >>= _) r = _
  rw [RandM.bind_app, npInducing_gen]
  simp only
  apply liftSeq_real
  intro a
  rw [real_lit_milli, score2Fn_real milli_gt _ _ _ _ a (by rw [Int.add_sub_cancel]; exact pyIdx_nat 2 a.2)]
  simp only [lengthScales_real]
  rfl

theorem phenoBwDensityAt_real (env : Env ρ ℝ) (hN : 0 < N) (z b : Mat d N ℝ) (r : ρ) :
    phenoBwDensityAt env M "RBF" z b r = .ok (scoreB z b (unifs env d M r), unifsNext env d M r) :=
  bwDensityAt_real env hN z b r

theorem phenoBackStep_real (env : Env ρ ℝ) (hN : 0 < N) (c : PhenoCfg 2 N ℝ) (hk : c.kern = "RBF") (i : ℕ)
    (zt : Mat 2 N ℝ × ℝ) (b : Mat 2 N ℝ) (r : ρ) :
    phenoBackStep env M c i zt b r = .ok (if i = 1 then
      (fun a n => b a n - c.f b zt.2 a n * (1/1000) + 1/1000 * c.g^2 * scoreRho zt.1 b (unifs env 2 M r) a n
        + c.g * (Real.sqrt (1/1000) * normals env 2 N (unifsNext env 2 M r) a n),
        normalsNext env 2 N (unifsNext env 2 M r))
      else (fun a n => b a n - 1/1000 * (c.f b zt.2 a n - c.g^2 * scoreRho zt.1 b (unifs env 2 M r) a n
        + c.g^2/2 * scoreB zt.1 b (unifs env 2 M (unifsNext env 2 M r)) a n),
        unifsNext env 2 M (unifsNext env 2 M r))) := by
  unfold phenoBackStep
  rw [hk, RandM.bind_app, phenoDensityAt_real env hN]
  simp only
  by_cases hi : i = 1
  · rw [if_pos hi, if_pos hi, RandM.bind_app, normalMat_real]
    simp only [RandM.pure_app, dtc_real, real_sq, real_sqrt]
  · rw [if_neg hi, if_neg hi, RandM.bind_app, phenoBwDensityAt_real env hN]
    simp only [RandM.pure_app, dtc_real, real_sq, real_lit_half]
    congr 2
    funext a n
    ring

theorem phenoBackChain_spec (env : Env ρ ℝ) (c : PhenoCfg 2 N ℝ) (hN : 0 < N) (hk : c.kern = "RBF")
    (Z bs : Traj 2 N ℝ) (w z : Mat 2 N ℝ) (grid : List ℝ) (r r' : ρ) (h2 : 2 ≤ grid.length)
    (hZ : Z.length = grid.length)
    (h : chain (phenoBackStep env M c) 1 (phaseVisits Z grid) z r = .ok (bs, r')) :
    ∃ rs : ℕ → ρ, rs (grid.length - 2) = r ∧ rs 0 = r' ∧
      PhenoBackwardRec env M c grid.length (fun i => Z[i]?)
        (fun i => (w :: (bs.reverse ++ [z]))[i]?) (fun i => grid[i]?) rs := by
  obtain ⟨hl, rs, h0, h1, hs⟩ := chain_ok_iff.1 h
  rw [phaseVisits_length Z grid hZ.ge] at h1 hl
  refine ⟨fun j => rs (grid.length - 2 - j), by simp [h0], by simpa using h1, ?_⟩
  intro j zj b y tj hj1 hj2 hz hb hy ht
  simp only at hz hb hy ht
  have key : ∀ i, i ≤ bs.length → (w :: (bs.reverse ++ [z]))[i+1]? = (z :: bs)[bs.length - i]? := by
    intro i hi
    rw [List.getElem?_cons_succ]
    by_cases he : i = bs.length
    · subst he
      rw [List.getElem?_append_right (by simp)]
      simp
    · rw [List.getElem?_append_left (by simp; omega), List.getElem?_reverse (by omega)]
      obtain ⟨m, hm⟩ : ∃ m, bs.length - i = m + 1 := ⟨bs.length - i - 1, by omega⟩
      rw [hm, List.getElem?_cons_succ]
      congr 1; omega
  obtain ⟨m, hm⟩ : ∃ m, grid.length = m + j + 2 := ⟨grid.length - j - 2, by omega⟩
  obtain ⟨u, hu⟩ : ∃ u, (phaseVisits Z grid)[m]? = some u :=
    ⟨_, List.getElem?_eq_getElem (by rw [phaseVisits_length Z grid hZ.ge]; omega)⟩
  obtain ⟨hu1, hu2⟩ := phaseVisits_get Z grid hZ.ge hu
  rw [show grid.length - 2 - m = j by omega, hz] at hu1
  rw [show grid.length - 1 - m = j + 1 by omega, ht] at hu2
  have e : u = (zj, tj) := by
    obtain ⟨u1, u2⟩ := u
    cases hu1; cases hu2; rfl
  subst e
  have hb' : (z :: bs)[m]? = some b := by
    have := key j (by omega)
    rw [hb, hl, show grid.length - 2 - j = m by omega] at this
    exact this.symm
  have hy' : (z :: bs)[m+1]? = some y := by
    have := key (j-1) (by omega)
    rw [show j - 1 + 1 = j by omega, hy, hl, show grid.length - 2 - (j - 1) = m + 1 by omega] at this
    exact this.symm
  have hst := hs m (zj, tj) b y hu hb' hy'
  rw [phenoBackStep_real env hN c hk] at hst
  simp only [show grid.length - 2 - j = m by omega, show grid.length - 2 - (j - 1) = m + 1 by omega]
  constructor
  · intro he
    rw [if_pos (by omega)] at hst
    injection hst with hst
    injection hst with hst1 hst2
    exact ⟨hst2.symm, fun _ => hst1.symm⟩
  · intro he
    rw [if_neg (by omega)] at hst
    injection hst with hst
    injection hst with hst1 hst2
    exact ⟨hst2.symm, fun _ _ => hst1.symm⟩

theorem rejectBounds_real (c : PhenoCfg (d+2) N ℝ) : rejectBounds c = .ok
    (fun a => c.y1 a + c.f1 c.y1 c.t1 a * (1/1000) + 4 * c.g^2 * Real.sqrt (1/1000),
     fun a => c.y1 a + c.f1 c.y1 c.t1 a * (1/1000) - 4 * c.g^2 * Real.sqrt (1/1000)) := by
  have hw : 0 ≤ 4 * c.g^2 * Real.sqrt (1/1000) := by positivity
  have e4 : (lit 4 1 : ℝ) = 4 := by simp
  have hg : ∀ (v : Fin (d+2) → ℝ) (i : Fin 2), pyGet (List.ofFn v) (i.val : Int) = .ok (v ⟨i.val, by omega⟩) := by
    intro v i
    have : (List.ofFn v)[i.val]? = some (v ⟨i.val, by omega⟩) := by
      rw [List.getElem?_ofFn, dif_pos (by omega)]
    exact pyGet_of_getElem? this
  have hf : ∀ t : ℝ, ¬ (t + 4 * c.g^2 * Real.sqrt (1/1000) < t - 4 * c.g^2 * Real.sqrt (1/1000)) := by
    intro t; linarith
  unfold rejectBounds
  simp only [e4, real_sq, real_sqrt, dtc_real, forFin, hg, Except.ok_bind', real_ltB, hf, decide_false,
    Bool.false_eq_true, if_false, Except.pure_eq]

theorem mem_sel_strictMono {l : List (Fin N)} (h : l.Pairwise (· < ·)) : StrictMono l.get := by
  intro i j hij
  exact List.pairwise_iff_get.1 h i j hij

theorem phenoFlow_real (env : Env ρ ℝ) (hN : 0 < N) (c : PhenoCfg d N ℝ) (hk : c.kern = "RBF") (x : Mat d N ℝ) (t : ℝ) :
    Total (phenoFlow env M c x t) := by
  rw [phenoFlow_lib env c hk]
  exact fun r => ⟨_, _, ottoStep_real _ env hN _ _ _ _ r⟩

theorem interBox2_real (hN : 0 < N) (hn : 0 < n) (z : Mat d N ℝ) (b : Mat d n ℝ) :
    interBox2 z b = .ok fun a => (max (lo (z a)) (lo (b a)), min (hi (z a)) (hi (b a))) := by
  unfold interBox2
  apply seqM_except_ok.2
  intro a
  simp only [npMin_real hN, npMin_real hn, npMax_real hN, npMax_real hn, Except.ok_bind', pyMax_real, pyMin_real]

theorem interBox2_empty (hN : 0 < N) (hd : 0 < d) (z : Mat d N ℝ) (b : Mat d 0 ℝ) :
    interBox2 z b = .error .valueError := by
  obtain ⟨e, rfl⟩ : ∃ e, d = e + 1 := ⟨d - 1, by omega⟩
  unfold interBox2
  rw [seqM]
  have e0 : ∀ v : Fin 0 → ℝ, npMin v = .error .valueError := fun _ => rfl
  simp only [npMin_real hN, e0, Except.ok_bind', Except.error_bind']

theorem phenoU_real (env : Env ρ ℝ) (hN : 0 < N) (o : PhenoObj 2 N ℝ) (hn : 0 < o.nB) (hkern : o.cfg.kern = "RBF")
    (x : Mat 2 m ℝ) (ti : Int) (b : Mat 2 o.nB ℝ) (z : Mat 2 N ℝ) (hb : pyGet o.B ti = .ok b) (hz : pyGet o.Z ti = .ok z)
    (r : ρ) :
    phenoU env M o x ti r = .ok (fun a j => phenoControl b z (inducing (fun a => max (lo (z a)) (lo (b a)))
      (fun a => min (hi (z a)) (hi (b a))) (unifs env 2 M r)) (fun a => x a j) a, unifsNext env 2 M r) := by
  unfold phenoU
  simp only [hb, hz, interBox2_real hN hn, RandM.liftM_ok, pure_bind]
  rw [RandM.bind_app, npInducing_gen]
  simp only
  refine seqM_rand_ok.2 ⟨fun _ => unifsNext env 2 M r, rfl, rfl, fun a => ?_⟩
  have hw : pyIdx 2 ((a.val : Int) + 1 - 1) = .ok a.val := by rw [Int.add_sub_cancel]; exact pyIdx_nat 2 a.2
  rw [real_lit_milli, hkern, score2Fn_real milli_gt _ _ _ _ a hw, score2Fn_real milli_gt _ _ _ _ a hw]
  simp only [RandM.liftM_ok, pure_bind, RandM.pure_app, lengthScales_real]
  rfl

theorem phenoConstruct_ok {env : Env ρ ℝ} {c : PhenoCfg d N ℝ} {r r' : ρ} {o : PhenoObj d N ℝ} :
    phenoConstruct env M c r = .ok (o, r') ↔ ∃ Z r1 B Bf,
      phenoForward env M c (mkGrid c.t1 c.t2) (zerosT d N (mkGrid c.t1 c.t2).length) r = .ok (Z, r1) ∧
      phenoBackward env M c (mkGrid c.t1 c.t2) Z (zerosT d N (mkGrid c.t1 c.t2).length) r1 = .ok (B, r') ∧
      rejectTrajectories c B = .ok Bf ∧ o = ⟨c, mkGrid c.t1 c.t2, Z, Bf.1, Bf.2⟩ := by
  unfold phenoConstruct
  simp only [RandM.bind_ok, RandM.lift_ok, RandM.pure_ok]
  constructor
  · rintro ⟨Z, r1, hZ, B, r2, hB, Bf, r3, ⟨hBf, rfl⟩, rfl, rfl⟩
    exact ⟨Z, r1, B, Bf, hZ, hB, hBf, rfl⟩
  · rintro ⟨Z, r1, B, Bf, hZ, hB, hBf, rfl⟩
    exact ⟨Z, r1, hZ, B, r', hB, Bf, r', ⟨hBf, rfl⟩, rfl, rfl⟩

theorem rejectIdx_one {c : PhenoCfg d N ℝ} {B : Traj d N ℝ} {Bf : (n : ℕ) × Traj d n ℝ}
    (h : rejectTrajectories c B = .ok Bf) : ∃ b, B[1]? = some b := by
  unfold rejectTrajectories rejectIdx at h
  obtain ⟨_, h, _⟩ := Except.bind_ok.1 h
  obtain ⟨_, _, h⟩ := Except.bind_ok.1 h
  obtain ⟨b, hb, _⟩ := Except.bind_ok.1 h
  obtain ⟨j, hj, hb⟩ := pyGet_ok hb
  have h1 := pyIdx_ok_lt hj
  have : j = 1 := by
    unfold pyIdx at hj
    simp only [show (0:Int) ≤ 1 by norm_num, if_true] at hj
    split at hj
    · injection hj with hj; simpa using hj.symm
    · cases hj
  exact ⟨b, this ▸ hb⟩


theorem finRange_filter_strictMono (p : Fin N → Bool) : StrictMono ((List.finRange N).filter p).get :=
  mem_sel_strictMono ((List.pairwise_lt_finRange N).filter _)

theorem accepted_iff (c : PhenoCfg (d+2) N ℝ) (v : ℝ) : (NumOps.ltB v (c.y1 0 + c.f1 c.y1 c.t1 0 * (1/1000)
      + 4 * c.g^2 * Real.sqrt (1/1000)) && NumOps.ltB (c.y1 0 + c.f1 c.y1 c.t1 0 * (1/1000)
      - 4 * c.g^2 * Real.sqrt (1/1000)) v) = true ↔ Accepted c v := by
  rw [Bool.and_eq_true, real_ltB, real_ltB]
  unfold Accepted
  rw [abs_lt]
  constructor
  · rintro ⟨h1, h2⟩; constructor <;> linarith
  · rintro ⟨h1, h2⟩; constructor <;> linarith

/-- The rejection step, described by the injection of the accepted paths. -/
theorem reject_spec (c : PhenoCfg (d+2) N ℝ) (B : Traj (d+2) N ℝ) (b : Mat (d+2) N ℝ) (hb : B[1]? = some b) :
    ∃ Bf, rejectTrajectories c B = .ok Bf ∧ (c.reject = false → Bf = ⟨N, B⟩) ∧
      (c.reject = true → ∃ e : Fin Bf.1 → Fin N, StrictMono e ∧ (∀ i, (∃ j, e j = i) ↔ Accepted c (b 0 i)) ∧
        Bf.2 = B.map fun S a j => S a (e j)) := by
  refine ⟨_, rejectTrajectories_eq c B (by omega) (rejectBounds_real c) hb, ?_, ?_⟩
  · intro h; rw [if_neg (by simp [h])]
  · intro h
    rw [if_pos h]
    refine ⟨_, finRange_filter_strictMono _, ?_, rfl⟩
    intro i
    rw [← accepted_iff]
    constructor
    · rintro ⟨j, rfl⟩
      have := List.get_mem ((List.finRange N).filter fun i =>
        NumOps.ltB (b 0 i) (c.y1 0 + c.f1 c.y1 c.t1 0 * (1/1000) + 4 * c.g^2 * Real.sqrt (1/1000)) &&
        NumOps.ltB (c.y1 0 + c.f1 c.y1 c.t1 0 * (1/1000) - 4 * c.g^2 * Real.sqrt (1/1000)) (b 0 i)) j
      exact (List.mem_filter.1 this).2
    · intro hp
      have : i ∈ ((List.finRange N).filter fun i =>
        NumOps.ltB (b 0 i) (c.y1 0 + c.f1 c.y1 c.t1 0 * (1/1000) + 4 * c.g^2 * Real.sqrt (1/1000)) &&
        NumOps.ltB (c.y1 0 + c.f1 c.y1 c.t1 0 * (1/1000) - 4 * c.g^2 * Real.sqrt (1/1000)) (b 0 i)) :=
        List.mem_filter.2 ⟨List.mem_finRange i, hp⟩
      exact List.get_of_mem this

theorem rejectBounds_small {K : Type} [Add K] [Sub K] [Mul K] [Div K] [Neg K] [NumOps K] (hd : d < 2)
    (c : PhenoCfg d N K) : rejectBounds c = .error .indexError := by
  have h0 : d = 0 ∨ d = 1 := by omega
  unfold rejectBounds
  rcases h0 with rfl | rfl
  · rfl
  · have e : ∀ v : Fin 1 → K, pyGet (List.ofFn v) ((1 : ℕ) : Int) = .error .indexError := fun v => rfl
    simp only [forFin]
    have e0 : ∀ v : Fin 1 → K, pyGet (List.ofFn v) ((0 : ℕ) : Int) = .ok (v 0) := fun v => rfl
    simp only [Fin.val_zero, e0, Except.ok_bind', Fin.val_succ, Nat.zero_add, e]
    split <;> simp only [Except.ok_bind', Except.error_bind']

theorem phenoFwdBody_zero {K : Type} [Add K] [Sub K] [Mul K] [Div K] [Neg K] [NumOps K] (env : Env ρ K)
    (c : PhenoCfg d N K) (tt : K) (Z : Traj d N K) (h0 : 0 < Z.length) :
    phenoFwdBody env M c 0 tt Z = pure ((Z.set 0 (pt N c.y1)).set (Z.length - 1) (pt N c.y2)) := by
  have h := ottoBody_zero (M := M) env (c.lib M) tt Z h0
  unfold ottoBody at h
  unfold phenoFwdBody
  simp only [if_pos rfl, Nat.lt_irrefl, decide_false, Bool.and_false, Bool.false_eq_true, if_false, bind_pure] at h ⊢
  exact h

theorem phenoFwdBody_one (env : Env ρ ℝ) (c : PhenoCfg d N ℝ) (tt : ℝ) (Z : Traj d N ℝ) (h1 : 1 < Z.length) (r : ρ) :
    ∃ y r', phenoFwdBody env M c 1 tt Z r = (if c.reweight then
      .error (if c.U = none then .typeError else .nameError) else .ok (Z.set 1 y, r')) := by
  obtain ⟨x, hx⟩ : ∃ x, Z[1-1]? = some x := ⟨_, List.getElem?_eq_getElem (by omega)⟩
  obtain ⟨hg, hg2⟩ := slice_access le_rfl h1 hx
  have hs : ∀ y : Mat d N ℝ, setSlice Z ((1 : ℕ) : Int) y = .ok (Z.set 1 y) := fun y => setSlice_nat _ h1 _
  unfold phenoFwdBody
  simp only [if_neg (show ¬ (1 : ℕ) = 0 by omega), hg, RandM.liftM_ok, pure_bind, phenoNoisy, bind_assoc, hs]
  rw [if_pos trivial, RandM.bind_app, normalMat_real]
  cases hr : c.reweight with
  | false =>
    exact ⟨_, _, rfl⟩
  | true =>
    refine ⟨x, r, ?_⟩
    simp only [Bool.true_and, Nat.zero_lt_one, decide_true, if_true, hg2, RandM.liftM_ok, pure_bind]
    unfold phenoReweight
    cases hu : c.U <;> simp

theorem phenoFlow_kernel (env : Env ρ ℝ) (hN : 0 < N) (hd : 0 < d) (c : PhenoCfg d N ℝ) (hk : c.kern ≠ "RBF") (x : Mat d N ℝ)
    (t : ℝ) (r : ρ) : phenoFlow env M c x t r = .error .nameError := by
  obtain ⟨e, rfl⟩ : ∃ e, d = e + 1 := ⟨d - 1, by omega⟩
  unfold phenoFlow phenoVel
  simp only [bind_assoc]
  rw [boxOf_real hN]
  simp only [RandM.liftM_ok, pure_bind, plotGuard_real]
  change ((npInducing env (fun a => (lo (x a), hi (x a))) M) >>= _) r = _
  rw [RandM.bind_app, npInducing_gen]
  simp only
  rw [seqM]
  simp only [scoreOld, oldCommon, if_neg hk, Except.error_bind', RandM.liftM_error, RandM.raise_bind, RandM.raise_app]

end DPFC
