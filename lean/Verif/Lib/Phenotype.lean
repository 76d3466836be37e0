import Verif.Model.Phenotype
import Verif.Lib.Kuramoto

/-! The constructor of the phenotype-differentiation class as chains of steps, and its rejection step, for any
arithmetic. -/

namespace DPFC

/-! ### Deleting trajectories -/

section
variable {K : Type} {N d : Nat}

/-- The trajectories listed in `l`. -/
def sel (B : Traj d N K) (l : List (Fin N)) : (n : Nat) × Traj d n K :=
  ⟨l.length, B.map fun S a j => S a (l.get j)⟩

theorem sel_eq (B : Traj d N K) (l : List (Fin N)) (n : Nat) (h : l.length = n) :
    sel B l = ⟨n, B.map fun S a j => S a (l.get (Fin.cast h.symm j))⟩ := by
  subst h; rfl

theorem npDelete_sel (B : Traj d N K) (l : List (Fin N)) (e : Nat) (he : e < l.length) :
    npDelete (sel B l) e = .ok (sel B (l.eraseIdx e)) := by
  obtain ⟨m, hm⟩ : ∃ m, l.length = m + 1 := ⟨l.length - 1, by omega⟩
  have hm' : (l.eraseIdx e).length = m := by rw [List.length_eraseIdx_of_lt he]; omega
  rw [sel_eq B l (m+1) hm, sel_eq B _ m hm']
  unfold npDelete
  simp only
  rw [dif_pos (by omega)]
  congr 2
  rw [List.map_map]
  congr 1
  funext S a j
  simp only [Function.comp_apply, List.get_eq_getElem, Fin.val_cast, List.getElem_eraseIdx]
  by_cases h : j.val < e
  · rw [dif_pos h]
    congr 2
    rw [Fin.succAbove_of_castSucc_lt _ _ (by rw [Fin.lt_def]; exact h)]
    rfl
  · rw [dif_neg h]
    congr 2
    rw [Fin.succAbove_of_le_castSucc _ _ (by rw [Fin.le_def]; exact Nat.le_of_not_lt h)]
    rfl

/-- Positions, counted from `s`, of the bad entries. -/
def badIdx (bad : Fin N → Bool) : Nat → List (Fin N) → List Nat
  | _, [] => []
  | s, a :: l => if bad a then s :: badIdx bad (s+1) l else badIdx bad (s+1) l

theorem badIdx_eq (bad : Fin N → Bool) : ∀ (l : List (Fin N)) (s : Nat),
    (∀ i (h : i < l.length), (l[i]).val = s + i) → badIdx bad s l = (l.filter bad).map (·.val)
  | [], _, _ => rfl
  | a :: l, s, h => by
    have ih := badIdx_eq bad l (s+1) fun i hi => by
      have := h (i+1) (by simpa using hi)
      rw [List.getElem_cons_succ] at this
      omega
    have h0 := h 0 (by simp)
    rw [List.getElem_cons_zero] at h0
    unfold badIdx
    rw [ih]
    by_cases hb : bad a = true
    · rw [if_pos hb, List.filter_cons_of_pos hb, List.map_cons]
      congr 1; omega
    · rw [if_neg hb, List.filter_cons_of_neg hb]

theorem foldl_delete (B : Traj d N K) (bad : Fin N → Bool) : ∀ (L P : List (Fin N)),
    (badIdx bad P.length L).reverse.foldlM npDelete (sel B (P ++ L)) = .ok (sel B (P ++ L.filter fun i => !bad i))
  | [], P => rfl
  | a :: L, P => by
    have ih := foldl_delete B bad L (P ++ [a])
    rw [List.length_append, List.length_singleton, List.append_assoc, List.singleton_append, List.append_assoc,
      List.singleton_append] at ih
    unfold badIdx
    by_cases hb : bad a = true
    · rw [if_pos hb, List.reverse_cons, List.foldlM_append, ih, List.filter_cons_of_neg (by simp [hb])]
      simp only [Except.ok_bind', List.foldlM_cons, List.foldlM_nil]
      rw [npDelete_sel _ _ _ (by simp)]
      rw [List.eraseIdx_append_of_length_le (Nat.le_refl _)]
      simp
    · rw [if_neg hb, ih, List.filter_cons_of_pos (by simp [hb])]

theorem foldl_delete_all (B : Traj d N K) (bad : Fin N → Bool) :
    (((List.finRange N).filter bad).map (·.val)).reverse.foldlM npDelete ⟨N, B⟩
      = .ok (sel B ((List.finRange N).filter fun i => !bad i)) := by
  have h := foldl_delete B bad (List.finRange N) []
  rw [List.nil_append, List.nil_append, badIdx_eq bad _ _ (by simp)] at h
  rw [← h]
  congr 1
  rw [sel_eq B (List.finRange N) N (by simp)]
  congr 1
  conv_lhs => rw [← List.map_id B]
  congr 1
  funext S a j
  simp

end

section
variable {K ρ : Type} [Add K] [Sub K] [Mul K] [Div K] [Neg K] [NumOps K]
variable {N M d n : Nat}

/-- The library configuration with the same forward flow. -/
def PhenoCfg.lib (M : Nat) (c : PhenoCfg d N K) : Cfg d N M K where
  t1 := c.t1
  t2 := c.t2
  y1 := c.y1
  y2 := c.y2
  f := ⟨c.f, none⟩
  g := c.g
  reweight := false
  U := none
  densEst := "nonparametric"
  reject := true
  kern := "RBF"
  fTrue := none
  brownBridge := true
  deterministic := true

theorem scoreOld_eq_sep (X : Mat N d K) (Z : Mat M d K) (C : K) (l : LS d K) (w : Int) :
    scoreOld X Z C "RBF" l w = scoreSep X Z C "RBF" l w := rfl

theorem phenoFlow_lib (env : Env ρ K) (c : PhenoCfg d N K) (hk : c.kern = "RBF") (x : Mat d N K) (t : K) :
    phenoFlow env M c x t = ottoStep true env M "RBF" c.g (c.lib M).f x t := by
  unfold phenoFlow ottoStep phenoVel fSeperate scoreAtParticles
  simp only [hk, scoreOld_eq_sep, if_true, bind_assoc]
  rfl

theorem phenoFwdBody_lib (env : Env ρ K) (c : PhenoCfg d N K) (hk : c.kern = "RBF") (hr : c.reweight = false) :
    phenoFwdBody env M c = ottoBody env (c.lib M) := by
  funext ti tt Z
  unfold phenoFwdBody ottoBody
  simp only [hr, phenoFlow_lib env c hk]
  rfl

/-- The forward flow is the library's in Brownian-bridge mode without reweighting. -/
theorem phenoForward_lib (env : Env ρ K) (c : PhenoCfg d N K) (hk : c.kern = "RBF") (hr : c.reweight = false)
    (grid : List K) (Z : Traj d N K) : phenoForward env M c grid Z = forwardOtto env (c.lib M) grid Z := by
  unfold phenoForward forwardOtto
  rw [phenoFwdBody_lib env c hk hr]

/-- `density_estimation` on given slices. -/
def phenoDensityAt (env : Env ρ K) (M : Nat) (kern : String) (z b : Mat d N K) : RandM ρ (Mat d N K) := do
  let bnds ← (interBox z b : Except PyErr (Fin d → K × K))
  let bnds ← (plotGuard bnds : Except PyErr (Fin d → K × K))
  let Sxx ← npInducing env bnds M
  seqM d fun di =>
    (score2Fn (tr z) (tr Sxx) (lit 1 1000) kern (.vec (lengthScales z)) (di.val + 1) (tr b) : Except PyErr (Fin N → K))

/-- `bw_density_estimation` on given slices. -/
def phenoBwDensityAt (env : Env ρ K) (M : Nat) (kern : String) (z b : Mat d N K) : RandM ρ (Mat d N K) := do
  let bnds ← (interBox z b : Except PyErr (Fin d → K × K))
  let Sxx ← npInducing env bnds M
  seqM d fun di =>
    (scoreOld (tr b) (tr Sxx) (lit 1 1000) kern (.vec (lengthScales b)) (di.val + 1) : Except PyErr (Fin N → K))

/-- One backward step from `b` at time `t` with the forward slice `z` of the previous index. -/
def phenoBackStep (env : Env ρ K) (M : Nat) (c : PhenoCfg d N K) (ti : Nat) (zt : Mat d N K × K) (b : Mat d N K) :
    RandM ρ (Mat d N K) := do
  let gro ← phenoDensityAt env M c.kern zt.1 b
  if ti = 1 then do
    let xi ← normalMat env (NumOps.sqrt dtc) d N
    pure fun i n => b i n - c.f b zt.2 i n * dtc + dtc * sq c.g * gro i n + c.g * xi i n
  else do
    let grb ← phenoBwDensityAt env M c.kern zt.1 b
    pure fun i n => b i n - (c.f b zt.2 i n - sq c.g * gro i n + lit 1 2 * sq c.g * grb i n) * dtc

theorem phenoBackBody_succ (env : Env ρ K) (c : PhenoCfg d N K) (grid : List K) (Z : Traj d N K)
    (hZ : grid.length ≤ Z.length) (ti : Nat) (tt : K) (B : Traj d N K) (x : Mat d N K) (u : Mat d N K × K)
    (h1 : 1 ≤ ti) (hk : ti < grid.length) (hB : grid.length ≤ B.length)
    (hx : B[grid.length - ti]? = some x) (hu : (phaseVisits Z grid)[ti-1]? = some u) :
    phenoBackBody env M c grid Z ti tt B
      = (do let y ← phenoBackStep env M c ti u x; pure (B.set (grid.length - ti - 1) y)) := by
  obtain ⟨hz, ht⟩ := phaseVisits_get Z grid hZ hu
  have ez : pyGet Z ((grid.length : Int) - ti - 1) = .ok u.1 := by
    have hti : ti - 1 < grid.length - 2 := by
      rw [← phaseVisits_length Z grid hZ]
      rw [List.getElem?_eq_some_iff] at hu; exact hu.1
    rw [show (grid.length : Int) - ti - 1 = ((grid.length - 2 - (ti - 1) : Nat) : Int) by omega]
    exact pyGet_of_getElem? hz
  have et : pyGet grid ((grid.length : Int) - ti) = .ok u.2 := by
    rw [show (grid.length : Int) - ti = ((grid.length - 1 - (ti - 1) : Nat) : Int) by omega]
    exact pyGet_of_getElem? ht
  have eb : pyGet B ((grid.length : Int) - ti) = .ok x := by
    rw [show (grid.length : Int) - ti = ((grid.length - ti : Nat) : Int) by omega]
    exact pyGet_of_getElem? hx
  have es : ∀ S : Mat d N K, setSlice B ((grid.length : Int) - ti - 1) S
      = .ok (B.set (grid.length - ti - 1) S) := by
    intro S
    rw [show (grid.length : Int) - ti - 1 = ((grid.length - ti - 1 : Nat) : Int) by omega]
    exact setSlice_nat _ (by omega) _
  unfold phenoBackBody phenoBackStep phenoDensity phenoBwDensity phenoDensityAt phenoBwDensityAt
  simp only [if_neg (show ¬ ti = 0 by omega), ez, et, eb, es, RandM.liftM_ok, pure_bind, bind_assoc]
  congr 1; funext bn
  congr 1; funext bg
  congr 1; funext sx
  congr 1; funext s
  by_cases hc : ti = 1
  · simp only [if_pos hc, bind_assoc, pure_bind]
  · simp only [if_neg hc, bind_assoc, pure_bind]

theorem phenoBackward_eq (env : Env ρ K) (c : PhenoCfg d N K) (grid : List K) (Z B : Traj d N K)
    (h2 : 2 ≤ grid.length) (hZ : grid.length ≤ Z.length) (hB : B.length = grid.length) :
    phenoBackward env M c grid Z B = (do
      let ys ← chain (phenoBackStep env M c) 1 (phaseVisits Z grid) (pt N c.y2)
      pure (pt N c.y1 :: (ys.reverse ++ [pt N c.y2]))) := by
  obtain ⟨t0, t1, ts, rfl⟩ : ∃ t0 t1 ts, grid = t0 :: t1 :: ts := by
    match grid, h2 with
    | a :: b :: l, _ => exact ⟨a, b, l, rfl⟩
  have hk : (t0 :: t1 :: ts).length = ts.length + 2 := rfl
  have hv : (phaseVisits Z (t0 :: t1 :: ts)).length = ts.length := by
    rw [phaseVisits_length _ _ hZ, hk]; omega
  have hz0 : phenoBackBody env M c (t0 :: t1 :: ts) Z 0 t0 B = pure (B.set (ts.length + 1) (pt N c.y2)) := by
    unfold phenoBackBody
    rw [if_pos rfl, pinRows_ok _ _ (ts.length + 1) (by rw [pyIdx_neg_one (by omega), hB, hk]; congr 1), RandM.liftM_ok]
  unfold phenoBackward
  rw [List.dropLast_cons_cons, enumLoop, hz0, pure_bind,
    enumLoop_chain_rev_le (phenoBackBody env M c (t0 :: t1 :: ts) Z)
      (phenoBackStep env M c) (t0 :: t1 :: ts).length (phaseVisits Z (t0 :: t1 :: ts))
      (fun ti tt B x u h1 hk hB hx hu =>
        phenoBackBody_succ env c (t0 :: t1 :: ts) Z hZ ti tt B x u h1 hk hB hx hu)
      (phaseVisits Z (t0 :: t1 :: ts)) (t1 :: ts).dropLast 1 _ (pt N c.y2) (by omega) rfl
      (by simp [hv]) (by rw [hv, hk]; omega) (by rw [List.length_set, hB])
      (by rw [hk, show ts.length + 2 - 1 = ts.length + 1 by omega, List.getElem?_set_self (by omega)])]
  simp only [bind_assoc, pure_bind]
  congr 1; funext ys
  rw [hv, hk, show ts.length + 2 - 1 - ts.length = 1 by omega]
  obtain ⟨a, b', Bs, rfl⟩ : ∃ a b Bs, B = a :: b :: Bs := by
    match B, (show 2 ≤ B.length by omega) with
    | a :: b :: Z, _ => exact ⟨a, b, Z, rfl⟩
  rw [pinRows_ok _ _ 0 (pyIdx_zero (by simp)), RandM.liftM_ok]
  congr 1
  simp only [List.length_cons] at hB
  have e : ((b' :: Bs).set ts.length (pt N c.y2)).drop ts.length = [pt N c.y2] := by
    rw [List.drop_eq_getElem_cons (by simp; omega)]
    simp [List.drop_eq_nil_of_le, show Bs.length = ts.length by omega]
  simp only [List.set_cons_succ, List.take_succ_cons, List.take_zero, List.cons_append, List.nil_append,
    List.set_cons_zero, show ts.length + 2 - 1 = ts.length + 1 by omega, List.drop_succ_cons, e]

/-- A returning construction on a grid of at least two points, without reweighting and with the RBF kernel. -/
theorem phenoConstruct_iff {env : Env ρ K} {c : PhenoCfg d N K} (hk : c.kern = "RBF") (hr : c.reweight = false)
    (h2 : 2 ≤ (mkGrid c.t1 c.t2).length) {r r' : ρ} {o : PhenoObj d N K} :
    phenoConstruct env M c r = .ok (o, r') ↔
    ∃ ys r1 bs Bf, chain (ottoSlice env (c.lib M)) 1 (mkGrid c.t1 c.t2).tail (pt N c.y1) r = .ok (ys, r1) ∧
      chain (phenoBackStep env M c) 1 (phaseVisits (pt N c.y1 :: ys) (mkGrid c.t1 c.t2)) (pt N c.y2) r1 = .ok (bs, r') ∧
      rejectTrajectories c (pt N c.y1 :: (bs.reverse ++ [pt N c.y2])) = .ok Bf ∧
      o = ⟨c, mkGrid c.t1 c.t2, pt N c.y1 :: ys, Bf.1, Bf.2⟩ := by
  unfold phenoConstruct
  generalize mkGrid c.t1 c.t2 = grid at h2 ⊢
  obtain ⟨t0, t1, ts, rfl⟩ : ∃ t0 t1 ts, grid = t0 :: t1 :: ts := by
    match grid, h2 with
    | a :: b :: l, _ => exact ⟨a, b, l, rfl⟩
  rw [phenoForward_lib env c hk hr, forwardOtto_eq env (c.lib M) t0 t1 ts _ (by simp [zerosT])]
  rw [List.tail_cons]
  constructor
  · intro h
    obtain ⟨Z, r1, hZ, h⟩ := RandM.bind_ok.1 h
    obtain ⟨ys, r2, hys, hZ⟩ := RandM.bind_ok.1 hZ
    obtain ⟨rfl, rfl⟩ := RandM.pure_ok.1 hZ
    have hyl := chain_length hys
    obtain ⟨B, r3, hB, h⟩ := RandM.bind_ok.1 h
    rw [phenoBackward_eq env c _ _ _ h2 (by simp at hyl ⊢; omega) (by simp [zerosT])] at hB
    obtain ⟨bs, r4, hbs, hB⟩ := RandM.bind_ok.1 hB
    obtain ⟨rfl, rfl⟩ := RandM.pure_ok.1 hB
    obtain ⟨Bf, r5, hBf, h⟩ := RandM.bind_ok.1 h
    obtain ⟨hBf2, rfl⟩ := RandM.lift_ok.1 hBf
    obtain ⟨rfl, rfl⟩ := RandM.pure_ok.1 h
    exact ⟨ys, _, bs, Bf, hys, hbs, hBf2, rfl⟩
  · rintro ⟨ys, r1, bs, Bf, hys, hbs, hBf, rfl⟩
    have hyl := chain_length hys
    refine RandM.bind_ok.2 ⟨_, r1, RandM.bind_ok.2 ⟨ys, r1, hys, rfl⟩,
      RandM.bind_ok.2 ⟨pt N c.y1 :: (bs.reverse ++ [pt N c.y2]), r', ?_, ?_⟩⟩
    · rw [phenoBackward_eq env c _ _ _ h2 (by simp at hyl ⊢; omega) (by simp [zerosT])]
      exact RandM.bind_ok.2 ⟨bs, r', hbs, rfl⟩
    · exact RandM.bind_ok.2 ⟨Bf, r', RandM.lift_ok.2 ⟨hBf, rfl⟩, rfl⟩

/-- The indices computed by the rejection step do not depend on the flag `reject`. -/
theorem rejectTrajectories_eq (c : PhenoCfg d N K) (B : Traj d N K) {up lo : Fin d → K} {b : Mat d N K} (hd : 0 < d)
    (hb : rejectBounds c = .ok (up, lo)) (hB : B[1]? = some b) :
    rejectTrajectories c B = .ok (if c.reject then sel B ((List.finRange N).filter fun i =>
      NumOps.ltB (b ⟨0, hd⟩ i) (up ⟨0, hd⟩) && NumOps.ltB (lo ⟨0, hd⟩) (b ⟨0, hd⟩ i)) else ⟨N, B⟩) := by
  have hg : ∀ {α : Type} (v : Fin d → α), pyGet (List.ofFn v) 0 = .ok (v ⟨0, hd⟩) := by
    intro α v
    have : (List.ofFn v)[0]? = some (v ⟨0, hd⟩) := by simp [hd]
    exact pyGet_of_getElem? this
  have hB' : pyGet B 1 = .ok b := pyGet_of_getElem? hB
  unfold rejectTrajectories rejectIdx
  simp only [hb, hB', hg, Except.ok_bind', Bool.or_self]
  by_cases hr : c.reject = true
  · rw [if_pos hr, if_pos hr, foldl_delete_all]
    simp only [Bool.not_not]
  · rw [if_neg hr, if_neg hr]

end
end DPFC
