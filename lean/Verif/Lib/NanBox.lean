import Verif.Lib.Nan

/-! Boxes, inducing points and NaN, for any arithmetic. -/

set_option linter.unusedSectionVars false

namespace DPFC
open Spec
section
variable {K ρ : Type} [Add K] [Sub K] [Mul K] [Div K] [Neg K] [NumOps K]
variable {N M d n c : Nat}

theorem npMin_total (hN : 0 < N) (v : Fin N → K) : ∃ a, npMin v = .ok a := by
  cases N with
  | zero => omega
  | succ N => exact ⟨_, rfl⟩

theorem npMax_total (hN : 0 < N) (v : Fin N → K) : ∃ a, npMax v = .ok a := by
  cases N with
  | zero => omega
  | succ N => exact ⟨_, rfl⟩

theorem torchMin_total (hN : 0 < N) (v : Fin N → K) : ∃ a, torchMin v = .ok a := by
  cases N with
  | zero => omega
  | succ N => exact ⟨_, rfl⟩

theorem torchMax_total (hN : 0 < N) (v : Fin N → K) : ∃ a, torchMax v = .ok a := by
  cases N with
  | zero => omega
  | succ N => exact ⟨_, rfl⟩

theorem interBox_total (hN : 0 < N) (z b : Mat d N K) : ∃ bn, interBox z b = .ok bn := by
  choose zl h1 using fun a => npMin_total hN (z a)
  choose bl h2 using fun a => npMin_total hN (b a)
  choose zh h3 using fun a => npMax_total hN (z a)
  choose bh h4 using fun a => npMax_total hN (b a)
  refine ⟨fun a => (pyMax (zl a) (bl a), pyMin (zh a) (bh a)), ?_⟩
  unfold interBox
  exact seqM_except_ok.2 fun a => by rw [h1, h2, h3, h4]; rfl

theorem interBox_get {z b : Mat d N K} {bn} (h : interBox z b = .ok bn) (a : Fin d) :
    ∃ zl bl zh bh, npMin (z a) = .ok zl ∧ npMin (b a) = .ok bl ∧ npMax (z a) = .ok zh ∧
      npMax (b a) = .ok bh ∧ bn a = (pyMax zl bl, pyMin zh bh) := by
  have := seqM_except_ok.1 h a
  obtain ⟨zl, h1, this⟩ := Except.bind_ok.1 this
  obtain ⟨bl, h2, this⟩ := Except.bind_ok.1 this
  obtain ⟨zh, h3, this⟩ := Except.bind_ok.1 this
  obtain ⟨bh, h4, this⟩ := Except.bind_ok.1 this
  injection this with this
  exact ⟨zl, bl, zh, bh, h1, h2, h3, h4, this.symm⟩

theorem hullBox_total (hN : 0 < N) (z b : Mat d N K) : ∃ bn, hullBox z b = .ok bn := by
  choose zl h1 using fun a => torchMin_total hN (z a)
  choose bl h2 using fun a => torchMin_total hN (b a)
  choose zh h3 using fun a => torchMax_total hN (z a)
  choose bh h4 using fun a => torchMax_total hN (b a)
  refine ⟨fun a => (pyMin (zl a) (bl a), pyMax (zh a) (bh a)), ?_⟩
  unfold hullBox
  exact seqM_except_ok.2 fun a => by rw [h1, h2, h3, h4]; rfl

theorem boxOf_get {x : Mat d N K} {bn} (h : boxOf x = .ok bn) (a : Fin d) :
    ∃ l u, npMin (x a) = .ok l ∧ npMax (x a) = .ok u ∧ bn a = (l, u) := by
  have := seqM_except_ok.1 h a
  obtain ⟨l, h1, this⟩ := Except.bind_ok.1 this
  obtain ⟨u, h2, this⟩ := Except.bind_ok.1 this
  injection this with this
  exact ⟨l, u, h1, h2, this.symm⟩

theorem torchBox_get {x : Mat d N K} {bn} (h : torchBox x = .ok bn) (a : Fin d) :
    ∃ l u, torchMin (x a) = .ok l ∧ torchMax (x a) = .ok u ∧ bn a = (l, u) := by
  have := seqM_except_ok.1 h a
  obtain ⟨l, h1, this⟩ := Except.bind_ok.1 this
  obtain ⟨u, h2, this⟩ := Except.bind_ok.1 this
  injection this with this
  exact ⟨l, u, h1, h2, this.symm⟩

theorem densityBox_get {z b : Mat d N K} {bn} (h : densityBox z b = .ok bn) (a : Fin d) :
    ∃ bl bh zl zh, torchMin (b a) = .ok bl ∧ torchMax (b a) = .ok bh ∧ torchMin (z a) = .ok zl ∧
      torchMax (z a) = .ok zh ∧ bn a = if NumOps.eqB bl bh then (zl, zh) else (pyMin zl bl, pyMax zh bh) := by
  have := seqM_except_ok.1 h a
  obtain ⟨bl, h1, this⟩ := Except.bind_ok.1 this
  obtain ⟨bh, h2, this⟩ := Except.bind_ok.1 this
  obtain ⟨zl, h3, this⟩ := Except.bind_ok.1 this
  obtain ⟨zh, h4, this⟩ := Except.bind_ok.1 this
  refine ⟨bl, bh, zl, zh, h1, h2, h3, h4, ?_⟩
  split at this
  · rename_i he
    injection this with this
    rw [if_pos he, this]
  · rename_i he
    injection this with this
    rw [if_neg he, this]

/-- Every number in a vector of draws is a draw. -/
theorem drawVec_mem {α : Type} (draw : ρ → α × ρ) : ∀ (n : Nat) (r : ρ) (i : Fin n),
    ∃ r', (drawVec draw n r).1 i = (draw r').1
  | 0, _, i => i.elim0
  | n+1, r, i => by
    cases i using Fin.cases with
    | zero => exact ⟨r, rfl⟩
    | succ i =>
      obtain ⟨r', h⟩ := drawVec_mem draw n (draw r).2 i
      exact ⟨r', h⟩

theorem drawMat_mem {α : Type} (draw : ρ → α × ρ) (n m : Nat) (r : ρ) (i : Fin m) (j : Fin n) :
    ∃ r', (drawVec (drawVec draw n) m r).1 i j = (draw r').1 := by
  obtain ⟨r1, h1⟩ := drawVec_mem (drawVec draw n) m r i
  rw [h1]
  exact drawVec_mem draw n r1 j

/-- Successful numpy inducing points: the ranges are finite and the points are affine in the draws. -/
theorem npInducing_get {env : Env ρ K} {bn : Fin d → K × K} {S : Mat d M K} {r r' : ρ}
    (h : npInducing env bn M r = .ok (S, r')) (a : Fin d) :
    NumOps.isFinite ((bn a).2 - (bn a).1) = true ∧
      ∀ m, ∃ r1, S a m = (bn a).1 + ((bn a).2 - (bn a).1) * (env.uniform r1).1 := by
  unfold npInducing at h
  obtain ⟨rs, _, _, hs⟩ := seqM_rand_ok.1 h
  have := hs a
  unfold npUniform at this
  split at this
  · rename_i hf
    injection this with this
    injection this with this _
    refine ⟨hf, fun m => ?_⟩
    obtain ⟨r1, h1⟩ := drawVec_mem env.uniform M (rs a.castSucc) m
    exact ⟨r1, by rw [← this, ← h1]⟩
  · cases this

theorem npInducing_total (env : Env ρ K) (bn : Fin d → K × K)
    (h : ∀ a, NumOps.isFinite ((bn a).2 - (bn a).1) = true) (r : ρ) :
    ∃ S r', npInducing env bn M r = .ok (S, r') := by
  unfold npInducing
  induction d generalizing r with
  | zero => exact ⟨_, _, rfl⟩
  | succ d ih =>
    obtain ⟨S, r', h'⟩ := ih (fun i => bn i.succ) (fun a => h a.succ) (drawVec env.uniform M r).2
    rw [seqM]
    refine ⟨_, r', RandM.bind_ok.2 ⟨fun i => (bn 0).1 + ((bn 0).2 - (bn 0).1) * (drawVec env.uniform M r).1 i,
      (drawVec env.uniform M r).2, ?_, RandM.bind_ok.2 ⟨S, r', h', rfl⟩⟩⟩
    unfold npUniform; rw [if_pos (h 0)]

theorem torchInducing_get {env : Env ρ K} {bn : Fin d → K × K} {S : Mat M d K} {r r' : ρ}
    (h : torchInducing env bn M r = .ok (S, r')) (a : Fin d) :
    NumOps.ltB (bn a).1 (bn a).2 = true := by
  unfold torchInducing at h
  split at h
  · rename_i hf
    exact (List.all_eq_true.1 hf) a (List.mem_finRange a)
  · cases h

variable (I : Ieee K)

theorem nan_npMin {v : Fin N → K} {l : K} (h : npMin v = .ok l) (i : Fin N) (hi : I.nan (v i)) : I.nan l := by
  cases N with
  | zero => exact i.elim0
  | succ N => injection h with h; rw [← h]; exact I.nan_amin i hi

theorem nan_npMax {v : Fin N → K} {l : K} (h : npMax v = .ok l) (i : Fin N) (hi : I.nan (v i)) : I.nan l := by
  cases N with
  | zero => exact i.elim0
  | succ N => injection h with h; rw [← h]; exact I.nan_amax i hi

theorem nan_torchMin {v : Fin N → K} {l : K} (h : torchMin v = .ok l) (i : Fin N) (hi : I.nan (v i)) :
    I.nan l := by
  cases N with
  | zero => exact i.elim0
  | succ N => injection h with h; rw [← h]; exact I.nan_amin i hi

theorem nan_torchMax {v : Fin N → K} {l : K} (h : torchMax v = .ok l) (i : Fin N) (hi : I.nan (v i)) :
    I.nan l := by
  cases N with
  | zero => exact i.elim0
  | succ N => injection h with h; rw [← h]; exact I.nan_amax i hi

theorem pyMax_nan_left {a b : K} (h : I.nan a) : pyMax a b = a := by
  unfold pyMax; rw [I.ltB_nan (Or.inl h)]; rfl

theorem pyMin_nan_left {a b : K} (h : I.nan a) : pyMin a b = a := by
  unfold pyMin; rw [I.ltB_nan (Or.inr h)]; rfl

theorem pyMax_nan_right {a b : K} (h : I.nan b) : pyMax a b = a := by
  unfold pyMax; rw [I.ltB_nan (Or.inr h)]; rfl

theorem pyMin_nan_right {a b : K} (h : I.nan b) : pyMin a b = a := by
  unfold pyMin; rw [I.ltB_nan (Or.inl h)]; rfl

theorem not_nan_of_range {l u : K} (h : NumOps.isFinite (u - l) = true) : ¬ I.nan l := by
  intro hn
  rw [I.isFinite_nan (I.nan_sub_right hn)] at h
  cases h

/-- A successful numpy Otto step: no NaN in the cloud. -/
theorem scoreAtParticles_no_nan {pl : Bool} {env : Env ρ K} {kern : String} {x v : Mat d N K} {r r' : ρ}
    (h : scoreAtParticles pl env M kern x r = .ok (v, r')) (a : Fin d) (p : Fin N) : ¬ I.nan (x a p) := by
  unfold scoreAtParticles at h
  obtain ⟨bn, r0, h0, h⟩ := RandM.bind_ok.1 h
  obtain ⟨bn', r0', h0g, h⟩ := RandM.bind_ok.1 h
  rw [optGuard_ok (RandM.lift_ok.1 h0g).1] at h
  obtain ⟨S, r1, h1, _⟩ := RandM.bind_ok.1 h
  obtain ⟨l, u, hl, hu, he⟩ := boxOf_get (RandM.lift_ok.1 h0).1 a
  have := (npInducing_get h1 a).1
  rw [he] at this
  exact fun hn => not_nan_of_range I this (nan_npMin I hl p hn)

theorem densityAt_no_nan {env : Env ρ K} {kern : String} {z b v : Mat d N K} {r r' : ρ}
    (h : densityAt env M kern z b r = .ok (v, r')) (a : Fin d) (p : Fin N) : ¬ I.nan (z a p) := by
  obtain ⟨bn, S, r1, h0, h1, _⟩ := densityAt_parts h
  obtain ⟨zl, bl, zh, bh, e1, e2, e3, e4, he⟩ := interBox_get h0 a
  have := (npInducing_get h1 a).1
  rw [he] at this
  intro hn
  have hz := nan_npMin I e1 p hn
  have h2 := not_nan_of_range I this
  dsimp only at h2
  rw [pyMax_nan_left I hz] at h2
  exact h2 hz

theorem torchFSeperate_no_nan {env : Env ρ K} {g : K} {f : Drift d N K} {x v : Mat d N K} {t : K}
    {r r' : ρ} (h : torchFSeperate env M g f x t r = .ok (v, r')) (a : Fin d) (p : Fin N) :
    ¬ I.nan (x a p) := by
  unfold torchFSeperate at h
  obtain ⟨bn, r0, h0, h⟩ := RandM.bind_ok.1 h
  obtain ⟨S, r1, h1, _⟩ := RandM.bind_ok.1 h
  obtain ⟨l, u, hl, hu, he⟩ := torchBox_get (RandM.lift_ok.1 h0).1 a
  have := torchInducing_get h1 a
  rw [he] at this
  intro hn
  rw [I.ltB_nan (Or.inl (nan_torchMin I hl p hn))] at this
  cases this

theorem torchDensityAt_no_nan {env : Env ρ K} {kern : String} {z b v : Mat d N K} {r r' : ρ}
    (h : torchDensityAt env M kern z b r = .ok (v, r')) (a : Fin d) (p : Fin N) : ¬ I.nan (z a p) := by
  unfold torchDensityAt at h
  obtain ⟨bn, r0, h0, h⟩ := RandM.bind_ok.1 h
  obtain ⟨S, r1, h1, _⟩ := RandM.bind_ok.1 h
  obtain ⟨bl, bh, zl, zh, e1, e2, e3, e4, he⟩ := densityBox_get (RandM.lift_ok.1 h0).1 a
  have := torchInducing_get h1 a
  rw [he] at this
  intro hn
  have hz := nan_torchMin I e3 p hn
  split at this
  · rw [I.ltB_nan (Or.inl hz)] at this; cases this
  · dsimp only at this
    rw [pyMin_nan_left I hz, I.ltB_nan (Or.inl hz)] at this
    cases this

/-! ### The first backward step from a cloud without spread -/

theorem amin_const_npMin {y l : K} (hy : I.fin y) (h : npMin (fun _ : Fin N => y) = .ok l) : l = y := by
  cases N with
  | zero => cases h
  | succ N => injection h with h; rw [← h]; exact I.amin_const hy

theorem amax_const_npMax {y l : K} (hy : I.fin y) (h : npMax (fun _ : Fin N => y) = .ok l) : l = y := by
  cases N with
  | zero => cases h
  | succ N => injection h with h; rw [← h]; exact I.amax_const hy

theorem pyMax_self (a : K) : pyMax a a = a := by unfold pyMax; split <;> rfl
theorem pyMin_self (a : K) : pyMin a a = a := by unfold pyMin; split <;> rfl

/-- The numpy score of a cloud concentrated in one point, at that point, is NaN. -/
theorem densityAt_point_nan {env : Env ρ K} {kern : String} {y : Fin d → K} {v : Mat d N K} {r r' : ρ}
    (hM : 0 < M) (hd : 0 < d) (hk : kern ≠ "periodic") (hy : ∀ a, I.fin (y a) ∧ ExactMean N (y a))
    (hu : ∀ r, I.fin (env.uniform r).1)
    (h : densityAt env M kern (pt N y) (pt N y) r = .ok (v, r')) (a : Fin d) (p : Fin N) :
    I.nan (v a p) := by
  have hN : 0 < N := by have := p.2; omega
  obtain ⟨bn, S, r1, h0, h1, hs⟩ := densityAt_parts h
  refine nan_scoreSepFn I hM hk (hs a) p fun m => ⟨a, ?_⟩
  obtain ⟨zl, bl, zh, bh, e1, e2, e3, e4, he⟩ := interBox_get h0 a
  obtain ⟨_, h3⟩ := npInducing_get h1 a
  obtain ⟨r2, h4⟩ := h3 m
  have f1 := amin_const_npMin I (hy a).1 e1
  have f2 := amin_const_npMin I (hy a).1 e2
  have f3 := amax_const_npMax I (hy a).1 e3
  have f4 := amax_const_npMax I (hy a).1 e4
  rw [f1, f2, f3, f4, pyMax_self, pyMin_self] at he
  rw [he] at h4
  refine nan_rbfFactor_zero I ?_ (I.mul_zero I.lit_two
    (zero_npStd I (hy a).1 hN (hy a).2))
  change I.zero (y a - S a m)
  rw [h4]
  exact I.sub_add_zero (hy a).1 (I.zero_mul (I.sub_self (hy a).1) (hu r2))

end
end DPFC
