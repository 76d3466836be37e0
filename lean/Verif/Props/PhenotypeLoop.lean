import Verif.Lib.PhenotypeLoop
import Verif.Props.Phenotype
import Verif.Props.PhenotypeModel

/-!
# C90: the closed loop of the phenotype-differentiation example
-/

namespace DPFC
open Spec
variable {ρ : Type} {N M : ℕ}

/-- **C90** (what is simulated). Every repetition that returns is an Euler-Maruyama simulation of
`dX = f dt + g^2 u dt + g dW` from `y0` (and, with independent noise, of the same with `u = 0`), where `u` is the control
of the bridge for index `i` at the state of index `i - 1`, and the linearised one in the last four steps. -/
theorem C90_simulation (env : Env ρ ℝ) (o : PhenoObj 2 N ℝ) (lin : (Fin 2 → ℝ) → Int → Except PyErr (Fin 2 → ℝ))
    (f : (Fin 2 → ℝ) → Fin 2 → ℝ) (g : ℝ) (y0 : Fin 2 → ℝ) (hk : 1 ≤ o.timegrid.length) (r r' : ρ) (s : PhenoPaths ℝ)
    (hs : phenoLoop env M o lin f g y0 r = .ok (s, r')) :
    ∃ rs : ℕ → ρ, rs 1 = r ∧ rs o.timegrid.length = r' ∧
      PhenoRun env (switched (phenoU env M o) lin o.timegrid.length) f g y0 o.timegrid.length s.cont s.free s.used rs := by
  obtain ⟨rs, h1, h2, hl, hst, hstep⟩ := phenoLoop_run env o lin f g y0 hk r r' s hs
  refine ⟨rs, h1, h2, hl, hst, ?_⟩
  intro i x w hi hi' hx hw
  obtain ⟨u, q, hu, h⟩ := hstep i x w hi hi' hx hw
  refine ⟨u, q, ?_, h⟩
  unfold phenoCtl at hu
  unfold switched
  by_cases hc : o.timegrid.length ≤ i + 4
  · rw [if_pos hc] at hu ⊢
    obtain ⟨hu2, rfl⟩ := RandM.lift_ok.1 hu
    rw [show ((o.timegrid.length - i : ℕ) : ℤ) = (o.timegrid.length : ℤ) - i by omega] at hu2
    rw [hu2]
  · rw [if_neg hc] at hu ⊢
    obtain ⟨v, q1, hv, hu⟩ := RandM.bind_ok.1 hu
    obtain ⟨rfl, rfl⟩ := RandM.pure_ok.1 hu
    rw [hv]

/-- **C90** (linearised control). For a symmetric invertible covariance `C` and mean `m` stored at index `ix`, the
linearised control is `-C^{-1} (x - m)`; for a singular one it raises LinAlgError, so index 0 (zero covariance) can not be
used. -/
theorem C90_gauss (Ct : List (Mat 2 2 ℝ)) (mt : List (Fin 2 → ℝ)) (x : Fin 2 → ℝ) (ix : ℤ) (C : Mat 2 2 ℝ)
    (hC : pyGet Ct ix = .ok C) :
    (¬ IsUnit (Matrix.of C).det → gaussGrad Ct mt x ix = .error .linAlgError) ∧
    (IsUnit (Matrix.of C).det → (∀ a b, C a b = C b a) → ∀ m, pyGet mt ix = .ok m →
      gaussGrad Ct mt x ix = .ok fun a => -((Matrix.of C)⁻¹.mulVec (fun b => x b - m b) a)) := by
  unfold gaussGrad
  rw [hC]
  constructor
  · intro h
    simp only [Except.ok_bind', real_inv_err h, Except.error_bind']
  · intro h hs m hm
    have ht : tr C = C := by funext a b; exact hs b a
    simp only [Except.ok_bind', ht, real_inv_ok h, hm]
    congr 1
    funext a
    rw [real_mv]
    have e : (Matrix.of fun a b => -(lit 1 2) * (matInv C a b + matInv C a b) : Matrix (Fin 2) (Fin 2) ℝ)
        = -(Matrix.of C)⁻¹ := by
      ext a b
      simp only [Matrix.of_apply, Matrix.neg_apply, real_lit_half, matInv]
      ring
    rw [e, Matrix.neg_mulVec]
    rfl

/-- **C90** (the controls that are applied). In every repetition that returns on an object with the RBF kernel: before the
last four steps the control of step `i` is the difference of score estimates of the slices `i` of the kept backward paths
and of the forward particles at the state of index `i - 1`; in the last four steps it is `-C^{-1} (x - m)` with the stored
covariance and mean of the index `k - i`, one of 1, 2, 3, 4, counting the steps that are left. -/
theorem C90_controls (env : Env ρ ℝ) (hN : 0 < N) (o : PhenoObj 2 N ℝ) (hn : 0 < o.nB) (hkern : o.cfg.kern = "RBF")
    (Ct : List (Mat 2 2 ℝ)) (mt : List (Fin 2 → ℝ)) (hinv : ∀ j C, 1 ≤ j → j ≤ 4 → Ct[j]? = some C →
      IsUnit (Matrix.of C).det ∧ ∀ a b, C a b = C b a)
    (f : (Fin 2 → ℝ) → Fin 2 → ℝ) (g : ℝ) (y0 : Fin 2 → ℝ) (hk : 1 ≤ o.timegrid.length) (r r' : ρ) (s : PhenoPaths ℝ)
    (hs : phenoLoop env M o (gaussGrad Ct mt) f g y0 r = .ok (s, r')) (i : ℕ) (h1i : 1 ≤ i) (hik : i < o.timegrid.length)
    (x : Fin 2 → ℝ) (hx : s.cont[i-1]? = some x) :
    (i + 4 < o.timegrid.length → ∀ b z, o.B[i]? = some b → o.Z[i]? = some z →
      ∃ q : ρ, s.used[i]? = some (phenoControl b z (inducing (fun a => max (lo (z a)) (lo (b a)))
        (fun a => min (hi (z a)) (hi (b a))) (unifs env 2 M q)) x)) ∧
    (o.timegrid.length ≤ i + 4 → ∃ j C m, 1 ≤ j ∧ j ≤ 4 ∧ i + j = o.timegrid.length ∧ Ct[j]? = some C ∧ mt[j]? = some m ∧
      s.used[i]? = some fun a => -((Matrix.of C)⁻¹.mulVec (fun b => x b - m b) a)) := by
  obtain ⟨rs, _, _, hl, _, hstep⟩ := C90_simulation env o (gaussGrad Ct mt) f g y0 hk r r' s hs
  obtain ⟨w, hw⟩ : ∃ w, s.free[i-1]? = some w := ⟨_, List.getElem?_eq_getElem (by omega)⟩
  obtain ⟨u, q, hu, hU, _⟩ := hstep i x w h1i hik hx hw
  unfold switched at hu
  constructor
  · intro hc b z hb hz
    rw [if_neg (by omega), phenoU_real env hN o hn hkern _ _ b z (pyGet_of_getElem? hb) (pyGet_of_getElem? hz)] at hu
    refine ⟨rs i, ?_⟩
    rw [hU]
    cases hu
    rfl
  · intro hc
    rw [if_pos hc] at hu
    cases hlin : gaussGrad Ct mt x ((o.timegrid.length : ℤ) - i) with
    | error e => rw [hlin] at hu; cases hu
    | ok v =>
      rw [hlin] at hu
      cases hu
      have hj : (o.timegrid.length : ℤ) - i = ((o.timegrid.length - i : ℕ) : ℤ) := by omega
      rw [hj] at hlin
      have h0 := hlin
      unfold gaussGrad at h0
      obtain ⟨C, hC, h0⟩ := Except.bind_ok.1 h0
      obtain ⟨_, _, h0⟩ := Except.bind_ok.1 h0
      obtain ⟨_, _, h0⟩ := Except.bind_ok.1 h0
      obtain ⟨m, hm, _⟩ := Except.bind_ok.1 h0
      have get : ∀ {α : Type} {l : List α} {a : α}, pyGet l ((o.timegrid.length - i : ℕ) : ℤ) = .ok a →
          l[o.timegrid.length - i]? = some a := by
        intro α l a h
        obtain ⟨j, hj, ha⟩ := pyGet_ok h
        have hlt : o.timegrid.length - i < l.length := by
          unfold pyIdx at hj
          rw [if_pos (by omega)] at hj
          split at hj
          · omega
          · cases hj
        rw [pyIdx_nat _ hlt] at hj
        cases hj
        exact ha
      obtain ⟨hi1, hi2⟩ := hinv _ C (by omega) (by omega) (get hC)
      refine ⟨o.timegrid.length - i, C, m, by omega, by omega, by omega, get hC, get hm, ?_⟩
      rw [hU]
      have := (C90_gauss Ct mt x _ C hC).2 hi1 hi2 m hm
      rw [hlin] at this
      cases this
      rfl

/-- **C90** (it returns). On an object built by the script's constructor call, with at least one kept path and
covariances and means for the indices 1 to 4 that are invertible, every repetition returns. -/
theorem C90_returns (env : Env ρ ℝ) (hN : 0 < N) (p : PhenoPars ℝ) (t1 t2 : ℝ) (y1 y2 : Fin 2 → ℝ) (g : ℝ)
    (h2 : 2 ≤ (mkGrid t1 t2).length) (q q' : ρ) (o : PhenoObj 2 N ℝ)
    (ho : phenoConstruct env M (phenoCfg N p t1 t2 y1 y2 g) q = .ok (o, q')) (hn : 0 < o.nB)
    (Ct : List (Mat 2 2 ℝ)) (mt : List (Fin 2 → ℝ)) (hC : ∀ j, 1 ≤ j → j ≤ 4 → ∃ C, Ct[j]? = some C ∧
      IsUnit (Matrix.of C).det) (hm : 5 ≤ mt.length) (f : (Fin 2 → ℝ) → Fin 2 → ℝ) (g' : ℝ) (y0 : Fin 2 → ℝ) (r : ρ) :
    ∃ s r', phenoLoop env M o (gaussGrad Ct mt) f g' y0 r = .ok (s, r') := by
  obtain ⟨e1, e2, e3, _⟩ := C88_full_run env _ hN rfl rfl h2 q q' o ho
  have hcfg : o.cfg = phenoCfg N p t1 t2 y1 y2 g := by
    obtain ⟨_, _, _, _, _, _, _, rfl⟩ := phenoConstruct_ok.1 ho
    rfl
  have hk : 2 ≤ o.timegrid.length := by rw [e1]; exact h2
  refine phenoLoop_total env o _ f g' y0 (by omega) (fun i x q hi hi' => ?_) r
  unfold phenoCtl
  by_cases hc : o.timegrid.length ≤ i + 4
  · rw [if_pos hc]
    obtain ⟨C, hC1, hC2⟩ := hC (o.timegrid.length - i) (by omega) (by omega)
    have hT : IsUnit (Matrix.of (tr C)).det := by
      have : Matrix.of (tr C) = (Matrix.of C).transpose := by ext a b; rfl
      rw [this, Matrix.det_transpose]; exact hC2
    obtain ⟨m, hm'⟩ : ∃ m, mt[o.timegrid.length - i]? = some m := ⟨_, List.getElem?_eq_getElem (by omega)⟩
    refine ⟨mv (fun a b => -(lit 1 2) * (matInv C a b + matInv (tr C) a b)) fun a => x a - m a, q,
      liftM_ok_app ?_ q⟩
    · unfold gaussGrad
      simp only [pyGet_of_getElem? hC1, Except.ok_bind', real_inv_ok hC2, real_inv_ok hT, pyGet_of_getElem? hm']
  · rw [if_neg hc]
    obtain ⟨b, hb⟩ : ∃ b, o.B[i]? = some b := ⟨_, List.getElem?_eq_getElem (by omega)⟩
    obtain ⟨z, hz⟩ : ∃ z, o.Z[i]? = some z := ⟨_, List.getElem?_eq_getElem (by omega)⟩
    refine ⟨_, _, RandM.bind_ok.2 ⟨_, _, phenoU_real env hN o hn (by rw [hcfg]; rfl) _ _ b z (pyGet_of_getElem? hb)
      (pyGet_of_getElem? hz) q, rfl⟩⟩

/-- **C90** (all paths rejected). If no backward path was kept and the grid has at least six points, every repetition
raises ValueError in its first step. -/
theorem C90_no_paths (env : Env ρ ℝ) (hN : 0 < N) (o : PhenoObj 2 N ℝ) (hn : o.nB = 0) (hk : 6 ≤ o.timegrid.length)
    (hB : o.B.length = o.timegrid.length) (hZ : o.Z.length = o.timegrid.length)
    (lin : (Fin 2 → ℝ) → Int → Except PyErr (Fin 2 → ℝ))
    (f : (Fin 2 → ℝ) → Fin 2 → ℝ) (g : ℝ) (y0 : Fin 2 → ℝ) (r : ρ) :
    phenoLoop env M o lin f g y0 r = .error .valueError := by
  rw [phenoLoop_eq env o lin f g y0 (by omega)]
  obtain ⟨t0, t1, ts, htg⟩ : ∃ t0 t1 ts, o.timegrid = t0 :: t1 :: ts := by
    match h : o.timegrid, hk with
    | a :: b :: l, _ => exact ⟨a, b, l, rfl⟩
  have hc : ¬ o.timegrid.length ≤ 1 + 4 := by omega
  obtain ⟨b, hb⟩ : ∃ b, o.B[1]? = some b := ⟨_, List.getElem?_eq_getElem (by omega)⟩
  obtain ⟨z, hz⟩ : ∃ z, o.Z[1]? = some z := ⟨_, List.getElem?_eq_getElem (by omega)⟩
  have hU : ∀ (x : Mat 2 1 ℝ) q, phenoU env M o x ((1 : ℕ) : ℤ) q = .error .valueError := by
    intro x q
    obtain ⟨c', tg, Z, nB, B'⟩ := o
    simp only at hn hb hz
    subst hn
    unfold phenoU
    simp only [pyGet_of_getElem? hb, pyGet_of_getElem? hz, RandM.liftM_ok, pure_bind]
    rw [interBox2_empty hN (by omega)]
    rfl
  have hstep : phenoLoopStep env (phenoCtl (phenoU env M o) lin o.timegrid.length) f g 1 t1 (fun _ => lit 0 1, y0, y0) r
      = .error .valueError := by
    unfold phenoLoopStep phenoCtl
    rw [if_neg hc]
    simp only [bind_assoc]
    rw [RandM.bind_app, hU]
  have : o.timegrid.tail = t1 :: ts := by rw [htg]; rfl
  rw [this, chain]
  simp only [bind_assoc]
  rw [RandM.bind_app, hstep]

/-- **C90** (array sizes). The arrays that collect the repetitions have as many columns as the grid of the bridge if and
only if the horizon is a multiple of 0.001 or exceeds one by more than half a step. -/
theorem C90_sizes (t1 t2 : ℝ) (h : t1 ≤ t2) :
    (phenoOuterGrid t1 t2).length = (mkGrid t1 t2).length ↔
      Int.fract ((t2 - t1) * 1000) = 0 ∨ 1/2 < Int.fract ((t2 - t1) * 1000) := by
  rw [phenoOuterGrid_length, mkGrid_length_real]
  have hs : 0 ≤ (t2 - t1) * 1000 := by linarith
  rw [show (t2 + 1/2000 - t1) * 1000 = (t2 - t1) * 1000 + 1/2 by ring]
  generalize (t2 - t1) * 1000 = s at hs
  obtain ⟨n, hn⟩ : ∃ n : ℕ, (n : ℤ) = ⌊s⌋ := ⟨⌊s⌋.toNat, Int.toNat_of_nonneg (Int.floor_nonneg.2 hs)⟩
  have hsn : s = n + Int.fract s := by
    have := Int.floor_add_fract s
    rw [← hn] at this
    push_cast at this
    linarith
  have f0 := Int.fract_nonneg s
  have f1 := Int.fract_lt_one s
  generalize Int.fract s = φ at *
  have hA0 : φ = 0 → ⌈s + 1⌉₊ = n + 1 := by
    intro h0; rw [hsn, h0]; norm_num
    rw [show (n : ℝ) + 1 = ((n + 1 : ℕ) : ℝ) by push_cast; ring, Nat.ceil_natCast]
  have hA1 : 0 < φ → ⌈s + 1⌉₊ = n + 2 := by
    intro h0
    refine (Nat.ceil_eq_iff (by omega)).2 ⟨?_, ?_⟩ <;> push_cast <;> linarith
  have hB0 : φ ≤ 1/2 → ⌈s + 1/2⌉₊ = n + 1 := by
    intro h0
    refine (Nat.ceil_eq_iff (by omega)).2 ⟨?_, ?_⟩ <;> push_cast <;> linarith
  have hB1 : 1/2 < φ → ⌈s + 1/2⌉₊ = n + 2 := by
    intro h0
    refine (Nat.ceil_eq_iff (by omega)).2 ⟨?_, ?_⟩ <;> push_cast <;> linarith
  constructor
  · intro heq
    by_contra hcon
    rw [not_or, not_lt] at hcon
    rw [hA1 (lt_of_le_of_ne f0 (Ne.symm hcon.1)), hB0 hcon.2] at heq
    omega
  · rintro (h0 | h0)
    · rw [hA0 h0, hB0 (by linarith)]
    · rw [hA1 (by linarith), hB1 h0]

/-- **C90** (whole script). If the script returns for one noise strength, its bridge was built by the constructor call
with `reject=True`, no reweighting and the gene circuit, and each repetition is a closed-loop simulation with the circuit
as drift from `y1`, with the covariances given and the six linearised means; with at least one repetition the two grids
have the same size, so that for a horizon that is not of this kind (`C90_sizes`) the script does not return. -/
theorem C90_script (env : Env ρ ℝ) (reps : ℕ) (p : PhenoPars ℝ) (Ct : List (Mat 2 2 ℝ)) (t1 t2 : ℝ)
    (y1 y2 : Fin 2 → ℝ) (g : ℝ) (r r' : ρ) (o : PhenoObj 2 N ℝ) (P : Fin reps → PhenoPaths ℝ)
    (h : phenoRuns env N M reps p Ct t1 t2 y1 y2 g r = .ok ((o, P), r')) :
    (∃ q, phenoConstruct env M {
        t1 := t1, t2 := t2, y1 := y1, y2 := y2, f := fun x _ a j => circuit p (fun b => x b j) a,
        f1 := fun x _ => circuit p x, g := g, reweight := false, U := none, reject := true, kern := "RBF" } r
      = .ok (o, q)) ∧
    (0 < reps → o.timegrid.length = (phenoOuterGrid t1 t2).length) ∧
    ∀ i, ∃ q q', phenoLoop env M o (gaussGrad Ct (phenoMeans p y2 6)) (circuit p) g y1 q = .ok (P i, q') := by
  unfold phenoRuns at h
  obtain ⟨o', q, ho, h⟩ := RandM.bind_ok.1 h
  obtain ⟨P', q1, hP, h⟩ := RandM.bind_ok.1 h
  obtain ⟨e, rfl⟩ := RandM.pure_ok.1 h
  cases e
  obtain ⟨rs, _, _, hrs⟩ := seqM_rand_ok.1 hP
  have key : ∀ i, o.timegrid.length = (phenoOuterGrid t1 t2).length ∧
      ∃ q q', phenoLoop env M o (gaussGrad Ct (phenoMeans p y2 6)) (circuit p) g y1 q = .ok (P i, q') := by
    intro i
    obtain ⟨s, q2, hs, h⟩ := RandM.bind_ok.1 (hrs i)
    have hf : phenoF1 p = circuit p := funext (phenoF1_real p)
    rw [hf] at hs
    by_cases hl : o.timegrid.length = (phenoOuterGrid t1 t2).length
    · rw [if_pos hl] at h
      obtain ⟨rfl, _⟩ := RandM.pure_ok.1 h
      exact ⟨hl, _, _, hs⟩
    · rw [if_neg hl, RandM.raise_app] at h
      cases h
  refine ⟨⟨q, ?_⟩, fun h => (key ⟨0, h⟩).1, fun i => (key i).2⟩
  have e : phenoCfg N p t1 t2 y1 y2 g = {
      t1 := t1, t2 := t2, y1 := y1, y2 := y2,
      f := fun x _ a j => circuit p (fun b => x b j) a, f1 := fun x _ => circuit p x, g := g, reweight := false,
      U := none, reject := true, kern := "RBF" } := by
    unfold phenoCfg
    congr 1
    · funext x t a j
      exact phenoF_real p x a j
    · funext x t
      exact phenoF1_real p x
  rw [← e]
  exact ho

/-! ### Examples -/

/-- Covariances that are symmetric and, from index 1 on, invertible. -/
noncomputable def exCt : List (Mat 2 2 ℝ) := (List.range 6).map fun (i : ℕ) a b => if a = b then (i : ℝ) / 1000 else 0

theorem exCt_ok (j : ℕ) (h1 : 1 ≤ j) (h4 : j ≤ 4) : ∃ C, exCt[j]? = some C ∧ IsUnit (Matrix.of C).det ∧
    ∀ a b, C a b = C b a := by
  refine ⟨fun a b => if a = b then (j : ℝ) / 1000 else 0, by unfold exCt; rw [List.getElem?_map, List.getElem?_range (by omega)]; rfl, ?_, ?_⟩
  · rw [Matrix.det_fin_two]
    simp only [Matrix.of_apply, if_true, if_neg (show ¬ (0 : Fin 2) = 1 by decide), if_neg (show ¬ (1 : Fin 2) = 0 by decide)]
    have : (0 : ℝ) < j := by exact_mod_cast h1
    rw [isUnit_iff_ne_zero]
    have := mul_pos this this
    norm_num
    omega
  · intro a b
    simp only [eq_comm]

/-- C90_simulation, C90_controls, C90_returns: a bridge on 11 points without rejection (all paths are kept), and the loop
on it, with the script's circuit and means. -/
example (r : ℕ) : ∃ o q s r', phenoConstruct exEnv 20 { exPheno 400 10 with reject := false } r = .ok (o, q) ∧
    0 < o.nB ∧ phenoLoop exEnv 20 o (gaussGrad exCt (phenoMeans ⟨1/2, 1/2, 1/2, 1/2⟩ ![1, 1] 6))
      (circuit ⟨1/2, 1/2, 1/2, 1/2⟩) 1 ![1.996, 0.004] q = .ok (s, r') := by
  have hg : (mkGrid ({ exPheno 400 10 with reject := false } : PhenoCfg 2 400 ℝ).t1 (exPheno 400 10).t2).length = 11 :=
    exPheno_grid 400 10
  obtain ⟨o, q, h⟩ := C88_returns (M := 20) exEnv { exPheno 400 10 with reject := false } (by norm_num) rfl rfl
    (by rw [hg]; norm_num) r
  obtain ⟨e1, e2, e3, _⟩ := C88_full_run exEnv _ (by norm_num) rfl rfl (by rw [hg]; norm_num) r q o h
  have hn : o.nB = 400 := (C87_never_raises (d := 0) exEnv (exPheno 400 10) r q o h).1
  rw [e1, hg] at e2 e3
  have hk : o.timegrid.length = 11 := by rw [e1, hg]
  have hcfg : o.cfg.kern = "RBF" := by
    obtain ⟨_, _, _, _, _, _, _, rfl⟩ := phenoConstruct_ok.1 h
    rfl
  obtain ⟨s, r', hs⟩ := phenoLoop_total (M := 20) exEnv o (gaussGrad exCt (phenoMeans ⟨1/2, 1/2, 1/2, 1/2⟩ ![1, 1] 6))
    (circuit ⟨1/2, 1/2, 1/2, 1/2⟩) 1 ![1.996, 0.004] (by omega) (fun i x q hi hi' => by
      unfold phenoCtl
      by_cases hc : o.timegrid.length ≤ i + 4
      · rw [if_pos hc]
        obtain ⟨C, hC1, hC2, hC3⟩ := exCt_ok (o.timegrid.length - i) (by omega) (by omega)
        obtain ⟨m, hm⟩ : ∃ m, (phenoMeans (⟨1/2, 1/2, 1/2, 1/2⟩ : PhenoPars ℝ) ![1, 1] 6)[o.timegrid.length - i]? = some m :=
          ⟨_, List.getElem?_eq_getElem (by rw [(C89_mean _ _ 6).1]; omega)⟩
        exact ⟨_, q, liftM_ok_app ((C90_gauss exCt _ x _ C (pyGet_of_getElem? hC1)).2 hC2 hC3 m (pyGet_of_getElem? hm)) q⟩
      · rw [if_neg hc]
        obtain ⟨b, hb⟩ : ∃ b, o.B[i]? = some b := ⟨_, List.getElem?_eq_getElem (by omega)⟩
        obtain ⟨z, hz⟩ : ∃ z, o.Z[i]? = some z := ⟨_, List.getElem?_eq_getElem (by omega)⟩
        exact ⟨_, _, RandM.bind_ok.2 ⟨_, _, phenoU_real exEnv (by norm_num) o (by omega) hcfg _ _ b z
          (pyGet_of_getElem? hb) (pyGet_of_getElem? hz) q, rfl⟩⟩) q
  exact ⟨o, q, s, r', h, by omega, hs⟩

/-- C90_no_paths: the bridge with `g = 0`. -/
example (r : ℕ) : ∃ o q, phenoConstruct exEnv 20 { exPheno 400 10 with g := 0 } r = .ok (o, q) ∧
    phenoLoop exEnv 20 o (gaussGrad exCt []) (circuit ⟨1/2, 1/2, 1/2, 1/2⟩) 0 ![1.996, 0.004] q = .error .valueError := by
  have hg : (mkGrid ({ exPheno 400 10 with g := 0 } : PhenoCfg 2 400 ℝ).t1 (exPheno 400 10).t2).length = 11 :=
    exPheno_grid 400 10
  obtain ⟨o, q, h⟩ := C88_returns (M := 20) exEnv { exPheno 400 10 with g := 0 } (by norm_num) rfl rfl
    (by rw [hg]; norm_num) r
  obtain ⟨e1, e2, e3, _⟩ := C88_full_run exEnv _ (by norm_num) rfl rfl (by rw [hg]; norm_num) r q o h
  exact ⟨o, q, h, C90_no_paths exEnv (by norm_num) o (C87_no_noise (d := 0) (m := 1) exEnv _ (by norm_num) rfl rfl r q o h).1
    (by rw [e1, hg]; norm_num) e3 e2 _ _ _ _ q⟩

/-- C90_sizes: the script's horizon 0.5, and a horizon of 0.5 steps. -/
example : (phenoOuterGrid (0:ℝ) 0.5).length = (mkGrid (0:ℝ) 0.5).length ∧
    (phenoOuterGrid (0:ℝ) 0.0005).length ≠ (mkGrid (0:ℝ) 0.0005).length := by
  constructor
  · rw [C90_sizes _ _ (by norm_num)]
    left
    rw [show ((0.5 - 0) * 1000 : ℝ) = ((500 : ℤ) : ℝ) by norm_num, Int.fract_intCast]
  · rw [Ne, C90_sizes _ _ (by norm_num), not_or]
    have : Int.fract ((0.0005 - 0) * 1000 : ℝ) = 1/2 := by
      rw [Int.fract_eq_iff]
      refine ⟨by norm_num, by norm_num, 0, by norm_num⟩
    rw [this]
    norm_num

end DPFC
