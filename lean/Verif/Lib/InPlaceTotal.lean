import Verif.Lib.InPlace
import Verif.Lib.FlowReal

/-! A construction with callables that always return, over the reals. -/

set_option linter.unusedSectionVars false

namespace DPFC
open Spec

variable {ρ : Type} {N M d : Nat}

/-- The computation always returns, with a list of length `k`. -/
def TotalLen {S : Type} (k : Nat) (x : RandM ρ (List S)) : Prop :=
  ∀ r, ∃ Z r', x r = .ok (Z, r') ∧ Z.length = k

theorem enumLoop_totalLen' {S τ : Type} {k : Nat} (_ : 2 ≤ k) {body : Nat → τ → List S → RandM ρ (List S)}
    (h : ∀ ti tt Z, ti < k - 1 → Z.length = k → TotalLen k (body ti tt Z)) :
    ∀ (ts : List τ) (ti : Nat) (Z : List S), ti + ts.length ≤ k - 1 → Z.length = k → TotalLen k (enumLoop body ti ts Z)
  | [], _, Z, _, hZ => fun r => ⟨Z, r, rfl, hZ⟩
  | t :: ts, ti, Z, hk, hZ => by
    intro r
    simp only [List.length_cons] at hk
    obtain ⟨Z1, r1, e1, h1⟩ := h ti t Z (by omega) hZ r
    obtain ⟨Z2, r2, e2, h2⟩ := enumLoop_totalLen' ‹_› h ts (ti + 1) Z1 (by omega) h1 r1
    exact ⟨Z2, r2, RandM.bind_ok.2 ⟨Z1, r1, e1, e2⟩, h2⟩

theorem enumLoop_totalLen {S τ : Type} {k : Nat} {body : Nat → τ → List S → RandM ρ (List S)}
    (h : ∀ ti tt Z, ti < k → Z.length = k → TotalLen k (body ti tt Z)) :
    ∀ (ts : List τ) (ti : Nat) (Z : List S), ti + ts.length ≤ k → Z.length = k → TotalLen k (enumLoop body ti ts Z)
  | [], _, Z, _, hZ => fun r => ⟨Z, r, rfl, hZ⟩
  | t :: ts, ti, Z, hk, hZ => by
    intro r
    simp only [List.length_cons] at hk
    obtain ⟨Z1, r1, e1, h1⟩ := h ti t Z (by omega) hZ r
    obtain ⟨Z2, r2, e2, h2⟩ := enumLoop_totalLen h ts (ti + 1) Z1 (by omega) h1 r1
    exact ⟨Z2, r2, RandM.bind_ok.2 ⟨Z1, r1, e1, e2⟩, h2⟩

theorem storeStep_total {Z : Traj d N ℝ} {ti : Nat} (h1 : 1 ≤ ti) (h2 : ti < Z.length)
    (p : Mat d N ℝ × Mat d N ℝ) : storeStep Z ti p = .ok ((Z.set (ti - 1) p.2).set ti p.1) := by
  unfold storeStep
  rw [show ((ti : Int) - 1) = ((ti - 1 : Nat) : Int) by omega, setSlice_nat _ (by omega)]
  exact setSlice_nat _ (by simpa using h2) _

theorem storeBack_total {B : Traj d N ℝ} {j : Nat} (h1 : 1 ≤ j) (h2 : j < B.length)
    (p : Mat d N ℝ × Mat d N ℝ) : storeBack B ((j : Int) - 1) p = .ok ((B.set j p.2).set (j - 1) p.1) := by
  unfold storeBack
  rw [show ((j : Int) - 1 + 1) = (j : Int) by omega, setSlice_nat _ (by omega)]
  rw [show ((j : Int) - 1) = ((j - 1 : Nat) : Int) by omega]
  exact setSlice_nat _ (by simp; omega) _

/-- The drift callable always returns. -/
def Returns (f : EDrift d N ρ ℝ) : Prop := ∀ x t, Total (f.call2 x t)

theorem eForwardCall_total (plot : Bool) (env : Env ρ ℝ) (hN : 0 < N) (g : ℝ) (f : EDrift d N ρ ℝ) (hf : Returns f)
    (ti : Nat) (x : Mat d N ℝ) (t : ℝ) : Total (eForwardCall plot env M "RBF" g f ti x t) := by
  unfold eForwardCall
  split
  · exact (hf x t).bind fun _ => Total.bind (fun r => ⟨_, _, normalMat_real env _ r⟩) fun _ => Total.pure _
  · refine Total.bind ?_ fun _ => Total.pure _
    exact Total.bind (fun r => ⟨_, _, scoreAtParticles_real plot env hN x r⟩) fun _ =>
      (hf x t).bind fun _ => Total.pure _

theorem eOttoBody_totalLen (env : Env ρ ℝ) (c : ECfg d N M ρ ℝ) (hN : 0 < N) (hk : effKern c.kern = "RBF")
    (hf : Returns c.f) (hr : c.reweight = false) (k ti : Nat) (tt : ℝ) (Z : Traj d N ℝ) (h1 : ti < k)
    (hZ : Z.length = k) : TotalLen k (eOttoBody env c ti tt Z) := by
  intro r
  by_cases h0 : ti = 0
  · subst h0
    rw [eOttoBody_zero env c tt Z (by omega)]
    refine ⟨_, r, rfl, ?_⟩
    split <;> simpa using hZ
  · obtain ⟨p, r1, e1⟩ := eForwardCall_total true env hN c.g c.f hf ti (Z[ti - 1]) (tt - dtc) r (M := M)
    refine ⟨(Z.set (ti - 1) p.2).set ti p.1, r1, ?_, ?_⟩
    · unfold eOttoBody eOttoMove
      rw [if_neg h0, hr, hk]
      simp only [Bool.false_and, Bool.false_eq_true, if_false, bind_pure]
      refine RandM.bind_ok.2 ⟨Z[ti - 1], r, ?_, RandM.bind_ok.2 ⟨p, r1, e1, ?_⟩⟩
      · refine RandM.lift_ok.2 ⟨?_, rfl⟩
        rw [show ((ti : Int) - 1) = ((ti - 1 : Nat) : Int) by omega]
        exact pyGet_of_getElem? (by simp)
      · exact RandM.lift_ok.2 ⟨storeStep_total (by omega) (by omega) p, rfl⟩
    · simpa using hZ

theorem densityEst_total (env : Env ρ ℝ) (hN : 0 < N) {Z B : Traj d N ℝ} {j : Nat} (hZ : j < Z.length)
    (hB : j < B.length) : Total (densityEst env M "RBF" Z B (j : Int)) := by
  intro r
  exact ⟨_, _, RandM.bind_ok.2 ⟨Z[j], r, RandM.lift_ok.2 ⟨pyGet_of_getElem? (by simp [hZ]), rfl⟩,
    RandM.bind_ok.2 ⟨B[j], r, RandM.lift_ok.2 ⟨pyGet_of_getElem? (by simp [hB]), rfl⟩,
      densityAt_real env hN Z[j] B[j] r⟩⟩⟩

theorem bwDensityEst_total (env : Env ρ ℝ) (hN : 0 < N) {Z B : Traj d N ℝ} {j : Nat} (hZ : j < Z.length)
    (hB : j < B.length) : Total (bwDensityEst env M "RBF" Z B (j : Int)) := by
  intro r
  exact ⟨_, _, RandM.bind_ok.2 ⟨Z[j], r, RandM.lift_ok.2 ⟨pyGet_of_getElem? (by simp [hZ]), rfl⟩,
    RandM.bind_ok.2 ⟨B[j], r, RandM.lift_ok.2 ⟨pyGet_of_getElem? (by simp [hB]), rfl⟩,
      bwDensityAt_real env hN Z[j] B[j] r⟩⟩⟩

theorem eBackwardBody_totalLen (env : Env ρ ℝ) (c : ECfg d N M ρ ℝ) (hN : 0 < N) (hk : effKern c.kern = "RBF")
    (hf : Returns c.f) (grid : List ℝ) (Z : Traj d N ℝ) (hZ : Z.length = grid.length) (ti : Nat) (tt : ℝ)
    (B : Traj d N ℝ) (h1 : ti < grid.length - 1) (hB : B.length = grid.length) :
    TotalLen grid.length (eBackwardBody env c grid Z ti tt B) := by
  intro r
  by_cases h0 : ti = 0
  · subst h0
    refine ⟨B.set (B.length - 1) (pt N c.y2), r, ?_, by simpa using hB⟩
    exact RandM.lift_ok.2 ⟨pinRows_ok B (-1) (B.length - 1) (pyIdx_neg_one (by omega)) c.y2, rfl⟩
  · have er : ((grid.length : Int) - ti - 1 + 1) = ((grid.length - ti : Nat) : Int) := by omega
    have er' : ((grid.length : Int) - ti - 1) = ((grid.length - ti : Nat) : Int) - 1 := by omega
    have hj : grid.length - ti < grid.length := by omega
    have gb : ∀ r : ρ, (liftM (pyGet B ((grid.length - ti : Nat) : Int)) : RandM ρ _) r
        = .ok (B[grid.length - ti], r) :=
      fun r => RandM.lift_ok.2 ⟨pyGet_of_getElem? (by simp [hB, hj]), rfl⟩
    have gt : ∀ r : ρ, (liftM (pyGet grid ((grid.length - ti : Nat) : Int)) : RandM ρ _) r
        = .ok (grid[grid.length - ti], r) :=
      fun r => RandM.lift_ok.2 ⟨pyGet_of_getElem? (by simp [hj]), rfl⟩
    have st : ∀ (p : Mat d N ℝ × Mat d N ℝ) (r : ρ), ∃ B' r', (liftM (storeBack B ((grid.length : Int) - ti - 1) p) :
        RandM ρ (Traj d N ℝ)) r = .ok (B', r') ∧ B'.length = grid.length := by
      intro p r
      refine ⟨(B.set (grid.length - ti) p.2).set (grid.length - ti - 1) p.1, r, RandM.lift_ok.2 ⟨?_, rfl⟩, ?_⟩
      · rw [er']
        exact storeBack_total (by omega) (by omega) p
      · simpa using hB
    obtain ⟨gro, r1, e1⟩ := densityEst_total env hN (Z := Z) (B := B) (j := grid.length - ti) (by omega) (by omega) r (M := M)
    unfold eBackwardBody
    simp only [if_neg h0, er, hk]
    by_cases hc : (ti = 1 ∧ c.deterministic = true) ∨ c.deterministic = false
    · simp only [if_pos hc]
      obtain ⟨p, r2, e2⟩ := hf B[grid.length - ti] grid[grid.length - ti] r1
      obtain ⟨B', r3, e3, hl⟩ := st (fun i n => p.2 i n - p.1 i n * dtc + dtc * sq c.g * gro i n
        + c.g * (NumOps.sqrt dtc * normals env d N r2 i n), p.2) (normalsNext env d N r2)
      exact ⟨B', r3, RandM.bind_ok.2 ⟨gro, r1, e1, RandM.bind_ok.2 ⟨_, _, gb r1, RandM.bind_ok.2 ⟨_, _, gt r1,
        RandM.bind_ok.2 ⟨p, r2, e2, RandM.bind_ok.2 ⟨_, _, normalMat_real env _ r2, e3⟩⟩⟩⟩⟩, hl⟩
    · simp only [if_neg hc]
      obtain ⟨grb, r1', e1'⟩ := bwDensityEst_total env hN (Z := Z) (B := B) (j := grid.length - ti) (by omega)
        (by omega) r1 (M := M)
      obtain ⟨p, r2, e2⟩ := hf B[grid.length - ti] grid[grid.length - ti] r1'
      obtain ⟨B', r3, e3, hl⟩ := st (fun i n => p.2 i n - (p.1 i n - sq c.g * gro i n + lit 1 2 * sq c.g * grb i n) * dtc,
        p.2) r2
      exact ⟨B', r3, RandM.bind_ok.2 ⟨gro, r1, e1, RandM.bind_ok.2 ⟨grb, r1', e1', RandM.bind_ok.2 ⟨_, _, gb r1',
        RandM.bind_ok.2 ⟨_, _, gt r1', RandM.bind_ok.2 ⟨p, r2, e2, e3⟩⟩⟩⟩⟩, hl⟩

/-- A deterministic construction without reweighting returns if the drift always returns. -/
theorem eConstruct_total (env : Env ρ ℝ) (c : ECfg d N M ρ ℝ) (hN : 0 < N) (hk : effKern c.kern = "RBF")
    (hf : Returns c.f) (hr : c.reweight = false) (hdet : c.deterministic = true)
    (hg : 2 ≤ (mkGrid c.t1 c.t2).length) : Total (eConstruct env c) := by
  intro r
  obtain ⟨Z, r1, e1, hZ⟩ := enumLoop_totalLen (k := (mkGrid c.t1 c.t2).length)
    (fun ti tt Z h1 hZ => eOttoBody_totalLen env c hN hk hf hr _ ti tt Z h1 hZ) (mkGrid c.t1 c.t2) 0
    (zerosT d N (mkGrid c.t1 c.t2).length) (by omega) (by simp [zerosT]) r
  obtain ⟨B, r2, e2, hB⟩ := enumLoop_totalLen' hg
    (fun ti tt B h1 hB => eBackwardBody_totalLen env c hN hk hf _ Z hZ ti tt B h1 hB) (mkGrid c.t1 c.t2).dropLast 0
    (zerosT d N (mkGrid c.t1 c.t2).length) (by simp) (by simp [zerosT]) r1
  refine ⟨⟨mkGrid c.t1 c.t2, Z, B.set 0 (pt N c.y1), none⟩, r2, ?_⟩
  unfold eConstruct
  simp only [hdet, hr, if_true, Bool.false_and, Bool.false_eq_true, if_false, pure_bind]
  refine RandM.bind_ok.2 ⟨Z, r1, e1, RandM.bind_ok.2 ⟨B.set 0 (pt N c.y1), r2, ?_, rfl⟩⟩
  exact RandM.bind_ok.2 ⟨B, r2, e2, RandM.lift_ok.2 ⟨pinRows_ok B 0 0 (pyIdx_zero (by omega)) c.y1, rfl⟩⟩

end DPFC
