import Verif.Spec.InPlace
import Verif.Lib.CallArgs
import Verif.Lib.TorchFlow

/-! Loops with drifts that write into the array they are handed. -/

set_option linter.unusedSectionVars false
set_option linter.unusedSimpArgs false

namespace DPFC
open Spec

section
variable {K ρ : Type} [Add K] [Sub K] [Mul K] [Div K] [Neg K] [NumOps K]
variable {N M d : Nat}

/-- Forward loop: slice `ti-1` is read and written back, slice `ti` is written. -/
theorem inplace_loop {S : Type} {R : Nat → K → S → S → S → Prop}
    {body : Nat → K → List S → RandM ρ (List S)}
    (h : ∀ ti tt Z r Z' r', 1 ≤ ti → body ti tt Z r = .ok (Z', r') → ∃ x x' y, Z[ti - 1]? = some x ∧ ti < Z.length ∧
      Z' = (Z.set (ti - 1) x').set ti y ∧ R ti tt x x' y) :
    ∀ (ts : List K) (ti : Nat) (Z : List S) (r : ρ) (Z' : List S) (r' : ρ), 1 ≤ ti → Z.length = ti + ts.length →
    enumLoop body ti ts Z r = .ok (Z', r') →
    Z'.length = Z.length ∧ (∀ j, j + 1 < ti → Z'[j]? = Z[j]?) ∧
    ∃ xs : List S, xs.length = ts.length + 1 ∧ xs[0]? = Z[ti - 1]? ∧
      (∀ i, i < ts.length → ∃ t x x' y, ts[i]? = some t ∧ xs[i]? = some x ∧ Z'[ti - 1 + i]? = some x' ∧
        xs[i + 1]? = some y ∧ R (ti + i) t x x' y) ∧
      Z'[ti - 1 + ts.length]? = xs[ts.length]?
  | [], ti, Z, r, Z', r', h1, hl, e => by
    obtain ⟨rfl, -⟩ := RandM.pure_ok.1 e
    simp only [List.length_nil, Nat.add_zero] at hl
    refine ⟨rfl, fun _ _ => rfl, [Z[ti - 1]], rfl, ?_, by simp, ?_⟩
    · simp
    · simp
  | t :: ts, ti, Z, r, Z', r', h1, hl, e => by
    simp only [List.length_cons] at hl
    obtain ⟨Z1, r1, e1, e⟩ := RandM.bind_ok.1 e
    obtain ⟨x, x', y, hx, hlt, rfl, hR⟩ := h ti t Z r Z1 r1 h1 e1
    obtain ⟨hlen, hpre, xs, hxl, hx0, hlink, hlast⟩ := inplace_loop h ts (ti + 1) _ r1 Z' r' (by omega)
      (by simp; omega) e
    rw [List.length_set, List.length_set] at hlen
    have hy : xs[0]? = some y := by
      rw [hx0, Nat.add_sub_cancel, List.getElem?_set_self (by simpa using hlt)]
    have hx' : Z'[ti - 1]? = some x' := by
      rw [hpre _ (by omega), List.getElem?_set_ne (by omega), List.getElem?_set_self (by omega)]
    refine ⟨hlen, fun j hj => ?_, x :: xs, by simp [hxl], by simp [hx], fun i hi => ?_, ?_⟩
    · rw [hpre j (by omega), List.getElem?_set_ne (by omega), List.getElem?_set_ne (by omega)]
    · cases i with
      | zero => exact ⟨t, x, x', y, rfl, rfl, by simpa using hx', by simpa using hy, hR⟩
      | succ i =>
        obtain ⟨t', a, a', b, q1, q2, q3, q4, q5⟩ := hlink i (by simpa using hi)
        refine ⟨t', a, a', b, by simpa using q1, by simpa using q2, ?_, by simpa using q4, ?_⟩
        · rw [← q3]; congr 1; omega
        · rwa [show ti + (i + 1) = ti + 1 + i by omega]
    · rw [List.length_cons, List.getElem?_cons_succ, ← hlast]
      congr 1; omega

/-- Backward loop: slice `k-ti` is read and written back, slice `k-ti-1` is written. -/
theorem inplace_back {S : Type} {R : Nat → S → S → S → Prop} {k : Nat}
    {body : Nat → K → List S → RandM ρ (List S)}
    (h : ∀ ti tt B r B' r', 1 ≤ ti → ti + 1 < k → body ti tt B r = .ok (B', r') → ∃ b b' y, B[k - ti]? = some b ∧
      B' = (B.set (k - ti) b').set (k - ti - 1) y ∧ R (k - ti) b b' y) :
    ∀ (ts : List K) (ti : Nat) (B : List S) (r : ρ) (B' : List S) (r' : ρ), 1 ≤ ti → ti + ts.length + 1 = k →
    B.length = k → enumLoop body ti ts B r = .ok (B', r') →
    B'.length = k ∧ (∀ j, k - ti < j → B'[j]? = B[j]?) ∧
    ∃ bs : Nat → S, B[k - ti]? = some (bs (k - ti)) ∧
      (∀ j, 2 ≤ j → j ≤ k - ti → ∃ b', B'[j]? = some b' ∧ R j (bs j) b' (bs (j - 1))) ∧
      B'[1]? = some (bs 1)
  | [], ti, B, r, B', r', h1, hk, hl, e => by
    obtain ⟨rfl, -⟩ := RandM.pure_ok.1 e
    simp only [List.length_nil, Nat.add_zero] at hk
    have e1 : k - ti = 1 := by omega
    refine ⟨hl, fun _ _ => rfl, fun _ => B[1], ?_, fun j h2 h3 => by omega, ?_⟩
    · rw [e1]; simp
    · simp
  | t :: ts, ti, B, r, B', r', h1, hk, hl, e => by
    simp only [List.length_cons] at hk
    obtain ⟨B1, r1, e1, e⟩ := RandM.bind_ok.1 e
    obtain ⟨b, b', y, hb, rfl, hR⟩ := h ti t B r B1 r1 h1 (by omega) e1
    obtain ⟨hlen, hpre, bs, hb0, hlink, hlast⟩ := inplace_back h ts (ti + 1) _ r1 B' r' (by omega) (by omega)
      (by simpa using hl) e
    have hy : bs (k - ti - 1) = y := by
      rw [show k - (ti + 1) = k - ti - 1 by omega, List.getElem?_set_self (by simp; omega)] at hb0
      exact (Option.some.inj hb0).symm
    have hb' : B'[k - ti]? = some b' := by
      rw [hpre _ (by omega), List.getElem?_set_ne (by omega), List.getElem?_set_self (by omega)]
    refine ⟨hlen, fun j hj => ?_, fun j => if j = k - ti then b else bs j, by simp [hb], fun j h2 h3 => ?_, ?_⟩
    · rw [hpre j (by omega), List.getElem?_set_ne (by omega), List.getElem?_set_ne (by omega)]
    · by_cases hj : j = k - ti
      · subst hj
        refine ⟨b', hb', ?_⟩
        simp only [if_true]
        rw [if_neg (by omega), hy]
        exact hR
      · obtain ⟨c', q1, q2⟩ := hlink j h2 (by omega)
        refine ⟨c', q1, ?_⟩
        simp only [if_neg hj]
        rw [if_neg (by omega)]
        exact q2
    · show B'[1]? = some (if 1 = k - ti then b else bs 1)
      rw [if_neg (by omega)]
      exact hlast

theorem storeStep_ok {Z Z' : Traj d N K} {ti : Nat} {p : Mat d N K × Mat d N K} (h1 : 1 ≤ ti)
    (h : storeStep Z ti p = .ok Z') : ti < Z.length ∧ Z' = (Z.set (ti - 1) p.2).set ti p.1 := by
  unfold storeStep at h
  cases h2 : setSlice Z ((ti : Int) - 1) p.2 with
  | error e => rw [h2] at h; cases h
  | ok Z1 =>
    rw [h2, Except.ok_bind'] at h
    rw [show ((ti : Int) - 1) = ((ti - 1 : Nat) : Int) by omega] at h2
    obtain ⟨a, rfl⟩ := setSlice_nat_ok h2
    obtain ⟨b, rfl⟩ := setSlice_nat_ok h
    exact ⟨by simpa using b, rfl⟩

theorem storeBack_ok {B B' : Traj d N K} {j : Nat} {p : Mat d N K × Mat d N K} (h1 : 1 ≤ j)
    (h : storeBack B ((j : Int) - 1) p = .ok B') : B' = (B.set j p.2).set (j - 1) p.1 := by
  unfold storeBack at h
  cases h2 : setSlice B ((j : Int) - 1 + 1) p.2 with
  | error e => rw [h2] at h; cases h
  | ok B1 =>
    rw [h2, Except.ok_bind'] at h
    rw [show ((j : Int) - 1 + 1) = (j : Int) by omega] at h2
    obtain ⟨a, rfl⟩ := setSlice_nat_ok h2
    rw [show ((j : Int) - 1) = ((j - 1 : Nat) : Int) by omega] at h
    exact (setSlice_nat_ok h).2

theorem forwardStep_np {plot : Bool} {env : Env ρ K} {kern : String} {g : K} {f : EDrift d N ρ K} {ti : Nat}
    (h1 : 1 ≤ ti) {x : Mat d N K} {t : K} {r r' : ρ} {p : Mat d N K × Mat d N K}
    (h : eForwardCall plot env M kern g f ti x t r = .ok (p, r')) :
    ForwardCall env (scoreAtParticles plot env M kern) g f (ti - 1) t x p.2 p.1 := by
  unfold eForwardCall at h
  by_cases hi : ti = 1
  · rw [if_pos hi] at h
    obtain ⟨⟨v, x'⟩, r1, e1, h⟩ := RandM.bind_ok.1 h
    obtain ⟨ξ, r2, e2, h⟩ := RandM.bind_ok.1 h
    obtain ⟨rfl, rfl⟩ := RandM.pure_ok.1 h
    exact ⟨r, r1, _, v, .inl ⟨by omega, e1, ξ, e2, rfl⟩⟩
  · rw [if_neg hi] at h
    obtain ⟨⟨w, x'⟩, r1, e1, h⟩ := RandM.bind_ok.1 h
    obtain ⟨rfl, rfl⟩ := RandM.pure_ok.1 h
    obtain ⟨gpsi, r2, e2, e1⟩ := RandM.bind_ok.1 e1
    obtain ⟨⟨v, x''⟩, r3, e3, e1⟩ := RandM.bind_ok.1 e1
    obtain ⟨e4, rfl⟩ := RandM.pure_ok.1 e1
    obtain ⟨rfl, rfl⟩ := Prod.mk.injEq _ _ _ _ ▸ e4
    exact ⟨r, r2, _, v, .inr ⟨by omega, gpsi, e2, e3, rfl⟩⟩

theorem ottoBody_inplace {env : Env ρ K} {c : ECfg d N M ρ K} {ti : Nat} {tt : K} {Z Z' : Traj d N K} {r r' : ρ}
    (h1 : 1 ≤ ti) (h : eOttoBody env c ti tt Z r = .ok (Z', r')) :
    ∃ x x' y, Z[ti - 1]? = some x ∧ ti < Z.length ∧ Z' = (Z.set (ti - 1) x').set ti y ∧
      ∃ w, ForwardCall env (scoreAtParticles true env M (effKern c.kern)) c.g c.f (ti - 1) (tt - dtc) x x' w ∧
        (if c.reweight then ∃ s s', eOttoReweight env c.U w tt s = .ok (y, s') else y = w) := by
  have h0 : ti ≠ 0 := by omega
  have hp : decide (0 < ti) = true := by simp; omega
  unfold eOttoBody eOttoMove at h
  simp only [if_neg h0, hp, Bool.and_true] at h
  obtain ⟨Z1, r1, e1, h⟩ := RandM.bind_ok.1 h
  obtain ⟨x, r2, e2, e1⟩ := RandM.bind_ok.1 e1
  obtain ⟨p, r3, e3, e1⟩ := RandM.bind_ok.1 e1
  have hx := pyGet_pred h1 (lift_val e2)
  obtain ⟨hl, rfl⟩ := storeStep_ok h1 (lift_val e1)
  have hF := forwardStep_np h1 e3
  by_cases hr : c.reweight = true
  · simp only [hr, if_true] at h ⊢
    obtain ⟨w, r4, e4, h4⟩ := RandM.bind_ok.1 h
    obtain ⟨y, r5, e5, h5⟩ := RandM.bind_ok.1 h4
    have hw := pyGet_nat_some (lift_val e4)
    rw [List.getElem?_set_self (by simpa using hl)] at hw
    obtain rfl := Option.some.inj hw
    obtain ⟨-, rfl⟩ := setSlice_nat_ok (lift_val h5)
    exact ⟨x, p.2, y, hx, hl, by rw [List.set_set], p.1, hF, r4, r5, e5⟩
  · simp only [hr, if_false, Bool.false_eq_true] at h ⊢
    obtain ⟨rfl, -⟩ := RandM.pure_ok.1 h
    exact ⟨x, p.2, p.1, hx, hl, rfl, p.1, hF, rfl⟩

theorem densityEst_single (env : Env ρ K) (kern : String) {Z B : Traj d N K} {j : Nat} {gro : Mat d N K} {r r' : ρ}
    (h : densityEst env M kern Z B (j : Int) r = .ok (gro, r')) :
    ∃ z b, Z[j]? = some z ∧ B[j]? = some b ∧ densityEst env M kern [z] [b] 0 r = .ok (gro, r') := by
  unfold densityEst at h
  obtain ⟨z, r1, e1, h⟩ := RandM.bind_ok.1 h
  obtain ⟨b, r2, e2, h⟩ := RandM.bind_ok.1 h
  obtain ⟨f1, rfl⟩ := RandM.lift_ok.1 e1
  obtain ⟨f2, rfl⟩ := RandM.lift_ok.1 e2
  exact ⟨z, b, pyGet_nat_some f1, pyGet_nat_some f2, h⟩

theorem bwDensityEst_single (env : Env ρ K) (kern : String) {Z B : Traj d N K} {j : Nat} {gro : Mat d N K} {r r' : ρ}
    (h : bwDensityEst env M kern Z B (j : Int) r = .ok (gro, r')) :
    ∃ z b, Z[j]? = some z ∧ B[j]? = some b ∧ bwDensityEst env M kern [z] [b] 0 r = .ok (gro, r') := by
  unfold bwDensityEst at h
  obtain ⟨z, r1, e1, h⟩ := RandM.bind_ok.1 h
  obtain ⟨b, r2, e2, h⟩ := RandM.bind_ok.1 h
  obtain ⟨f1, rfl⟩ := RandM.lift_ok.1 e1
  obtain ⟨f2, rfl⟩ := RandM.lift_ok.1 e2
  exact ⟨z, b, pyGet_nat_some f1, pyGet_nat_some f2, h⟩

theorem torchDensityEst_single (env : Env ρ K) (kern : String) {Z B : Traj d N K} {j : Nat} {gro : Mat d N K} {r r' : ρ}
    (h : torchDensityEst env M kern Z B (j : Int) r = .ok (gro, r')) :
    ∃ z b, Z[j]? = some z ∧ B[j]? = some b ∧ torchDensityEst env M kern [z] [b] 0 r = .ok (gro, r') := by
  unfold torchDensityEst at h
  obtain ⟨z, r1, e1, h⟩ := RandM.bind_ok.1 h
  obtain ⟨b, r2, e2, h⟩ := RandM.bind_ok.1 h
  obtain ⟨f1, rfl⟩ := RandM.lift_ok.1 e1
  obtain ⟨f2, rfl⟩ := RandM.lift_ok.1 e2
  exact ⟨z, b, pyGet_nat_some f1, pyGet_nat_some f2, h⟩

theorem torchBwDensityEst_single (env : Env ρ K) (kern : String) {Z B : Traj d N K} {j : Nat} {gro : Mat d N K} {r r' : ρ}
    (h : torchBwDensityEst env M kern Z B (j : Int) r = .ok (gro, r')) :
    ∃ z b, Z[j]? = some z ∧ B[j]? = some b ∧ torchBwDensityEst env M kern [z] [b] 0 r = .ok (gro, r') := by
  unfold torchBwDensityEst at h
  obtain ⟨z, r1, e1, h⟩ := RandM.bind_ok.1 h
  obtain ⟨b, r2, e2, h⟩ := RandM.bind_ok.1 h
  obtain ⟨f1, rfl⟩ := RandM.lift_ok.1 e1
  obtain ⟨f2, rfl⟩ := RandM.lift_ok.1 e2
  exact ⟨z, b, pyGet_nat_some f1, pyGet_nat_some f2, h⟩

theorem trueBody_inplace {env : Env ρ K} {c : ECfg d N M ρ K} {ti : Nat} {tt : K} {Z Z' : Traj d N K} {r r' : ρ}
    (h1 : 1 ≤ ti) (h : eOttoTrueBody env c ti tt Z r = .ok (Z', r')) :
    ∃ x x' y, Z[ti - 1]? = some x ∧ ti < Z.length ∧ Z' = (Z.set (ti - 1) x').set ti y ∧
      ForwardCall env (scoreAtParticles false env M (effKern c.kern)) c.g c.fTrue (ti - 1) (tt - dtc) x x' y := by
  have h0 : ti ≠ 0 := by omega
  unfold eOttoTrueBody at h
  simp only [if_neg h0] at h
  obtain ⟨x, r2, e2, e1⟩ := RandM.bind_ok.1 h
  obtain ⟨p, r3, e3, e1⟩ := RandM.bind_ok.1 e1
  have hx := pyGet_pred h1 (lift_val e2)
  obtain ⟨hl, rfl⟩ := storeStep_ok h1 (lift_val e1)
  exact ⟨x, p.2, p.1, hx, hl, rfl, forwardStep_np h1 e3⟩

theorem noisyStep_fwd {score : Mat d N K → RandM ρ (Mat d N K)} {env : Env ρ K} {g : K} {f : EDrift d N ρ K}
    {x : Mat d N K} {t : K} {r r' : ρ} {p : Mat d N K × Mat d N K} (h : eNoisyStep env g f x t r = .ok (p, r')) :
    ForwardCall env score g f 0 t x p.2 p.1 := by
  obtain ⟨⟨v, x'⟩, r1, e1, h⟩ := RandM.bind_ok.1 h
  obtain ⟨ξ, r2, e2, h⟩ := RandM.bind_ok.1 h
  obtain ⟨rfl, rfl⟩ := RandM.pure_ok.1 h
  exact ⟨r, r1, _, v, .inl ⟨rfl, e1, ξ, e2, rfl⟩⟩

theorem torchOttoStep_fwd {env : Env ρ K} {g : K} {f : EDrift d N ρ K} {i : Nat} (hi : 0 < i)
    {x : Mat d N K} {t : K} {r r' : ρ} {p : Mat d N K × Mat d N K} (h : eTorchOttoStep env M g f x t r = .ok (p, r')) :
    ForwardCall env (torchScoreAt env M) g f i t x p.2 p.1 := by
  obtain ⟨⟨w, x'⟩, r1, e1, h⟩ := RandM.bind_ok.1 h
  obtain ⟨rfl, rfl⟩ := RandM.pure_ok.1 h
  obtain ⟨bn, r2, e2, e1⟩ := RandM.bind_ok.1 e1
  obtain ⟨Sx, r3, e3, e1⟩ := RandM.bind_ok.1 e1
  obtain ⟨gp, r4, e4, e1⟩ := RandM.bind_ok.1 e1
  obtain ⟨⟨v, x''⟩, r5, e5, e1⟩ := RandM.bind_ok.1 e1
  obtain ⟨e6, rfl⟩ := RandM.pure_ok.1 e1
  obtain ⟨rfl, rfl⟩ := Prod.mk.injEq _ _ _ _ ▸ e6
  refine ⟨r, r4, _, v, .inr ⟨hi, fun i n => gp n i, ?_, e5, rfl⟩⟩
  exact RandM.bind_ok.2 ⟨bn, r2, e2, RandM.bind_ok.2 ⟨Sx, r3, e3, RandM.bind_ok.2 ⟨gp, r4, e4, rfl⟩⟩⟩

theorem torchTrueStep_fwd {env : Env ρ K} {g : K} {f : EDrift d N ρ K} {i : Nat} (hi : 0 < i)
    {x : Mat d N K} {t : K} {r r' : ρ} {p : Mat d N K × Mat d N K} (h : eTorchTrueStep env M g f x t r = .ok (p, r')) :
    ForwardCall env (torchTrueScoreAt env M) g f i t x p.2 p.1 := by
  obtain ⟨bn, r2, e2, h⟩ := RandM.bind_ok.1 h
  obtain ⟨Sx, r3, e3, h⟩ := RandM.bind_ok.1 h
  obtain ⟨gp, r4, e4, h⟩ := RandM.bind_ok.1 h
  obtain ⟨⟨v, x'⟩, r5, e5, h⟩ := RandM.bind_ok.1 h
  obtain ⟨rfl, rfl⟩ := RandM.pure_ok.1 h
  refine ⟨r, r4, _, v, .inr ⟨hi, gp, ?_, e5, rfl⟩⟩
  exact RandM.bind_ok.2 ⟨bn, r2, e2, RandM.bind_ok.2 ⟨Sx, r3, e3, e4⟩⟩

/-- One forward move of the torch class: noisy for `ti = 1`, then along the flow. -/
theorem torchMove_inplace {score : Mat d N K → RandM ρ (Mat d N K)} {env : Env ρ K} {g : K} {f : EDrift d N ρ K}
    {flow : Mat d N K → K → RandM ρ (Mat d N K × Mat d N K)} {ti : Nat} {tt : K} {Z Z' : Traj d N K} {r r' : ρ}
    (hflow : ∀ i x t r p r', 0 < i → flow x t r = .ok (p, r') → ForwardCall env score g f i t x p.2 p.1)
    (h1 : 1 ≤ ti)
    (h : (if ti = 1 then do
        let x ← (pyGet Z ((ti : Int) - 1) : Except PyErr (Mat d N K))
        let p ← eNoisyStep env g f x (tt - dtc)
        (storeStep Z ti p : Except PyErr (Traj d N K))
      else do
        let x ← (pyGet Z ((ti : Int) - 1) : Except PyErr (Mat d N K))
        let p ← flow x (tt - dtc)
        (storeStep Z ti p : Except PyErr (Traj d N K)) : RandM ρ (Traj d N K)) r = .ok (Z', r')) :
    ∃ x x' y, Z[ti - 1]? = some x ∧ ti < Z.length ∧ Z' = (Z.set (ti - 1) x').set ti y ∧
      ForwardCall env score g f (ti - 1) (tt - dtc) x x' y := by
  by_cases hi : ti = 1
  · rw [if_pos hi] at h
    obtain ⟨x, r2, e2, e1⟩ := RandM.bind_ok.1 h
    obtain ⟨p, r3, e3, e1⟩ := RandM.bind_ok.1 e1
    have hx := pyGet_pred h1 (lift_val e2)
    obtain ⟨hl, rfl⟩ := storeStep_ok h1 (lift_val e1)
    refine ⟨x, p.2, p.1, hx, hl, rfl, ?_⟩
    rw [show ti - 1 = 0 by omega]
    exact noisyStep_fwd e3
  · rw [if_neg hi] at h
    obtain ⟨x, r2, e2, e1⟩ := RandM.bind_ok.1 h
    obtain ⟨p, r3, e3, e1⟩ := RandM.bind_ok.1 e1
    have hx := pyGet_pred h1 (lift_val e2)
    obtain ⟨hl, rfl⟩ := storeStep_ok h1 (lift_val e1)
    exact ⟨x, p.2, p.1, hx, hl, rfl, hflow _ _ _ _ _ _ (by omega) e3⟩

theorem torchTrueBody_inplace {env : Env ρ K} {c : ECfg d N M ρ K} {ti : Nat} {tt : K} {Z Z' : Traj d N K} {r r' : ρ}
    (h1 : 1 ≤ ti) (h : eTorchTrueBody env c ti tt Z r = .ok (Z', r')) :
    ∃ x x' y, Z[ti - 1]? = some x ∧ ti < Z.length ∧ Z' = (Z.set (ti - 1) x').set ti y ∧
      ForwardCall env (torchTrueScoreAt env M) c.g c.fTrue (ti - 1) (tt - dtc) x x' y := by
  unfold eTorchTrueBody at h
  rw [if_neg (by omega)] at h
  exact torchMove_inplace (flow := eTorchTrueStep env M c.g c.fTrue) (fun i x t r p r' hi e => torchTrueStep_fwd hi e) h1 h

theorem torchOttoBody_inplace {env : Env ρ K} {c : ECfg d N M ρ K} {ti : Nat} {tt : K} {Z Z' : Traj d N K} {r r' : ρ}
    (h1 : 1 ≤ ti) (h : eTorchOttoBody env c ti tt Z r = .ok (Z', r')) :
    ∃ x x' y, Z[ti - 1]? = some x ∧ ti < Z.length ∧ Z' = (Z.set (ti - 1) x').set ti y ∧
      ∃ w, ForwardCall env (torchScoreAt env M) c.g c.f (ti - 1) (tt - dtc) x x' w ∧
        (if c.reweight then ∃ s s', eTorchOttoReweight env c.U w tt s = .ok (y, s') else y = w) := by
  have h0 : ti ≠ 0 := by omega
  have hp : decide (0 < ti) = true := by simp; omega
  unfold eTorchOttoBody eTorchOttoMove at h
  rw [if_neg h0] at h
  simp only [hp, Bool.and_true] at h
  obtain ⟨Z1, r1, e1, h⟩ := RandM.bind_ok.1 h
  obtain ⟨x, x', w, hx, hl, rfl, hF⟩ := torchMove_inplace (score := torchScoreAt env M)
    (flow := eTorchOttoStep env M c.g c.f) (fun i x t r p r' hi e => torchOttoStep_fwd hi e) h1 e1
  by_cases hr : c.reweight = true
  · simp only [hr, if_true] at h ⊢
    obtain ⟨w', r4, e4, h4⟩ := RandM.bind_ok.1 h
    obtain ⟨y, r5, e5, h5⟩ := RandM.bind_ok.1 h4
    have hw := pyGet_nat_some (lift_val e4)
    rw [List.getElem?_set_self (by simpa using hl)] at hw
    obtain rfl := Option.some.inj hw
    obtain ⟨-, rfl⟩ := setSlice_nat_ok (lift_val h5)
    exact ⟨x, x', y, hx, hl, by rw [List.set_set], _, hF, r4, r5, e5⟩
  · simp only [hr, if_false, Bool.false_eq_true] at h ⊢
    obtain ⟨rfl, -⟩ := RandM.pure_ok.1 h
    exact ⟨x, x', w, hx, hl, rfl, w, hF, rfl⟩

/-- The loop body of `backward_simulation` over the two score estimates. -/
def genBack (dens bw : Traj d N K → Traj d N K → Int → RandM ρ (Mat d N K)) (env : Env ρ K) (c : ECfg d N M ρ K)
    (timegrid : List K) (Z : Traj d N K) (ti : Nat) (B : Traj d N K) : RandM ρ (Traj d N K) :=
  if ti = 0 then (pinRows B (-1) c.y2 : Except PyErr (Traj d N K))
  else do
    let rev : Int := (timegrid.length : Int) - ti - 1
    let gro ← dens Z B (rev + 1)
    if (ti = 1 ∧ c.deterministic = true) ∨ c.deterministic = false then do
      let b ← (pyGet B (rev + 1) : Except PyErr (Mat d N K))
      let t ← (pyGet timegrid (rev + 1) : Except PyErr K)
      let (v, b') ← c.f.call2 b t
      let xi ← normalMat env (NumOps.sqrt dtc) d N
      (storeBack B rev (fun i n =>
        b' i n - v i n * dtc + dtc * sq c.g * gro i n + c.g * xi i n, b') :
        Except PyErr (Traj d N K))
    else do
      let grb ← bw Z B (rev + 1)
      let b ← (pyGet B (rev + 1) : Except PyErr (Mat d N K))
      let t ← (pyGet timegrid (rev + 1) : Except PyErr K)
      let (v, b') ← c.f.call2 b t
      (storeBack B rev (fun i n =>
        b' i n - (v i n - sq c.g * gro i n + lit 1 2 * sq c.g * grb i n) * dtc, b') :
        Except PyErr (Traj d N K))

/-- The estimate only looks at slice `j` of both flows. -/
def Single (dens : Traj d N K → Traj d N K → Int → RandM ρ (Mat d N K)) : Prop :=
  ∀ Z B (j : Nat) gro r r', dens Z B (j : Int) r = .ok (gro, r') →
    ∃ z b, Z[j]? = some z ∧ B[j]? = some b ∧ dens [z] [b] 0 r = .ok (gro, r')

theorem backBody_inplace {dens bw : Traj d N K → Traj d N K → Int → RandM ρ (Mat d N K)} (sd : Single dens)
    (sb : Single bw) {env : Env ρ K} {c : ECfg d N M ρ K} {grid : List K} {Z : Traj d N K} {ti : Nat}
    {B B' : Traj d N K} {r r' : ρ} (h1 : 1 ≤ ti) (h2 : ti + 1 < grid.length)
    (h : genBack dens bw env c grid Z ti B r = .ok (B', r')) :
    ∃ b b' y, B[grid.length - ti]? = some b ∧ B' = (B.set (grid.length - ti) b').set (grid.length - ti - 1) y ∧
      ∃ z t, Z[grid.length - ti]? = some z ∧ grid[grid.length - ti]? = some t ∧
        BackwardCall env (fun z b => dens [z] [b] 0)
          (fun z b => bw [z] [b] 0) c.g c.f
          (!c.deterministic || grid.length - ti + 1 == grid.length) z t b b' y := by
  have h0 : ti ≠ 0 := by omega
  have er : ((grid.length : Int) - ti - 1 + 1) = ((grid.length - ti : Nat) : Int) := by omega
  have er' : ((grid.length : Int) - ti - 1) = ((grid.length - ti : Nat) : Int) - 1 := by omega
  unfold genBack at h
  simp only [if_neg h0, er] at h
  obtain ⟨gro, r1, e1, h⟩ := RandM.bind_ok.1 h
  obtain ⟨z, b, hz, hb, e1⟩ := sd _ _ _ _ _ _ e1
  by_cases hc : (ti = 1 ∧ c.deterministic = true) ∨ c.deterministic = false
  · rw [if_pos hc] at h
    obtain ⟨b0, r2, e2, h⟩ := RandM.bind_ok.1 h
    obtain ⟨t, r3, e3, h⟩ := RandM.bind_ok.1 h
    obtain ⟨f2, rfl⟩ := RandM.lift_ok.1 e2
    obtain ⟨f3, rfl⟩ := RandM.lift_ok.1 e3
    have f4 := pyGet_nat_some f2
    rw [hb] at f4
    obtain rfl := Option.some.inj f4
    obtain ⟨⟨v, b'⟩, r4, e4, h⟩ := RandM.bind_ok.1 h
    obtain ⟨ξ, r5, e5, h⟩ := RandM.bind_ok.1 h
    have hs := lift_val h
    rw [er'] at hs
    have hB := storeBack_ok (by omega) hs
    refine ⟨b, b', _, hb, hB, z, t, hz, pyGet_nat_some f3, r, _, r4, r5, v, gro, e1, .inl ⟨?_, e4, ξ, e5, rfl⟩⟩
    rcases hc with ⟨rfl, hd⟩ | hd
    · simp [hd]; omega
    · simp [hd]
  · rw [if_neg hc] at h
    obtain ⟨grb, r1', e1', h⟩ := RandM.bind_ok.1 h
    obtain ⟨z', b1, hz', hb1, e1'⟩ := sb _ _ _ _ _ _ e1'
    rw [hz] at hz'; rw [hb] at hb1
    obtain rfl := Option.some.inj hz'
    obtain rfl := Option.some.inj hb1
    obtain ⟨b0, r2, e2, h⟩ := RandM.bind_ok.1 h
    obtain ⟨t, r3, e3, h⟩ := RandM.bind_ok.1 h
    obtain ⟨f2, rfl⟩ := RandM.lift_ok.1 e2
    obtain ⟨f3, rfl⟩ := RandM.lift_ok.1 e3
    have f4 := pyGet_nat_some f2
    rw [hb] at f4
    obtain rfl := Option.some.inj f4
    obtain ⟨⟨v, b'⟩, r4, e4, h⟩ := RandM.bind_ok.1 h
    have hs := lift_val h
    rw [er'] at hs
    have hB := storeBack_ok (by omega) hs
    refine ⟨b, b', _, hb, hB, z, t, hz, pyGet_nat_some f3, r, r1, _, r4, v, gro, e1, .inr ⟨?_, grb, e1', e4, rfl⟩⟩
    rw [not_or, not_and] at hc
    have hd : c.deterministic = true := by simpa using hc.2
    have ht : ti ≠ 1 := fun h => hc.1 h hd
    simp [hd]; omega

end
end DPFC

namespace DPFC
open Spec

section
variable {K ρ : Type} [Add K] [Sub K] [Mul K] [Div K] [Neg K] [NumOps K]
variable {N M d : Nat}

/-- A configuration with the initial data of `c`. -/
def plainCfg (c : ECfg d N M ρ K) : Cfg d N M K where
  t1 := c.t1
  t2 := c.t2
  y1 := c.y1
  y2 := c.y2
  f := ⟨fun x _ => x, none⟩
  g := c.g
  reweight := c.reweight
  U := none
  kern := c.kern
  fTrue := none
  brownBridge := c.brownBridge
  deterministic := c.deterministic
  densEst := ""
  reject := false

theorem eOttoBody_zero (env : Env ρ K) (c : ECfg d N M ρ K) (tt : K) (Z : Traj d N K) (h0 : 0 < Z.length) :
    eOttoBody env c 0 tt Z = pure (if c.brownBridge then
        (Z.set 0 (pt N c.y1)).set (Z.length - 1) (pt N c.y2) else Z.set 0 (pt N c.y1)) := by
  refine Eq.trans ?_ (ottoBody_zero env (plainCfg c) tt Z h0)
  unfold eOttoBody eOttoMove ottoBody
  simp only [if_true, Nat.lt_irrefl, decide_false, Bool.and_false, Bool.false_eq_true, if_false]
  rfl

theorem ottoLoop_inplace {S : Type} {R : Nat → K → S → S → S → Prop}
    {body : Nat → K → List S → RandM ρ (List S)} {p : S} {grid : List K} (hk : 2 ≤ grid.length)
    (h0 : ∀ tt (Z Z' : List S) r r', Z.length = grid.length → body 0 tt Z r = .ok (Z', r') →
      Z'.length = Z.length ∧ Z'[0]? = some p)
    (h : ∀ ti tt Z r Z' r', 1 ≤ ti → body ti tt Z r = .ok (Z', r') → ∃ x x' y, Z[ti - 1]? = some x ∧ ti < Z.length ∧
      Z' = (Z.set (ti - 1) x').set ti y ∧ R ti tt x x' y)
    {Z Z' : List S} (hZ : Z.length = grid.length) {r r' : ρ} (e : enumLoop body 0 grid Z r = .ok (Z', r')) :
    ∃ xs : List S, xs[0]? = some p ∧ xs.length = grid.length ∧ Z'.length = grid.length ∧
      (∀ i, i + 1 < grid.length → ∃ t x x' y, grid[i + 1]? = some t ∧ xs[i]? = some x ∧ Z'[i]? = some x' ∧
        xs[i + 1]? = some y ∧ R (i + 1) t x x' y) ∧ Z'[grid.length - 1]? = xs[grid.length - 1]? := by
  obtain ⟨t0, ts, rfl⟩ : ∃ t0 ts, grid = t0 :: ts := by
    cases grid with
    | nil => simp at hk
    | cons a l => exact ⟨a, l, rfl⟩
  obtain ⟨Z1, r1, e1, e⟩ := RandM.bind_ok.1 e
  obtain ⟨hl, hp⟩ := h0 _ _ _ _ _ hZ e1
  simp only [List.length_cons] at hZ hk
  obtain ⟨hl', -, xs, hx, hx0, hlink, hlast⟩ := inplace_loop h ts (0 + 1) Z1 r1 Z' r' (by omega) (by omega) e
  refine ⟨xs, by rw [hx0]; exact hp, by simp [hx], by simp; omega, fun i hi => ?_, ?_⟩
  · obtain ⟨t, x, x', y, a1, a2, a3, a4, a5⟩ := hlink i (by simpa using hi)
    exact ⟨t, x, x', y, by simpa using a1, a2, by simpa using a3, a4, by rwa [show i + 1 = 0 + 1 + i by omega]⟩
  · simpa using hlast

theorem backLoop_inplace {S : Type} {R : Nat → S → S → S → Prop}
    {body : Nat → K → List S → RandM ρ (List S)} {p : S} {grid : List K} (hk : 2 ≤ grid.length)
    (h0 : ∀ tt (B B' : List S) r r', B.length = grid.length → body 0 tt B r = .ok (B', r') →
      B'.length = B.length ∧ B'[grid.length - 1]? = some p)
    (h : ∀ ti tt B r B' r', 1 ≤ ti → ti + 1 < grid.length → body ti tt B r = .ok (B', r') → ∃ b b' y,
      B[grid.length - ti]? = some b ∧
      B' = (B.set (grid.length - ti) b').set (grid.length - ti - 1) y ∧ R (grid.length - ti) b b' y)
    {B B' : List S} (hB : B.length = grid.length) {r r' : ρ} (e : enumLoop body 0 grid.dropLast B r = .ok (B', r')) :
    ∃ bs : Nat → S, bs (grid.length - 1) = p ∧ B'.length = grid.length ∧
      (∀ j, 2 ≤ j → j < grid.length → ∃ b', B'[j]? = some b' ∧ R j (bs j) b' (bs (j - 1))) ∧
      B'[1]? = some (bs 1) := by
  obtain ⟨t0, ts, hg⟩ : ∃ t0 ts, grid.dropLast = t0 :: ts := by
    cases hg : grid.dropLast with
    | nil =>
      have := congrArg List.length hg
      simp at this; omega
    | cons a l => exact ⟨a, l, rfl⟩
  have hl := congrArg List.length hg
  simp only [List.length_dropLast, List.length_cons] at hl
  rw [hg] at e
  obtain ⟨B1, r1, e1, e⟩ := RandM.bind_ok.1 e
  obtain ⟨hl1, hp⟩ := h0 _ _ _ _ _ hB e1
  obtain ⟨hl', -, bs, hb0, hlink, hlast⟩ := inplace_back h ts (0 + 1) B1 r1 B' r' (by omega) (by omega)
    (by omega) e
  refine ⟨bs, ?_, hl', fun j h2 h3 => hlink j h2 (by omega), hlast⟩
  rw [Nat.zero_add, hp] at hb0
  exact (Option.some.inj hb0).symm

theorem eTorchOttoBody_zero (env : Env ρ K) (c : ECfg d N M ρ K) (tt : K) (Z : Traj d N K) (h0 : 0 < Z.length) :
    eTorchOttoBody env c 0 tt Z = pure (if c.brownBridge then
        (Z.set 0 (pt N c.y1)).set (Z.length - 1) (pt N c.y2) else Z.set 0 (pt N c.y1)) := by
  rw [← eOttoBody_zero env c tt Z h0]
  unfold eOttoBody eOttoMove eTorchOttoBody eTorchOttoMove
  simp only [if_true, Nat.lt_irrefl, decide_false, Bool.and_false, Bool.false_eq_true, if_false]

theorem init_first {y1 y2 : Fin d → K} {bb : Bool} {Z : Traj d N K} (h : 2 ≤ Z.length) :
    (if bb then (Z.set 0 (pt N y1)).set (Z.length - 1) (pt N y2) else Z.set 0 (pt N y1)).length = Z.length ∧
    (if bb then (Z.set 0 (pt N y1)).set (Z.length - 1) (pt N y2) else Z.set 0 (pt N y1))[0]? = some (pt N y1) := by
  cases bb
  · refine ⟨by simp, ?_⟩
    exact List.getElem?_set_self (by omega)
  · refine ⟨by simp, ?_⟩
    simp only [if_true]
    rw [List.getElem?_set_ne (by omega)]
    exact List.getElem?_set_self (by omega)

/-- The backward sweep and the last pin. -/
theorem back_inplace {dens bw : Traj d N K → Traj d N K → Int → RandM ρ (Mat d N K)} (sd : Single dens)
    (sb : Single bw) {env : Env ρ K} {c : ECfg d N M ρ K} {grid : List K} {Z B B' : Traj d N K} {r r' : ρ}
    (hk : 2 ≤ grid.length) (hB : B.length = grid.length)
    (h : (enumLoop (fun ti _ B => genBack dens bw env c grid Z ti B) 0 grid.dropLast B >>= fun B =>
      (pinRows B 0 c.y1 : Except PyErr (Traj d N K)) : RandM ρ (Traj d N K)) r = .ok (B', r')) :
    ∃ bs, bs (grid.length - 1) = pt N c.y2 ∧ BackwardSweep env (fun z b => dens [z] [b] 0) (fun z b => bw [z] [b] 0)
      c.g c.f c.deterministic grid Z bs B' ∧ B'[0]? = some (pt N c.y1) := by
  obtain ⟨B1, r1, e1, e2⟩ := RandM.bind_ok.1 h
  obtain ⟨bs, hb, hl, hlink, hlast⟩ := backLoop_inplace hk
    (R := fun j b b' y => ∃ z t, Z[j]? = some z ∧ grid[j]? = some t ∧
        BackwardCall env (fun z b => dens [z] [b] 0) (fun z b => bw [z] [b] 0) c.g c.f
          (!c.deterministic || j + 1 == grid.length) z t b b' y)
    (p := pt N c.y2)
    (fun tt B B' r r' hB e => by
      simp only [genBack, if_true] at e
      have e := lift_val e
      rw [pinRows_ok B (-1) (B.length - 1) (pyIdx_neg_one (by omega))] at e
      cases e
      refine ⟨by simp, ?_⟩
      rw [← hB]
      exact List.getElem?_set_self (by omega))
    (fun ti tt B r B' r' h1 h2 e => backBody_inplace sd sb h1 h2 e) hB e1
  have e2 := lift_val e2
  rw [pinRows_ok B1 0 0 (pyIdx_zero (by omega))] at e2
  cases e2
  refine ⟨bs, hb, ⟨by simpa using hl, fun j h2 h3 => ?_, fun _ => ?_⟩, ?_⟩
  · obtain ⟨b', q1, z, t, q2, q3, q4⟩ := hlink j h2 h3
    exact ⟨z, t, b', q2, q3, by rw [List.getElem?_set_ne (by omega)]; exact q1, q4⟩
  · rw [List.getElem?_set_ne (by omega)]; exact hlast
  · exact List.getElem?_set_self (by omega)

theorem det_parts {grid : List K} {Z0 B0 : Traj d N K} {b : Bool} {fw tr : Traj d N K → RandM ρ (Traj d N K)}
    {bk : Traj d N K → Traj d N K → RandM ρ (Traj d N K)} {r r' : ρ} {o : EObj d N K}
    (h : (do
      let Z ← fw Z0
      let Ztr ← match (if b = true then some Z0 else none : Option (Traj d N K)) with
        | some T => do
          let T' ← tr T
          pure (some T')
        | none => pure none
      let B ← bk Z B0
      pure ⟨grid, Z, B, Ztr⟩ : RandM ρ (EObj d N K)) r = .ok (o, r')) :
    (∃ r1, fw Z0 r = .ok (o.Z, r1)) ∧ (∃ r2, bk o.Z B0 r2 = .ok (o.B, r')) ∧
      ∀ T, o.Ztr = some T → ∃ r1 r2, tr Z0 r1 = .ok (T, r2) := by
  obtain ⟨Z, r1, e1, h⟩ := RandM.bind_ok.1 h
  cases b
  · simp only [Bool.false_eq_true, if_false, pure_bind] at h
    obtain ⟨B, r3, e3, h⟩ := RandM.bind_ok.1 h
    obtain ⟨rfl, rfl⟩ := RandM.pure_ok.1 h
    exact ⟨⟨r1, e1⟩, ⟨r1, e3⟩, fun T hT => by cases hT⟩
  · simp only [if_true] at h
    obtain ⟨T, r2, e2, h⟩ := RandM.bind_ok.1 h
    obtain ⟨T', r2', e2', h⟩ := RandM.bind_ok.1 h
    obtain ⟨rfl, rfl⟩ := RandM.pure_ok.1 e2'
    obtain ⟨B, r3, e3, h⟩ := RandM.bind_ok.1 h
    obtain ⟨rfl, rfl⟩ := RandM.pure_ok.1 h
    refine ⟨⟨r1, e1⟩, ⟨r2, e3⟩, fun T' hT => ?_⟩
    obtain rfl := Option.some.inj hT
    exact ⟨r1, r2, e2⟩

/-- The parts of a successful deterministic construction. -/
theorem eConstruct_parts {env : Env ρ K} {c : ECfg d N M ρ K} (hdet : c.deterministic = true) {r r' : ρ}
    {o : EObj d N K} (h : eConstruct env c r = .ok (o, r')) :
    (∃ r1, enumLoop (eOttoBody env c) 0 (mkGrid c.t1 c.t2) (zerosT d N (mkGrid c.t1 c.t2).length) r = .ok (o.Z, r1)) ∧
    (∃ r2, eBackwardSim env c (mkGrid c.t1 c.t2) o.Z (zerosT d N (mkGrid c.t1 c.t2).length) r2 = .ok (o.B, r')) ∧
      ∀ T, o.Ztr = some T → ∃ r1 r2, enumLoop (eOttoTrueBody env c) 0 (mkGrid c.t1 c.t2)
        (zerosT d N (mkGrid c.t1 c.t2).length) r1 = .ok (T, r2) := by
  unfold eConstruct at h
  rw [if_pos hdet] at h
  exact det_parts (fw := fun Z => enumLoop (eOttoBody env c) 0 (mkGrid c.t1 c.t2) Z)
    (tr := fun Z => enumLoop (eOttoTrueBody env c) 0 (mkGrid c.t1 c.t2) Z) (bk := eBackwardSim env c (mkGrid c.t1 c.t2)) h

theorem eTorchConstruct_parts {env : Env ρ K} {c : ECfg d N M ρ K} (hdet : c.deterministic = true) {r r' : ρ}
    {grid : List K} (hg : torchGrid c.t1 c.t2 = .ok grid)
    {o : EObj d N K} (h : eTorchConstruct env c r = .ok (o, r')) :
    (∃ r1, enumLoop (eTorchOttoBody env c) 0 grid (zerosT d N grid.length) r = .ok (o.Z, r1)) ∧
    (∃ r2, eTorchBackwardSim env c grid o.Z (zerosT d N grid.length) r2 = .ok (o.B, r')) ∧
      ∀ T, o.Ztr = some T → ∃ r1 r2, enumLoop (eTorchTrueBody env c) 0 grid (zerosT d N grid.length) r1 = .ok (T, r2) := by
  unfold eTorchConstruct at h
  rw [hg] at h
  have h : (if c.deterministic = true then _ else _ : RandM ρ (EObj d N K)) r = .ok (o, r') := h
  rw [if_pos hdet] at h
  exact det_parts (fw := fun Z => enumLoop (eTorchOttoBody env c) 0 grid Z)
    (tr := fun Z => enumLoop (eTorchTrueBody env c) 0 grid Z) (bk := eTorchBackwardSim env c grid) h

end
end DPFC
