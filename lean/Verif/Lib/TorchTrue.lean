import Verif.Spec.TorchTrue
import Verif.Lib.RecReal2
import Verif.Lib.TorchVerdict

/-!
# The true-drift flow of the torch class in exact arithmetic
-/

namespace DPFC
open Spec
variable {ρ : Type} {d N M : ℕ}

theorem torchTrueScore_ok (hd : 2 ≤ d) {x y : Mat d N ℝ} {S : Mat M d ℝ} (h : torchTrueScore x S = .ok y)
    (a : Fin d) (n : Fin N) : SwappedScore x S a n (y a n) := by
  unfold torchTrueScore at h
  by_cases hM : M = d
  · rw [dif_pos hM, torchScore_real _ _ _ _ (classify_tensor hd _), Except.ok_bind'] at h
    by_cases hN : N = d
    · rw [dif_pos hN] at h
      rw [← Except.ok.inj h]
      refine ⟨Fin.cast hN n, Fin.cast hN.symm a, fun j k => S (Fin.cast hM.symm k) j, ?_, ?_, ?_, ?_⟩
      · rw [if_neg (by omega)]; rfl
      · rw [if_neg (by omega)]; rfl
      · intro j k m hm
        rw [if_neg (by omega)] at hm
        have : Fin.cast hM.symm k = m := Fin.ext hm.symm
        simp only [this]
      · simp only [tcloudScore, cloudScoreL, torchLengthScales_real, LS.at]; rfl
    · rw [dif_neg hN] at h; cases h
  · rw [dif_neg hM] at h
    by_cases hM1 : M = 1
    · rw [dif_pos hM1, torchScore_real _ _ _ _ (classify_tensor hd _), Except.ok_bind'] at h
      have hP : ∀ (j k : Fin d) (m : Fin M), m.val = (if M = 1 then 0 else k.val) →
          S ⟨0, by omega⟩ j = S m j := by
        intro j k m hm
        rw [if_pos hM1] at hm
        congr 1
        exact Fin.ext hm.symm
      by_cases hN : N = d
      · rw [dif_pos hN] at h
        rw [← Except.ok.inj h]
        refine ⟨⟨0, by omega⟩, Fin.cast hN.symm a, fun j _ => S ⟨0, by omega⟩ j, ?_, ?_, hP, ?_⟩
        · rw [if_pos hM1]
        · rw [if_neg (by omega)]; rfl
        · simp only [tcloudScore, cloudScoreL, torchLengthScales_real, LS.at]; rfl
      · rw [dif_neg hN] at h
        by_cases hN1 : N = 1
        · rw [dif_pos hN1] at h
          rw [← Except.ok.inj h]
          refine ⟨⟨0, by omega⟩, ⟨0, by omega⟩, fun j _ => S ⟨0, by omega⟩ j, ?_, ?_, hP, ?_⟩
          · rw [if_pos hM1]
          · rw [if_pos hN1]
          · simp only [tcloudScore, cloudScoreL, torchLengthScales_real, LS.at]; rfl
        · rw [dif_neg hN1] at h; cases h
    · rw [dif_neg hM1] at h; cases h

theorem torchTrueStep_ok (env : Env ρ ℝ) (hN : 0 < N) (hd : 2 ≤ d) (g : ℝ) (f : Drift d N ℝ)
    (x y : Mat d N ℝ) (t : ℝ) (r r' : ρ) (h : torchTrueStep env M g f x t r = .ok (y, r')) :
    (∀ a, lo (x a) < hi (x a)) ∧ r' = tunifsNext env d M r ∧
    ∀ a n, ∃ w, SwappedScore x (tinducing (fun a => lo (x a)) (fun a => hi (x a)) (tunifs env d M r)) a n w ∧
      y a n = x a n + 1/1000 * (f.call2 x t a n - g^2/2 * w) := by
  unfold torchTrueStep at h
  obtain ⟨v, rv, hv, hp⟩ := RandM.bind_ok.1 h
  obtain ⟨p1, p2⟩ := RandM.pure_ok.1 hp
  unfold torchFSeperateTrue at hv
  rw [torchBox_real hN, RandM.liftM_ok, pure_bind] at hv
  obtain ⟨S, r1, hS, hv⟩ := RandM.bind_ok.1 hv
  obtain ⟨hlt, hS, hr⟩ := torchInducing_lt hS
  obtain ⟨gp, r2, hg, hv⟩ := RandM.bind_ok.1 hv
  obtain ⟨hg, hr2⟩ := RandM.lift_ok.1 hg
  obtain ⟨h1, h2⟩ := RandM.pure_ok.1 hv
  refine ⟨hlt, by rw [← p2, ← h2, ← hr2, hr], fun a n => ⟨gp a n, ?_, ?_⟩⟩
  · have := torchTrueScore_ok hd hg a n
    rw [hS] at this
    exact this
  · rw [← p1, ← h1]
    simp only [dtc_real, real_lit_half, real_sq]
    ring

theorem torchTrueChain_prefix' (env : Env ρ ℝ) (c : Cfg d N M ℝ) (hN : 0 < N) {ft : Drift d N ℝ}
    (hf : c.fTrue = some ft)
    (ts : List ℝ) (hd : 2 ≤ ts.length → 2 ≤ d) (hp : ts <+: (mkGrid c.t1 c.t2).tail) (ys : Traj d N ℝ) (r r' : ρ)
    (h : chain (torchTrueSlice env c) 1 ts (pt N c.y1) r = .ok (ys, r')) :
    ∃ rs : ℕ → ρ, rs 0 = r ∧ rs ts.length = r' ∧
      TorchTrueRec env c (fun i => (pt N c.y1 :: ys)[i]?) (fun i => (mkGrid c.t1 c.t2)[i]?) rs := by
  obtain ⟨hl, rs, h0, h1, hs⟩ := chain_ok_iff.1 h
  have hpl := hp.length_le
  rw [List.length_tail] at hpl
  refine ⟨rs, h0, h1, ft, hf, ?_⟩
  intro i x y ti hx hy ht
  have hit : i < ts.length := by
    have := (List.getElem?_eq_some_iff.1 hy).1
    rw [List.length_cons] at this; omega
  have hi : i + 1 < (mkGrid c.t1 c.t2).length := by omega
  obtain ⟨tt, htt⟩ := grid_get hi
  have htt' : ts[i]? = some tt := by
    rw [List.getElem?_eq_getElem hit, ← List.prefix_iff_getElem?.1 hp i hit, List.getElem?_tail]
    exact htt
  have hst := hs i tt x y htt' hx hy
  have hti : tt - dtc = ti := by rw [grid_time ht htt, dtc_real]; ring
  unfold torchTrueSlice at hst
  rw [hf, hti] at hst
  refine ⟨fun hi0 => ?_, fun hi0 => ?_⟩
  · subst hi0
    simp only [Nat.add_zero, if_true, noisyStep_real] at hst
    injection hst with hst
    injection hst with h1 h2
    exact ⟨h1.symm, h2.symm⟩
  · simp only [if_neg (show ¬ 1 + i = 1 by omega)] at hst
    exact torchTrueStep_ok env hN (hd (by omega)) c.g ft x y ti _ _ hst

theorem torchTrueChain_prefix (env : Env ρ ℝ) (c : Cfg d N M ℝ) (hN : 0 < N) (hd : 2 ≤ d) {ft : Drift d N ℝ}
    (hf : c.fTrue = some ft)
    (ts : List ℝ) (hp : ts <+: (mkGrid c.t1 c.t2).tail) (ys : Traj d N ℝ) (r r' : ρ)
    (h : chain (torchTrueSlice env c) 1 ts (pt N c.y1) r = .ok (ys, r')) :
    ∃ rs : ℕ → ρ, rs 0 = r ∧ rs ts.length = r' ∧
      TorchTrueRec env c (fun i => (pt N c.y1 :: ys)[i]?) (fun i => (mkGrid c.t1 c.t2)[i]?) rs :=
  torchTrueChain_prefix' env c hN hf ts (fun _ => hd) hp ys r r' h

end DPFC
