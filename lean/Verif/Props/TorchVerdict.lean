import Verif.Lib.TorchVerdict
import Verif.Lib.Examples
import Verif.Props.TorchFail

/-!
# C64: what the torch constructor can do

In exact arithmetic. Apart from the exceptions listed in `torchVerdict`, which depend only on grid size,
dimension, flags, kernel name and arities, the only exception is the ValueError of the uniform
distribution, and it means that a simulated cloud has no spread in some coordinate.
-/

namespace DPFC
open Spec

section
variable {ρ : Type} {N M d : ℕ}

private theorem of_fails {k : ℕ} {e : PyErr} {x : RandM ρ (Obj d N M ℝ)} (r : ρ)
    (h : FailsOr e .valueError x) (h2 : k < 3 → Fails x e) : OutcomeOrValueError k (some e) (x r) := by
  by_cases h3 : k < 3
  · exact .inl (h2 h3 r)
  · rcases h r with h | h
    · exact .inl h
    · exact .inr ⟨by omega, h⟩

private theorem of_total {k : ℕ} {x : RandM ρ (Obj d N M ℝ)} (r : ρ)
    (h : TotalOr .valueError x) (h2 : k < 3 → Total x) : OutcomeOrValueError k none (x r) := by
  by_cases h3 : k < 3
  · exact .inl (h2 h3 r)
  · rcases h r with h | h
    · exact .inl h
    · exact .inr ⟨by omega, h⟩

private theorem fwd_two (env : Env ρ ℝ) (c : Cfg d N M ℝ) (hN : 0 < N)
    (hU : c.reweight = true → c.U.isNone = false ∧ EmdTotal env) {grid : List ℝ} (hk : grid.length = 2) :
    Total (chain (torchOttoSlice env c) 1 grid.tail (pt N c.y1)) := by
  obtain ⟨t0, t1, rfl⟩ := List.length_eq_two.1 hk
  exact (torchOttoSlice_one_tot env hN c hU t1 _).bind fun y => (Total.pure _).bind fun _ => Total.pure _

private theorem true_total (env : Env ρ ℝ) (c : Cfg d N M ℝ) (hN : 0 < N) (hd : 0 < d) {grid : List ℝ}
    (hf : c.reweight = true → c.brownBridge = true → c.fTrue.isNone = false)
    (hs : 3 ≤ grid.length → c.reweight = true → c.brownBridge = true → BridgeShapes d N M) :
    TotalOr .valueError (torchTrueFlow env c grid) ∧
      (grid.length = 2 → Total (torchTrueFlow env c grid)) := by
  unfold torchTrueFlow
  by_cases hb : (c.reweight && c.brownBridge) = true
  · simp only [if_pos hb]
    rw [Bool.and_eq_true] at hb
    cases hft : c.fTrue with
    | none => have := hf hb.1 hb.2; rw [hft] at this; simp at this
    | some ft =>
      have h1 : ∀ t x, Total (torchTrueSlice env c 1 t x) := by
        intro t x
        unfold torchTrueSlice
        rw [hft]
        exact noisyStep_tot env _ _ _ _
      constructor
      · refine TotalOr.bind ?_ fun _ => (Total.pure _).or
        by_cases h3 : 3 ≤ grid.length
        · refine TotalOr.chain (fun i t x => ?_) _ _ _
          unfold torchTrueSlice
          rw [hft]
          simp only
          split
          · exact (noisyStep_tot env _ _ _ _).or
          · exact torchTrueStep_to env hN hd (hs h3 hb.1 hb.2) _ _ _ _
        · match grid, h3 with
          | [], _ => exact (Total.pure _).or
          | [_], _ => exact (Total.pure _).or
          | [_, t], _ => exact ((h1 t _).bind fun y => (Total.pure _).bind fun _ => Total.pure _).or
          | _ :: _ :: _ :: _, h => exact absurd (by simp) h
      · intro h2
        obtain ⟨t0, t1, rfl⟩ := List.length_eq_two.1 h2
        exact Total.bind ((h1 t1 _).bind fun y => (Total.pure _).bind fun _ => Total.pure _)
          fun _ => Total.pure _
  · simp only [if_neg hb]
    exact ⟨(Total.pure _).or, fun _ => Total.pure _⟩

/-- **C64** (outcome table). On every grid the constructor does what `torchVerdict` says, or raises
ValueError, the latter only with at least three grid points. -/
theorem C64_torch_verdict (env : Env ρ ℝ) (c : Cfg d N M ℝ) (hN : 0 < N) (hd : 0 < d)
    (hE : c.reweight = true → EmdTotal env) (grid : List ℝ) (hg : torchGrid c.t1 c.t2 = .ok grid) (r : ρ) :
    OutcomeOrValueError grid.length (torchVerdict grid.length c) (torchConstruct env c r) := by
  unfold torchVerdict
  by_cases h0 : grid.length = 0
  · rw [if_pos h0]
    refine .inl ?_
    rw [torchConstruct_empty env c hd (by rw [hg, List.length_eq_zero_iff.1 h0])]; rfl
  rw [if_neg h0]
  cases hdet : c.deterministic with
  | true =>
    rw [if_pos rfl]
    by_cases h1 : grid.length = 1
    · rw [if_pos h1]
      obtain ⟨t0, ht⟩ := List.length_eq_one_iff.1 h1
      refine .inl ?_
      rw [torchConstruct_det_single env c hdet t0 (by rw [hg, ht])]
      exact ⟨_, _, rfl⟩
    rw [if_neg h1]
    have hk : 2 ≤ grid.length := by omega
    have heq := torchConstruct_det_eq env c hdet grid hg hk
    by_cases hA : c.reweight = true ∧ c.U.isNone
    · rw [if_pos hA]
      have hF : Fails (torchConstruct env c) .typeError := by
        rw [heq]
        obtain ⟨t0, t1, ts, rfl⟩ : ∃ t0 t1 ts, grid = t0 :: t1 :: ts := by
          match grid, hk with
          | a :: b :: l, _ => exact ⟨a, b, l, rfl⟩
        exact Fails.bind (Fails.chain_first (torchOttoSlice_fails env c hA.1 hA.2 _ _)) _
      exact of_fails r hF.or fun _ => hF
    rw [if_neg hA]
    have hU : c.reweight = true → c.U.isNone = false ∧ EmdTotal env := fun hr =>
      ⟨by
        cases hx : c.U.isNone with
        | false => rfl
        | true => exact absurd ⟨hr, hx⟩ hA, hE hr⟩
    have hfw : TotalOr .valueError (chain (torchOttoSlice env c) 1 grid.tail (pt N c.y1)) :=
      TotalOr.chain (torchOttoSlice_to env hN hd c hU) _ _ _
    have hfw2 : grid.length < 3 → Total (chain (torchOttoSlice env c) 1 grid.tail (pt N c.y1)) :=
      fun h => fwd_two env c hN hU (by omega)
    by_cases hB : c.reweight = true ∧ c.brownBridge = true ∧ c.fTrue.isNone
    · rw [if_pos hB]
      have hfail : Fails (torchTrueFlow env c grid) .typeError := by
        unfold torchTrueFlow
        rw [if_pos (by rw [hB.1, hB.2.1]; rfl)]
        obtain ⟨t0, t1, ts, rfl⟩ : ∃ t0 t1 ts, grid = t0 :: t1 :: ts := by
          match grid, hk with
          | a :: b :: l, _ => exact ⟨a, b, l, rfl⟩
        refine Fails.bind (Fails.chain_first ?_) _
        unfold torchTrueSlice
        have : c.fTrue = none := by simpa using hB.2.2
        rw [this]
        exact Fails.raise _
      rw [heq]
      exact of_fails r (hfw.fails fun ys => (hfail.bind _).or) fun h => (hfw2 h).fails fun ys => hfail.bind _
    rw [if_neg hB]
    have hf : c.reweight = true → c.brownBridge = true → c.fTrue.isNone = false := fun h1 h2 => by
      cases hx : c.fTrue.isNone with
      | false => rfl
      | true => exact absurd ⟨h1, h2, hx⟩ hB
    by_cases hC : 3 ≤ grid.length ∧ c.reweight = true ∧ c.brownBridge = true ∧ ¬ BridgeShapes d N M
    · rw [if_pos hC]
      have hfail : FailsOr .runtimeError .valueError (torchTrueFlow env c grid) := by
        unfold torchTrueFlow
        rw [if_pos (by rw [hC.2.1, hC.2.2.1]; rfl)]
        obtain ⟨t0, t1, t2, ts, rfl⟩ : ∃ t0 t1 t2 ts, grid = t0 :: t1 :: t2 :: ts := by
          match grid, hC.1 with
          | a :: b :: e :: l, _ => exact ⟨a, b, e, l, rfl⟩
        have hft := hf hC.2.1 hC.2.2.1
        cases hft' : c.fTrue with
        | none => rw [hft'] at hft; simp at hft
        | some ft =>
          refine FailsOr.bind (FailsOr.chain_second ?_ fun y => ?_) _
          · unfold torchTrueSlice
            rw [hft']
            exact (noisyStep_tot env _ _ _ _).or
          · unfold torchTrueSlice
            rw [hft']
            exact torchTrueStep_fo env hN hd hC.2.2.2 _ _ _ _
      rw [heq]
      exact of_fails r (hfw.fails fun ys => hfail.bind _) fun h => absurd hC.1 (by omega)
    rw [if_neg hC]
    have hs : 3 ≤ grid.length → c.reweight = true → c.brownBridge = true → BridgeShapes d N M := by
      intro h1 h2 h3
      by_contra hn
      exact hC ⟨h1, h2, h3, hn⟩
    obtain ⟨htf, htf2⟩ := true_total env c hN hd hf hs
    by_cases hD : 3 ≤ grid.length ∧ (d = 1 ∨ ¬ KnownKernel c.kern)
    · rw [if_pos hD, heq]
      refine of_fails r (hfw.fails' fun ys r1 r2 hy => htf.fails fun zt => ?_)
        fun h => absurd hD.1 (by omega)
      have hlen := chain_length hy
      obtain ⟨p, ps, hv⟩ := visits_three (pt N c.y1 :: ys) grid hD.1 (by
        simp only [List.length_cons, List.length_tail] at hlen ⊢; omega)
      rw [hv]
      exact FailsOr.bind (FailsOr.chain_first (torchBack_fo env hN hd c hD.2 _ _ _)) _
    rw [if_neg hD, heq]
    refine of_total r (hfw.bind fun ys => htf.bind fun zt => ?_) fun h => ?_
    · refine TotalOr.bind ?_ fun bs => (Total.pure _).or
      by_cases h3 : 3 ≤ grid.length
      · refine TotalOr.chain (torchBack_to env hN ?_ c ?_) _ _ _
        · by_contra hn; exact hD ⟨h3, .inl (by omega)⟩
        · by_contra hn; exact hD ⟨h3, .inr hn⟩
      · rw [visits_two _ _ (by omega)]
        exact (Total.pure _).or
    · refine (hfw2 h).bind fun ys => (htf2 (by omega)).bind fun zt => Total.bind ?_ fun bs => Total.pure _
      rw [visits_two _ _ (by omega)]
      exact Total.pure _
  | false =>
    rw [if_neg (by simp)]
    obtain ⟨t0, ts, hts⟩ : ∃ t0 ts, grid = t0 :: ts := by
      match grid, h0 with
      | a :: l, _ => exact ⟨a, l, rfl⟩
      | [], h => exact absurd rfl h
    by_cases hd2 : d < 2
    · rw [if_pos hd2]
      refine .inl ?_
      rw [torchConstruct_stoch_dim1 env c hdet t0 ts (by rw [hg, hts]) (by omega)]; rfl
    rw [if_neg hd2]
    by_cases h1 : grid.length = 1
    · rw [if_pos h1]
      obtain ⟨t0, ht⟩ := List.length_eq_one_iff.1 h1
      refine .inl ?_
      rw [torchConstruct_stoch_single env c hdet (by omega) t0 (by rw [hg, ht])]
      exact ⟨_, _, rfl⟩
    rw [if_neg h1]
    have hk : 2 ≤ grid.length := by omega
    have heq := torchConstruct_stoch_eq env c hdet grid hg hk (by omega)
    by_cases hB : c.reweight = true ∧ (c.U.bind (·.call1)).isNone
    · rw [if_pos hB]
      have hF : Fails (torchConstruct env c) .typeError := by
        rw [heq]
        obtain ⟨t0, t1, ts, rfl⟩ : ∃ t0 t1 ts, grid = t0 :: t1 :: ts := by
          match grid, hk with
          | a :: b :: l, _ => exact ⟨a, b, l, rfl⟩
        exact Fails.bind (Fails.chain_first (torchStochSlice_fails env c hB.1 hB.2 _ _ _)) _
      exact of_fails r hF.or fun _ => hF
    rw [if_neg hB]
    have hU : c.reweight = true → (c.U.bind (·.call1)).isNone = false ∧ EmdTotal env := fun hr =>
      ⟨by
        cases hx : (c.U.bind (·.call1)).isNone with
        | false => rfl
        | true => exact absurd ⟨hr, hx⟩ hB, hE hr⟩
    have hfw : Total (chain (torchStochSlice env c) 1 grid.tail (stochInit N c.y1)) :=
      Total.chain (torchStochSlice_tot env hN c hU) _ _ _
    by_cases hC : 3 ≤ grid.length ∧ ¬ KnownKernel c.kern
    · rw [if_pos hC, heq]
      refine of_fails r (hfw.or.fails' fun ys r1 r2 hy => ?_) fun h => absurd hC.1 (by omega)
      have hlen := chain_length hy
      obtain ⟨p, ps, hv⟩ := visits_three (stochInit N c.y1 :: ys) grid hC.1 (by
        simp only [List.length_cons, List.length_tail] at hlen ⊢; omega)
      rw [hv]
      exact FailsOr.bind (FailsOr.chain_first (torchBack_fo env hN hd c (.inr hC.2) _ _ _)) _
    rw [if_neg hC, heq]
    refine of_total r (hfw.or.bind fun ys => TotalOr.bind ?_ fun bs => (Total.pure _).or) fun h => ?_
    · by_cases h3 : 3 ≤ grid.length
      · refine TotalOr.chain (torchBack_to env hN (by omega) c ?_) _ _ _
        by_contra hn; exact hC ⟨h3, hn⟩
      · rw [visits_two _ _ (by omega)]
        exact (Total.pure _).or
    · refine hfw.bind fun ys => Total.bind ?_ fun bs => Total.pure _
      rw [visits_two _ _ (by omega)]
      exact Total.pure _

theorem tv_flat_or_spread (x : Mat d N ℝ) :
    (∀ a, lo (x a) < hi (x a)) ∨ ∃ a, ∀ n n', x a n = x a n' := by
  by_cases h : ∀ a, lo (x a) < hi (x a)
  · exact .inl h
  · push Not at h
    obtain ⟨a, ha⟩ := h
    refine .inr ⟨a, fun n n' => ?_⟩
    by_contra hne
    rcases lt_or_gt_of_ne hne with h | h
    · exact absurd (lo_lt_hi _ _ _ h) (not_lt.2 ha)
    · exact absurd (lo_lt_hi _ _ _ h) (not_lt.2 ha)

theorem tv_slice_error (env : Env ρ ℝ) (c : Cfg d N M ℝ) (hN : 0 < N) (hd : 2 ≤ d)
    (hU : c.reweight = true → c.U.isNone = false ∧ EmdTotal env) (i : ℕ) (t : ℝ) (x : Mat d N ℝ) (r : ρ)
    {e : PyErr} (h : torchOttoSlice env c i t x r = .error e) : i ≠ 1 ∧ ∃ a, ∀ n n', x a n = x a n' := by
  refine ⟨fun hi => ?_, ?_⟩
  · obtain ⟨_, _, h'⟩ := torchOttoSlice_one_tot env hN c hU t x r
    rw [hi, h'] at h; cases h
  · rcases tv_flat_or_spread x with hs | hs
    · exfalso
      rw [torchOttoSlice_bind, RandM.bind_app] at h
      have hT : ∃ y r', (if i = 1 then noisyStep env c.g c.f x (t - dtc)
          else torchOttoStep env M c.g c.f x (t - dtc)) r = .ok (y, r') := by
        split
        · exact noisyStep_tot env _ _ _ _ r
        · obtain ⟨s, hs'⟩ := torchFSeperate_total (M := M) env hN hd c.g c.f x (t - dtc) r hs
          unfold torchOttoStep
          rw [RandM.bind_app, hs']
          exact ⟨_, _, rfl⟩
      obtain ⟨y, r', hy⟩ := hT
      rw [hy] at h
      simp only at h
      by_cases hr : c.reweight = true
      · rw [if_pos hr] at h
        obtain ⟨_, _, h'⟩ := torchOttoRw_tot env hN (hU hr).2 (hU hr).1 y t r'
        rw [h'] at h; cases h
      · rw [if_neg hr] at h; cases h
    · exact hs

theorem tv_back_error (env : Env ρ ℝ) (c : Cfg d N M ℝ) (hN : 0 < N) (hd : 2 ≤ d)
    (hk : KnownKernel c.kern) (i : ℕ) (zt : Mat d N ℝ × ℝ) (b : Mat d N ℝ) (r : ρ)
    {e : PyErr} (h : torchBack env c i zt b r = .error e) : ∃ a, ∀ n n', zt.1 a n = zt.1 a n' := by
  rcases tv_flat_or_spread zt.1 with hs | hs
  · exfalso
    simp only [torchBack, backStep, effKern_rbf hk, RandM.bind_app] at h
    obtain ⟨s, r1, h1⟩ := torchDensityAt_total (M := M) env hN hd zt.1 b r hs
    rw [h1] at h
    simp only at h
    split at h
    · rw [RandM.bind_app] at h
      obtain ⟨_, _, h2⟩ := normalMat_tot (d := d) (N := N) env (NumOps.sqrt dtc) r1
      rw [h2] at h; cases h
    · rw [RandM.bind_app] at h
      obtain ⟨_, _, h2⟩ := torchBwDensityAt_total (M := M) env hN hd "RBF" zt.1 b r1 hs
      rw [h2] at h; cases h
  · exact hs

/-- A failing backward simulation has met a forward slice, of index at least 2, without spread. -/
theorem tv_backChain_error (env : Env ρ ℝ) (c : Cfg d N M ℝ) (hN : 0 < N) (hd : 2 ≤ d)
    (hk : 3 ≤ (mkGrid c.t1 c.t2).length → KnownKernel c.kern) (Z : Traj d N ℝ) (hZ : Z.length = (mkGrid c.t1 c.t2).length) (b : Mat d N ℝ) (r : ρ)
    {e : PyErr} (h : chain (torchBack env c) 1 (visits Z (mkGrid c.t1 c.t2)) b r = .error e) :
    ∃ i x a, 2 ≤ i ∧ i < (mkGrid c.t1 c.t2).length ∧ Z[i]? = some x ∧ ∀ n n', x a n = x a n' := by
  obtain ⟨pre, zt, post, ys, r', y, hv, _, _, h4⟩ := chain_error _ _ _ _ h
  have hmem : zt ∈ visits Z (mkGrid c.t1 c.t2) := by rw [hv]; simp
  have h3 : 3 ≤ (mkGrid c.t1 c.t2).length := by
    by_contra h3
    rw [visits_two _ _ (by omega)] at hmem
    cases hmem
  obtain ⟨a, ha⟩ := tv_back_error env c hN hd (hk h3) _ _ _ _ h4
  unfold visits at hmem
  rw [List.mem_reverse, List.mem_iff_getElem?] at hmem
  obtain ⟨j, hj⟩ := hmem
  rw [List.getElem?_drop, List.getElem?_zip_eq_some] at hj
  have := (List.getElem?_eq_some_iff.1 hj.1).1
  exact ⟨2 + j, zt.1, a, by omega, by omega, hj.1, ha⟩

theorem tv_grid_eq {c : Cfg d N M ℝ} {grid : List ℝ} (hg : torchGrid c.t1 c.t2 = .ok grid) :
    grid = mkGrid c.t1 c.t2 := by
  unfold torchGrid at hg
  split at hg
  · cases hg
  · exact (Except.ok.inj hg).symm.trans (torchPoints_real _ _)

/-- **C64** (meaning of the ValueError, deterministic mode without true-drift flow). If construction fails
although the table says that it returns, then an initial part of the forward flow ends in a cloud without
spread in some coordinate. -/
theorem C64_value_error_means_no_spread (env : Env ρ ℝ) (c : Cfg d N M ℝ) (hN : 0 < N) (hd : 0 < d)
    (hE : c.reweight = true → EmdTotal env) (hdet : c.deterministic = true)
    (hbb : (c.reweight && c.brownBridge) = false)
    (grid : List ℝ) (hg : torchGrid c.t1 c.t2 = .ok grid) (hv : torchVerdict grid.length c = none) (r : ρ)
    (e : PyErr) (h : torchConstruct env c r = .error e) : LosesSpread env c grid r := by
  have hv0 := hv
  unfold torchVerdict at hv
  rw [if_pos hdet] at hv
  split at hv
  · cases hv
  split at hv
  · rename_i h0 h1
    obtain ⟨t0, ht⟩ := List.length_eq_one_iff.1 h1
    rw [torchConstruct_det_single env c hdet t0 (by rw [hg, ht])] at h
    cases h
  rename_i h0 h1
  have hk : 2 ≤ grid.length := by omega
  split at hv
  · cases hv
  rename_i hA
  have hU : c.reweight = true → c.U.isNone = false ∧ EmdTotal env := fun hr =>
    ⟨by
      cases hx : c.U.isNone with
      | false => rfl
      | true => exact absurd ⟨hr, hx⟩ hA, hE hr⟩
  split at hv
  · cases hv
  split at hv
  · cases hv
  split at hv
  · cases hv
  rename_i hD
  obtain rfl := tv_grid_eq hg
  have hd2 : 3 ≤ (mkGrid c.t1 c.t2).length → 2 ≤ d := by
    intro h3
    by_contra hn
    exact hD ⟨h3, .inl (by omega)⟩
  have hkern : 3 ≤ (mkGrid c.t1 c.t2).length → KnownKernel c.kern := by
    intro h3
    by_contra hn
    exact hD ⟨h3, .inr hn⟩
  have h3 : 3 ≤ (mkGrid c.t1 c.t2).length := by
    by_contra h3
    rcases C64_torch_verdict env c hN hd hE _ hg r with hh | hh
    · rw [hv0] at hh
      obtain ⟨_, _, hh⟩ := hh
      rw [hh] at h; cases h
    · exact h3 hh.1
  have hd' := hd2 h3
  rw [torchConstruct_det_eq env c hdet _ hg hk, RandM.bind_app] at h
  have htail := List.length_tail (l := mkGrid c.t1 c.t2)
  rcases hF : chain (torchOttoSlice env c) 1 (mkGrid c.t1 c.t2).tail (pt N c.y1) r with e' | ⟨ys, r1⟩
  · obtain ⟨pre, t, post, ys, r', y, hts, h2, hy, h4⟩ := chain_error _ _ _ _ hF
    obtain ⟨hne, a, ha⟩ := tv_slice_error env c hN hd' hU _ _ _ _ h4
    obtain ⟨rs, hr0, _, hrec⟩ := torchOttoChain_prefix env c hN hd' pre (by rw [hts]; exact List.prefix_append _ _)
      ys r r' h2
    have hlen := chain_length h2
    have hl : pre.length + 1 ≤ (mkGrid c.t1 c.t2).length - 1 := by
      rw [← htail, hts]; simp
    refine ⟨pre.length, _, rs, by omega, by omega, rfl, hr0, fun j hj => ?_, hrec, y, a, hy, ha⟩
    exact ⟨_, List.getElem?_eq_getElem (by simp; omega)⟩
  · rw [hF] at h
    simp only [torchTrueFlow, hbb, Bool.false_eq_true, if_false, pure_bind] at h
    simp only [RandM.bind_app] at h
    have hlen := chain_length hF
    rcases hB : chain (torchBack env c) 1 (visits (pt N c.y1 :: ys) (mkGrid c.t1 c.t2)) (pt N c.y2) r1
      with e' | ⟨bs, r2⟩
    · obtain ⟨i, x, a, hi2, hil, hx, ha⟩ := tv_backChain_error env c hN hd' hkern (pt N c.y1 :: ys)
        (by simp only [List.length_cons]; omega) _ _ hB
      obtain ⟨rs, hr0, _, hrec⟩ := torchOttoChain_prefix env c hN hd' _ (List.prefix_refl _) ys r r1 hF
      refine ⟨i, _, rs, by omega, hil, rfl, hr0, fun j hj => ?_, hrec, x, a, hx, ha⟩
      exact ⟨_, List.getElem?_eq_getElem (by simp; omega)⟩
    · rw [hB] at h; cases h

theorem torchVerdict_plain {k : ℕ} {c : Cfg d N M ℝ} (hd : 2 ≤ d) (hdet : c.deterministic = true)
    (hr : c.reweight = false) (hk : KnownKernel c.kern) (h3 : 3 ≤ k) : torchVerdict k c = none := by
  unfold torchVerdict
  rw [if_neg (by omega), if_pos hdet, if_neg (by omega)]
  simp only [hr, Bool.false_eq_true, false_and, if_false, and_false]
  rw [if_neg]
  rintro ⟨_, h | h⟩
  · omega
  · exact h hk

/-- A reweighting of coinciding particles leaves them together. -/
private theorem rw_coincide {env : Env ρ ℝ} (hN : 0 < N) (hC : SolverCouples env) (v : Fin N → ℝ)
    {x y : Mat d N ℝ} (h : torchReweight env x (fun n => NumOps.exp (v n)) = .ok y)
    (hx : ∀ i j, sqdist x i j = 0) (a : Fin d) (n n' : Fin N) : y a n = y a n' := by
  obtain ⟨m, rfl⟩ : ∃ m, N = m + 1 := ⟨N - 1, by omega⟩
  have he : ∀ i, x a i = x a 0 := by
    intro i
    have := (Finset.sum_eq_zero_iff_of_nonneg (fun b _ => sq_nonneg (x b i - x b 0))).1 (hx i 0) a (Finset.mem_univ a)
    nlinarith [sq_nonneg (x a i - x a 0), pow_eq_zero_iff (two_ne_zero) |>.1 this]
  simp only [torchReweight, softmax_real, torchMatMax, Except.ok_bind', real_sum, real_sq, amax_real] at h
  obtain ⟨T, hT, h2⟩ := Except.bind_ok.1 h
  cases h2
  have hc := hC (m+1) _ _ _ _ (softmax_prob hN v) ⟨fun _ => by positivity, by
    simp; field_simp⟩ (show env.emd (softmax v) (fun _ => (1:ℝ) / (m+1 : ℕ)) _ = .ok T by
      rw [← hT]; congr 1; funext _; simp)
  have key : ∀ j, ∑ k, ((m+1 : ℕ) : ℝ) * x a k * T k j = x a 0 := by
    intro j
    have h1 := hc.2.2 j
    calc ∑ k, ((m+1 : ℕ) : ℝ) * x a k * T k j = ((m+1 : ℕ) : ℝ) * x a 0 * ∑ k, T k j := by
          rw [Finset.mul_sum]; exact Finset.sum_congr rfl fun k _ => by rw [he k]
      _ = x a 0 := by
          rw [h1]
          have : ((m+1 : ℕ) : ℝ) ≠ 0 := by positivity
          field_simp
  have := (key n).trans (key n').symm
  simpa [mm] using this

/-- The recurrence determines the forward flow as long as the computed slices have spread. -/
private theorem forward_unique {env : Env ρ ℝ} {c : Cfg d N M ℝ} (hN : 0 < N) (hd : 2 ≤ d)
    (hC : c.reweight = true → SolverCouples env)
    {Z : ℕ → Option (Fin d → Fin N → ℝ)} {rs rs' : ℕ → ρ} {ys : Traj d N ℝ}
    (hl : ys.length = (mkGrid c.t1 c.t2).tail.length)
    (h : TorchForwardRec env c Z (fun j => (mkGrid c.t1 c.t2)[j]?) rs)
    (h' : ∀ (i : ℕ) (b : ℝ) (x y : Mat d N ℝ), (mkGrid c.t1 c.t2).tail[i]? = some b → (pt N c.y1 :: ys)[i]? = some x →
      ys[i]? = some y → torchOttoSlice env c (1 + i) b x (rs' i) = .ok (y, rs' (i+1)))
    (hsp : ∀ i x, 1 ≤ i → (pt N c.y1 :: ys)[i]? = some x → ∀ a, ∃ n n', x a n < x a n')
    (h0 : Z 0 = some (pt N c.y1)) (hr0 : rs 0 = rs' 0) :
    ∀ i, i < (mkGrid c.t1 c.t2).length → (∀ j ≤ i, ∃ x, Z j = some x) →
      Z i = (pt N c.y1 :: ys)[i]? ∧ rs i = rs' i
  | 0, _, _ => ⟨h0, hr0⟩
  | i+1, hi, hz => by
    obtain ⟨ih, ihr⟩ := forward_unique hN hd hC hl h h' hsp h0 hr0 i (by omega) (fun j hj => hz j (by omega))
    obtain ⟨x, hx⟩ := hz i (by omega)
    obtain ⟨y, hy⟩ := hz (i+1) le_rfl
    rw [List.length_tail] at hl
    have hyl : i < ys.length := by omega
    have hy' : ys[i]? = some ys[i] := List.getElem?_eq_getElem hyl
    obtain ⟨s, hs⟩ : ∃ s, (mkGrid c.t1 c.t2)[i]? = some s := ⟨_, List.getElem?_eq_getElem (by omega)⟩
    obtain ⟨tt, htt⟩ := grid_get hi
    have hst := h' i tt x ys[i] (by rw [List.getElem?_tail]; exact htt) (ih ▸ hx) hy'
    have hti : tt - dtc = s := by rw [grid_time hs htt, dtc_real]; ring
    rw [torchOttoSlice_bind, hti] at hst
    obtain ⟨raw', rm, hraw, hrw⟩ := RandM.bind_ok.1 hst
    obtain ⟨raw, hstep, hnw, hw⟩ := h i x y s hx hy hs
    have hrm : rm = rs' (i+1) := by
      split at hrw
      · exact ((RandM.lift_ok).1 hrw).2
      · exact ((RandM.pure_ok).1 hrw).2
    have hsame : raw = raw' ∧ rs (i+1) = rm := by
      by_cases hi0 : i = 0
      · subst hi0
        rw [if_pos rfl, noisyStep_real] at hraw
        injection hraw with hraw
        injection hraw with e1 e2
        obtain ⟨a1, a2⟩ := hstep.1 rfl
        refine ⟨?_, ?_⟩
        · rw [a1, ← e1, ihr]; rfl
        · rw [a2, ← e2, ihr]
      · rw [if_neg (by omega)] at hraw
        unfold torchOttoStep at hraw
        obtain ⟨v, rv, hv, hp⟩ := RandM.bind_ok.1 hraw
        obtain ⟨_, hr, hvv⟩ := torchFSeperate_ok env hN hd c.g c.f x v s _ _ hv
        obtain ⟨e1, e2⟩ := RandM.pure_ok.1 hp
        obtain ⟨_, a2, a1⟩ := hstep.2 hi0
        refine ⟨?_, by rw [a2, ← e2, hr, ihr]⟩
        rw [a1, ← e1, hvv, ihr]
        simp only [dtc_real]
    obtain ⟨rfl, hrs⟩ := hsame
    refine ⟨?_, hrs.trans hrm⟩
    rw [hy, List.getElem?_cons_succ, hy']
    congr 1
    cases hr : c.reweight with
    | false =>
      rw [hr] at hrw
      rw [hnw hr]
      exact ((RandM.pure_ok).1 hrw).1
    | true =>
      rw [hr, if_pos rfl] at hrw
      have hrw := ((RandM.lift_ok).1 hrw).1
      obtain ⟨U, hU, ht⟩ := hw hr
      rw [hU, grid_time hs htt] at hrw
      simp only [torchOttoRw, dtc_real] at hrw
      by_cases hq : ∃ n m, sqdist raw n m ≠ 0
      · obtain ⟨T, hT, e⟩ := ht hq
        obtain ⟨T', hT', e'⟩ := torchReweight_ok env hN _ raw _ hrw hq
        rw [hT] at hT'
        cases hT'
        funext a n
        rw [e, e']
      · exfalso
        push Not at hq
        obtain ⟨n, n', hlt⟩ := hsp (i+1) ys[i] (by omega) (by rw [List.getElem?_cons_succ]; exact hy') ⟨0, by omega⟩
        exact absurd (rw_coincide hN (hC hr) _ hrw hq _ n n') (ne_of_lt hlt)

/-- **C64** (ValueError exactly). Deterministic mode without Brownian bridge, at least three grid points, a
configuration for which the table says that an object is returned; with reweighting, a transport solver that
always returns a coupling: the constructor raises ValueError exactly if an initial part of the forward flow ends
in a cloud without spread in some coordinate, and otherwise returns an object. -/
theorem C64_value_error_iff (env : Env ρ ℝ) (c : Cfg d N M ℝ) (hN : 0 < N) (hd : 0 < d)
    (hdet : c.deterministic = true) (hbb : (c.reweight && c.brownBridge) = false)
    (hE : c.reweight = true → EmdTotal env ∧ SolverCouples env)
    (grid : List ℝ) (hg : torchGrid c.t1 c.t2 = .ok grid) (h3 : 3 ≤ grid.length)
    (hv : torchVerdict grid.length c = none) (r : ρ) :
    (torchConstruct env c r = .error .valueError ↔ LosesSpread env c grid r) ∧
    ((∃ o r', torchConstruct env c r = .ok (o, r')) ↔ ¬ LosesSpread env c grid r) := by
  have hd2 : 2 ≤ d := by
    by_contra hc
    have : d = 1 := by omega
    unfold torchVerdict at hv
    rw [if_neg (by omega), if_pos hdet, if_neg (by omega)] at hv
    split at hv
    · cases hv
    split at hv
    · cases hv
    split at hv
    · cases hv
    rw [if_pos ⟨h3, .inl this⟩] at hv
    cases hv
  have hdich := C64_torch_verdict env c hN hd (fun h => (hE h).1) grid hg r
  rw [hv] at hdich
  have hno : ∀ o r', torchConstruct env c r = .ok (o, r') → ¬ LosesSpread env c grid r := by
    rintro o r' ho ⟨i, Z, rs, hi1, hil, hz0, hr0, hz, hrec, x, a, hx, ha⟩
    obtain ⟨_, hog, _⟩ := torchConstruct_fields ho
    have hgr : o.timegrid = grid := by rw [hg] at hog; exact (Except.ok.inj hog).symm
    obtain ⟨ys, r1, zt, r2, bs, h1, _, _, hobj⟩ :=
      (torchConstruct_det_iff env c hdet _ hg (by omega) r r' o).1 ho
    have hZ : o.Z = pt N c.y1 :: ys := by rw [hobj]
    obtain rfl := tv_grid_eq hg
    have hspread : ∀ j x, 1 ≤ j → (pt N c.y1 :: ys)[j]? = some x → ∀ a, ∃ n n', x a n < x a n' := fun j x hj hx a =>
      C45_object_has_spread env c hdet r r' o ho (by rw [hgr]; exact h3) j hj x (by rw [hZ]; exact hx) a
    obtain ⟨hl, rs', hr0', _, hs⟩ := chain_ok_iff.1 h1
    have hsame := forward_unique hN hd2 (fun h => (hE h).2) hl hrec hs hspread (by rw [hz0]; rfl)
      (by rw [hr0, hr0']) i hil hz
    obtain ⟨n, n', hlt⟩ := hspread i x hi1 (by rw [← hsame.1]; exact hx) a
    exact absurd (ha n n') (ne_of_lt hlt)
  have hyes : ∀ e, torchConstruct env c r = .error e → LosesSpread env c grid r := fun e h =>
    C64_value_error_means_no_spread env c hN hd (fun h => (hE h).1) hdet hbb grid hg hv r e h
  refine ⟨⟨hyes _, fun h => ?_⟩, ⟨fun ⟨o, r', h⟩ => hno o r' h, fun h => ?_⟩⟩
  · rcases hdich with ⟨o, r', ho⟩ | ho
    · exact absurd h (hno o r' ho)
    · exact ho.2
  · rcases hdich with ho | ho
    · exact ho
    · exact absurd (hyes _ ho.2) h

/-- **C64** (stochastic mode). If construction fails although the table says that it returns, then the
stochastic forward flow has, from index 2 on, a cloud without spread in some coordinate. -/
theorem C64_stochastic_value_error (env : Env ρ ℝ) (c : Cfg d N M ℝ) (hN : 0 < N) (hd : 0 < d)
    (hE : c.reweight = true → EmdTotal env) (hdet : c.deterministic = false)
    (grid : List ℝ) (hg : torchGrid c.t1 c.t2 = .ok grid) (hv : torchVerdict grid.length c = none) (r : ρ)
    (e : PyErr) (h : torchConstruct env c r = .error e) : LosesSpreadStoch env c grid r := by
  have h3 : 3 ≤ grid.length := by
    rcases C64_torch_verdict env c hN hd hE _ hg r with hh | hh
    · rw [hv] at hh
      obtain ⟨_, _, hh⟩ := hh
      rw [hh] at h; cases h
    · exact hh.1
  unfold torchVerdict at hv
  rw [if_neg (by omega), if_neg (by rw [hdet]; simp)] at hv
  split at hv
  · cases hv
  rename_i hd2
  rw [if_neg (by omega)] at hv
  split at hv
  · cases hv
  rename_i hB
  split at hv
  · cases hv
  rename_i hC
  have hU : c.reweight = true → (c.U.bind (·.call1)).isNone = false ∧ EmdTotal env := fun hr =>
    ⟨by
      cases hx : (c.U.bind (·.call1)).isNone with
      | false => rfl
      | true => exact absurd ⟨hr, hx⟩ hB, hE hr⟩
  obtain rfl := tv_grid_eq hg
  rw [torchConstruct_stoch_eq env c hdet _ hg (by omega) (by omega), RandM.bind_app] at h
  obtain ⟨ys, r1, hF⟩ := Total.chain (torchStochSlice_tot env hN c hU) (mkGrid c.t1 c.t2).tail 1
    (stochInit N c.y1) r
  rw [hF] at h
  simp only [RandM.bind_app] at h
  have hlen := chain_length hF
  rw [List.length_tail] at hlen
  rcases hB : chain (torchBack env c) 1 (visits (stochInit N c.y1 :: ys) (mkGrid c.t1 c.t2)) (pt N c.y2) r1
    with e' | ⟨bs, r2⟩
  · obtain ⟨i, x, a, hi2, hil, hx, ha⟩ := tv_backChain_error env c hN (by omega)
      (fun h3 => by by_contra hn; exact hC ⟨h3, hn⟩) (stochInit N c.y1 :: ys)
      (by simp only [List.length_cons]; omega) _ _ hB
    obtain ⟨rs, hr0, _, hrec⟩ := torchStochChain_spec env c hN ys r r1 (by omega) hF
    refine ⟨i, _, rs, by omega, hil, ?_, hr0, fun j hj => ?_, hrec, x, a, hx, ha⟩
    · simp only [List.getElem?_cons_zero, stochInit]
      congr 1
      funext a _
      unfold stochInit
      by_cases h : a.val < 2
      · rw [if_pos (by omega), if_pos h]
      · rw [if_neg (by omega), if_neg h, real_lit_zero]
    · exact ⟨_, List.getElem?_eq_getElem (by simp; omega)⟩
  · rw [hB] at h; cases h

end
/-- All rows of the table are reached by concrete configurations, on a horizon of ten steps. -/
example :
    torchVerdict 11 (exCfg 3 4 5 10 true false false) = none ∧
    torchVerdict 11 ({ exCfg 3 4 5 10 true true false with U := none } : Cfg 3 4 5 ℝ) = some .typeError ∧
    torchVerdict 11 ({ exCfg 3 4 5 10 true true true with fTrue := none } : Cfg 3 4 5 ℝ)
      = some .typeError ∧
    torchVerdict 11 (exCfg 3 4 5 10 true true true) = some .runtimeError ∧
    torchVerdict 11 (exCfg 3 3 3 10 true true true) = none ∧
    torchVerdict 11 (exCfg 1 4 5 10 true false false) = some .nameError ∧
    torchVerdict 11 ({ exCfg 3 4 5 10 true false false with kern := "linear" } : Cfg 3 4 5 ℝ)
      = some .nameError ∧
    torchVerdict 11 (exCfg 1 4 5 10 false false false) = some .indexError ∧
    torchVerdict 11 ({ exCfg 3 4 5 10 false true false with U := some ⟨fun _ _ _ => 0, none⟩ } : Cfg 3 4 5 ℝ)
      = some .typeError ∧
    torchVerdict 11 (exCfg 3 4 5 10 false false false) = none := by
  refine ⟨?_, ?_, ?_, ?_, ?_, ?_, ?_, ?_, ?_, ?_⟩ <;>
    simp [torchVerdict, exCfg, KnownKernel, BridgeShapes]

/-- Both sides of the equivalence occur: the fan example keeps its spread, ... -/
example (r : ℕ) : ¬ LosesSpread exEnv (exFan 2 3 4 10) (mkGrid (exFan 2 3 4 10).t1 (exFan 2 3 4 10).t2) r := by
  have hl : (mkGrid (exFan 2 3 4 10).t1 (exFan 2 3 4 10).t2).length = 11 :=
    exCfg_grid 2 3 4 10 true false false
  obtain ⟨o, r', h, _⟩ := ex_torch 2 3 4 10 (by norm_num) (by norm_num) (by norm_num) r
  exact (C64_value_error_iff exEnv (exFan 2 3 4 10) (by norm_num) (by norm_num) rfl rfl (fun h => by cases h) _
    (exCfg_torchGrid 2 3 4 10 true false false)
    (by rw [exCfg_grid 2 3 4 10 true false false]; norm_num)
    (by rw [exCfg_grid 2 3 4 10 true false false]; simp [torchVerdict, exFan, exCfg, KnownKernel]) r).2.1 ⟨o, r', h⟩

/-- ... a single particle has none. -/
example (r : ℕ) : LosesSpread exEnv (exFan 2 1 4 10) (mkGrid (exFan 2 1 4 10).t1 (exFan 2 1 4 10).t2) r := by
  have hl : (mkGrid (exFan 2 1 4 10).t1 (exFan 2 1 4 10).t2).length = 11 :=
    exCfg_grid 2 1 4 10 true false false
  have h := C64_value_error_iff exEnv (exFan 2 1 4 10) (by norm_num) (by norm_num) rfl rfl (fun h => by cases h) _
    (exCfg_torchGrid 2 1 4 10 true false false)
    (by rw [exCfg_grid 2 1 4 10 true false false]; norm_num)
    (by rw [exCfg_grid 2 1 4 10 true false false]; simp [torchVerdict, exFan, exCfg, KnownKernel]) r
  by_contra hn
  obtain ⟨o, r', ho⟩ := h.2.2 hn
  obtain ⟨e, he⟩ := C45_single_particle exEnv (exFan 2 1 4 10) (by norm_num) (by rw [hl]; norm_num) r
  rw [ho] at he; cases he

/-- With reweighting and a transport solver that returns product plans: the hypotheses are met (any number of particles, a
constraint that depends on position and time), and there are configurations where the table says that an object is
returned and a ValueError is raised. -/
example (r : ℕ) :
    let env : Env ℕ ℝ := ⟨fun r => (r, r + 1), fun r => (1/2, r + 1), fun {_} a b _ => .ok fun i j => a i * b j⟩
    (∀ N, 0 < N → (torchConstruct env (exCfg 2 N 4 10 true true false) r = .error .valueError ↔
      LosesSpread env (exCfg 2 N 4 10 true true false)
        (mkGrid (exCfg 2 N 4 10 true true false).t1 (exCfg 2 N 4 10 true true false).t2) r)) ∧
    torchConstruct env (exCfg 2 1 4 10 true true false) r = .error .valueError := by
  intro env
  have hT : EmdTotal env := fun n a b C => ⟨_, rfl⟩
  have hC : SolverCouples env := by
    intro n a b C T ha hb h
    cases h
    exact product_coupling ha hb
  have key : ∀ N, 0 < N → (torchConstruct env (exCfg 2 N 4 10 true true false) r = .error .valueError ↔
      LosesSpread env (exCfg 2 N 4 10 true true false)
        (mkGrid (exCfg 2 N 4 10 true true false).t1 (exCfg 2 N 4 10 true true false).t2) r) ∧
      ((∃ o r', torchConstruct env (exCfg 2 N 4 10 true true false) r = .ok (o, r')) ↔
        ¬ LosesSpread env (exCfg 2 N 4 10 true true false)
          (mkGrid (exCfg 2 N 4 10 true true false).t1 (exCfg 2 N 4 10 true true false).t2) r) := fun N hN =>
    C64_value_error_iff env _ hN (by norm_num) rfl rfl (fun _ => ⟨hT, hC⟩) _
      (exCfg_torchGrid 2 N 4 10 true true false) (by rw [exCfg_grid]; norm_num)
      (by rw [exCfg_grid]; simp [torchVerdict, exCfg, KnownKernel]) r
  refine ⟨fun N hN => (key N hN).1, (key 1 one_pos).1.2 ?_⟩
  by_contra hn
  obtain ⟨o, r', ho⟩ := (key 1 one_pos).2.2 hn
  obtain ⟨e, he⟩ := C45_single_particle env (exCfg 2 1 4 10 true true false) (by norm_num)
    (by rw [exCfg_grid]; norm_num) r
  rw [ho] at he; cases he

end DPFC
