import Verif.Lib.Verdict
import Verif.Lib.Examples
import Verif.Lib.Affine

/-!
# C63: which argument combinations the numpy class accepts

`Spec.npVerdict` is the complete table of outcomes of the constructor, as a function of the arguments
alone.
-/

namespace DPFC
open Spec

section
variable {ρ : Type} {N M d : ℕ}

private theorem det_two (env : Env ρ ℝ) (c : Cfg d N M ℝ) (hdet : c.deterministic = true)
    (hk : (mkGrid c.t1 c.t2).length = 2)
    (hU : c.reweight = true → c.U ≠ none ∧ EmdTotal env)
    (hf : c.reweight = true → c.brownBridge = true → c.fTrue ≠ none) : Total (construct env c) := by
  rw [construct_det_eq env c hdet (by omega)]
  generalize mkGrid c.t1 c.t2 = grid at hk ⊢
  obtain ⟨t0, t1, rfl⟩ : ∃ t0 t1, grid = [t0, t1] := List.length_eq_two.1 hk
  refine Total.bind ?_ fun ys => Total.bind ?_ fun zt => Total.bind ?_ fun bs => Total.pure _
  · exact (ottoSlice_one_tot env c hU t1 _).bind fun y => (Total.pure _).bind fun _ => Total.pure _
  · unfold trueFlow
    split
    · rename_i h
      rw [Bool.and_eq_true] at h
      refine Total.bind ?_ fun _ => Total.pure _
      refine Total.bind ?_ fun y => (Total.pure _).bind fun _ => Total.pure _
      unfold trueSlice
      cases hft : c.fTrue with
      | none => exact absurd hft (hf h.1 h.2)
      | some ft => exact noisyStep_tot env _ _ _ _
    · exact Total.pure _
  · rw [visits_two _ _ (by simp)]
    exact Total.pure _

private theorem stoch_total (env : Env ρ ℝ) (c : Cfg d N M ℝ) (hN : 0 < N) (hd : 2 ≤ d)
    (hdet : c.deterministic = false) (hk : 2 ≤ (mkGrid c.t1 c.t2).length)
    (hkern : 3 ≤ (mkGrid c.t1 c.t2).length → KnownKernel c.kern)
    (hf : c.f.call1.isNone = false)
    (hU : c.reweight = true → (c.U.bind (·.call1)).isNone = false ∧ EmdTotal env) :
    Total (construct env c) := by
  rw [construct_stoch_eq env c hdet hk hd]
  refine Total.bind (Total.chain (fun i t x => ?_) _ _ _) fun ys => Total.bind ?_ fun bs => Total.pure _
  · unfold stochSlice
    refine (stochRaw_tot env c hf x).bind fun raw => ?_
    split
    · rename_i hr
      exact stochReweight_tot env (hU hr).2 (hU hr).1 _
    · exact Total.pure _
  · by_cases h3 : 3 ≤ (mkGrid c.t1 c.t2).length
    · exact Total.chain (npBack_total env c hN (effKern_rbf (hkern h3))) _ _ _
    · rw [visits_two _ _ (by omega)]
      exact Total.pure _

/-- **C63**. In exact arithmetic, with at least one particle and dimension, and a transport solver that
returns (only used with `reweight=True`), the outcome of the constructor is given by the table
`npVerdict`: an object is returned exactly if the table says so, and otherwise the listed exception is
raised, for every random stream, horizon and drift. (Exact arithmetic with `x / 0 = 0`; C65 gives the further
exceptions caused by NaN when a cloud loses its spread.) -/
theorem C63_verdict (env : Env ρ ℝ) (c : Cfg d N M ℝ) (hN : 0 < N) (hd : 0 < d)
    (hE : c.reweight = true → EmdTotal env) (r : ρ) :
    match npVerdict (mkGrid c.t1 c.t2).length c with
    | some e => construct env c r = .error e
    | none => ∃ o r', construct env c r = .ok (o, r') := by
  unfold npVerdict
  by_cases h0 : (mkGrid c.t1 c.t2).length = 0
  · rw [if_pos h0]
    change construct env c r = _
    rw [construct_empty env c hd (List.length_eq_zero_iff.1 h0)]; rfl
  rw [if_neg h0]
  cases hdet : c.deterministic with
  | true =>
    rw [if_pos rfl]
    by_cases h1 : (mkGrid c.t1 c.t2).length = 1
    · rw [if_pos h1]
      obtain ⟨t0, ht⟩ := List.length_eq_one_iff.1 h1
      change ∃ o r', construct env c r = _
      rw [construct_det_single env c hdet t0 ht]
      exact ⟨_, _, rfl⟩
    rw [if_neg h1]
    have hk : 2 ≤ (mkGrid c.t1 c.t2).length := by omega
    by_cases hA : c.reweight = true ∧ c.U.isNone
    · rw [if_pos hA]
      change construct env c r = _
      rw [construct_det_eq env c hdet hk]
      obtain ⟨t0, t1, ts, hg⟩ : ∃ t0 t1 ts, mkGrid c.t1 c.t2 = t0 :: t1 :: ts := by
        match hm : mkGrid c.t1 c.t2, hk with
        | a :: b :: l, _ => exact ⟨a, b, l, rfl⟩
      rw [hg]
      refine Fails.bind (Fails.chain_first ?_) _ r
      exact ottoSlice_one_fails env c hA.1 (by simpa using hA.2) _ _
    rw [if_neg hA]
    have hU : c.reweight = true → c.U ≠ none ∧ EmdTotal env := fun hr =>
      ⟨fun h => hA ⟨hr, by simp [h]⟩, hE hr⟩
    by_cases hB : 3 ≤ (mkGrid c.t1 c.t2).length ∧ ¬ KnownKernel c.kern
    · rw [if_pos hB]
      change construct env c r = _
      rw [construct_det_eq env c hdet hk]
      obtain ⟨t0, t1, t2, ts, hg⟩ : ∃ t0 t1 t2 ts, mkGrid c.t1 c.t2 = t0 :: t1 :: t2 :: ts := by
        match hm : mkGrid c.t1 c.t2, hB.1 with
        | a :: b :: e :: l, _ => exact ⟨a, b, e, l, rfl⟩
      rw [hg]
      refine Fails.bind (Fails.chain_second ?_ fun y => ?_) _ r
      · exact ottoSlice_one_tot env c hU _ _
      · exact ottoSlice_two_fails env hN hd c hB.2 _ _
    rw [if_neg hB]
    have hkern : 3 ≤ (mkGrid c.t1 c.t2).length → KnownKernel c.kern := fun h => by
      by_contra hn; exact hB ⟨h, hn⟩
    by_cases hC : c.reweight = true ∧ c.brownBridge = true ∧ c.fTrue.isNone
    · rw [if_pos hC]
      change construct env c r = _
      rw [construct_det_eq env c hdet hk]
      have hfail : Fails (trueFlow env c (mkGrid c.t1 c.t2)) .typeError := by
        unfold trueFlow
        rw [if_pos (by rw [hC.1, hC.2.1]; rfl)]
        obtain ⟨t0, t1, ts, hg⟩ : ∃ t0 t1 ts, mkGrid c.t1 c.t2 = t0 :: t1 :: ts := by
          match hm : mkGrid c.t1 c.t2, hk with
          | a :: b :: l, _ => exact ⟨a, b, l, rfl⟩
        rw [hg]
        refine Fails.bind (Fails.chain_first ?_) _
        unfold trueSlice
        have : c.fTrue = none := by simpa using hC.2.2
        rw [this]
        exact Fails.raise _
      refine Total.fails ?_ (fun ys => hfail.bind _) r
      by_cases h3 : 3 ≤ (mkGrid c.t1 c.t2).length
      · exact Total.chain (ottoSlice_total env c hN (effKern_rbf (hkern h3)) hU) _ _ _
      · obtain ⟨t0, t1, hg⟩ := List.length_eq_two.1 (show (mkGrid c.t1 c.t2).length = 2 by omega)
        rw [hg]
        exact (ottoSlice_one_tot env c hU t1 _).bind fun y => (Total.pure _).bind fun _ => Total.pure _
    rw [if_neg hC]
    have hf : c.reweight = true → c.brownBridge = true → c.fTrue ≠ none := fun h1 h2 h =>
      hC ⟨h1, h2, by simp [h]⟩
    change ∃ o r', construct env c r = _
    by_cases h3 : 3 ≤ (mkGrid c.t1 c.t2).length
    · exact construct_det_total env c hN hdet hk (effKern_rbf (hkern h3)) hU hf r
    · exact det_two env c hdet (by omega) hU hf r
  | false =>
    rw [if_neg (by simp)]
    by_cases hd2 : d < 2
    · rw [if_pos hd2]
      change construct env c r = _
      rw [construct_stoch_dim1 env c hdet (by omega) (by omega)]; rfl
    rw [if_neg hd2]
    by_cases h1 : (mkGrid c.t1 c.t2).length = 1
    · rw [if_pos h1]
      obtain ⟨t0, ht⟩ := List.length_eq_one_iff.1 h1
      change ∃ o r', construct env c r = _
      rw [construct_stoch_single env c hdet (by omega) t0 ht]
      exact ⟨_, _, rfl⟩
    rw [if_neg h1]
    have hk : 2 ≤ (mkGrid c.t1 c.t2).length := by omega
    obtain ⟨t0, t1, ts, hg⟩ : ∃ t0 t1 ts, mkGrid c.t1 c.t2 = t0 :: t1 :: ts := by
      match hm : mkGrid c.t1 c.t2, hk with
      | a :: b :: l, _ => exact ⟨a, b, l, rfl⟩
    by_cases hA : c.f.call1.isNone = true
    · rw [if_pos hA]
      change construct env c r = _
      rw [construct_stoch_eq env c hdet hk (by omega), hg]
      refine Fails.bind (Fails.chain_first ?_) _ r
      unfold stochSlice
      exact (stochRaw_fails env hN c (by simpa using hA) _).bind _
    rw [if_neg hA]
    have hf : c.f.call1.isNone = false := by
      cases hx : c.f.call1.isNone with
      | false => rfl
      | true => exact absurd hx hA
    by_cases hB : c.reweight = true ∧ (c.U.bind (·.call1)).isNone
    · rw [if_pos hB]
      change construct env c r = _
      rw [construct_stoch_eq env c hdet hk (by omega), hg]
      refine Fails.bind (Fails.chain_first ?_) _ r
      unfold stochSlice
      refine (stochRaw_tot env c hf _).fails fun raw => ?_
      rw [if_pos hB.1]
      exact stochReweight_fails env hB.2 raw
    rw [if_neg hB]
    have hU : c.reweight = true → (c.U.bind (·.call1)).isNone = false ∧ EmdTotal env := fun hr =>
      ⟨by
        cases hx : (c.U.bind (·.call1)).isNone with
        | false => rfl
        | true => exact absurd ⟨hr, hx⟩ hB, hE hr⟩
    by_cases hC : 3 ≤ (mkGrid c.t1 c.t2).length ∧ ¬ KnownKernel c.kern
    · rw [if_pos hC]
      change construct env c r = _
      rw [construct_stoch_eq env c hdet hk (by omega)]
      have hT : Total (chain (stochSlice env c) 1 (mkGrid c.t1 c.t2).tail (stochInit N c.y1)) := by
        refine Total.chain (fun i t x => ?_) _ _ _
        unfold stochSlice
        refine (stochRaw_tot env c hf x).bind fun raw => ?_
        split
        · rename_i hr
          exact stochReweight_tot env (hU hr).2 (hU hr).1 _
        · exact Total.pure _
      obtain ⟨ys, r1, hy⟩ := hT r
      rw [RandM.bind_app, hy]
      have hlen := chain_length hy
      obtain ⟨p, ps, hv⟩ := visits_three (stochInit N c.y1 :: (ys.dropLast ++ [pt N c.y2]))
        (mkGrid c.t1 c.t2) hC.1 (by simp only [List.length_cons, List.length_append, List.length_dropLast,
          List.length_nil, List.length_tail] at hlen ⊢; omega)
      simp only [hv]
      refine Fails.bind (Fails.chain_first ?_) _ r1
      unfold npBack backStep
      rw [effKern_unknown hC.2]
      exact (densityAt_unknown' env hN hd hC.2 _ _).bind _
    rw [if_neg hC]
    change ∃ o r', construct env c r = _
    refine stoch_total env c hN (by omega) hdet hk (fun h => ?_) hf hU r
    by_contra hn; exact hC ⟨h, hn⟩

/-- **C63** (corollary). Whether the construction succeeds, and which exception is raised, does not depend
on the random stream. -/
theorem C63_outcome_not_random (env : Env ρ ℝ) (c : Cfg d N M ℝ) (hN : 0 < N) (hd : 0 < d)
    (hE : c.reweight = true → EmdTotal env) (r r' : ρ) (e : PyErr) :
    construct env c r = .error e ↔ construct env c r' = .error e := by
  have h := C63_verdict env c hN hd hE r
  have h' := C63_verdict env c hN hd hE r'
  cases hv : npVerdict (mkGrid c.t1 c.t2).length c with
  | some e' => rw [hv] at h h'; rw [h, h']
  | none =>
    rw [hv] at h h'
    obtain ⟨o, q, h⟩ := h
    obtain ⟨o', q', h'⟩ := h'
    rw [h, h']
    constructor <;> (intro h; cases h)

end

/-- All rows of the table are reached by concrete configurations, on a horizon of ten steps. -/
example :
    npVerdict 11 (exCfg 3 4 5 10 true false false) = none ∧
    npVerdict 11 ({ exCfg 3 4 5 10 true true false with U := none } : Cfg 3 4 5 ℝ) = some .typeError ∧
    npVerdict 11 ({ exCfg 3 4 5 10 true false false with kern := "linear" } : Cfg 3 4 5 ℝ)
      = some .nameError ∧
    npVerdict 11 ({ exCfg 3 4 5 10 true true true with fTrue := none } : Cfg 3 4 5 ℝ)
      = some .typeError ∧
    npVerdict 11 (exCfg 1 4 5 10 false false false) = some .indexError ∧
    npVerdict 11 ({ exCfg 3 4 5 10 false false false with f := ⟨fun _ _ _ _ => 0, none⟩ } : Cfg 3 4 5 ℝ)
      = some .typeError ∧
    npVerdict 11 ({ exCfg 3 4 5 10 false true false with U := some ⟨fun _ _ _ => 0, none⟩ } : Cfg 3 4 5 ℝ)
      = some .typeError ∧
    npVerdict 11 ({ exCfg 3 4 5 10 false false false with kern := "linear" } : Cfg 3 4 5 ℝ)
      = some .nameError ∧
    npVerdict 11 (exCfg 3 4 5 10 false false false) = none := by
  refine ⟨?_, ?_, ?_, ?_, ?_, ?_, ?_, ?_, ?_⟩ <;> simp [npVerdict, exCfg, KnownKernel]

/-- One row, through the theorem. -/
example (r : ℕ) : construct exEnv ({ exCfg 3 4 5 10 true false false with kern := "linear" } : Cfg 3 4 5 ℝ) r
    = .error .nameError := by
  have h := C63_verdict exEnv ({ exCfg 3 4 5 10 true false false with kern := "linear" } : Cfg 3 4 5 ℝ)
    (by norm_num) (by norm_num) (fun h => by cases h) r
  have hl : (mkGrid (exCfg 3 4 5 10 true false false).t1 (exCfg 3 4 5 10 true false false).t2).length = 11 :=
    exCfg_grid 3 4 5 10 true false false
  change match npVerdict (mkGrid (exCfg 3 4 5 10 true false false).t1
    (exCfg 3 4 5 10 true false false).t2).length _ with | some e => _ | none => _ at h
  rw [hl] at h
  have hv : npVerdict 11 ({ exCfg 3 4 5 10 true false false with kern := "linear" } : Cfg 3 4 5 ℝ)
    = some .nameError := by simp [npVerdict, exCfg, KnownKernel]
  rw [hv] at h
  exact h

end DPFC
