import Verif.Lib.Verdict
import Verif.Lib.TorchReal
import Verif.Lib.RecReal2
import Verif.Lib.TorchFail

/-! Which exceptions the torch class can raise. -/

set_option linter.unusedSectionVars false

namespace DPFC
open Spec

section
variable {ρ : Type}

/-- Returns or raises `v`, for every random stream. -/
def TotalOr {α : Type} (v : PyErr) (x : RandM ρ α) : Prop :=
  ∀ r, (∃ a r', x r = .ok (a, r')) ∨ x r = .error v

/-- Raises `e` or `v`, for every random stream. -/
def FailsOr {α : Type} (e v : PyErr) (x : RandM ρ α) : Prop := ∀ r, x r = .error e ∨ x r = .error v

variable {α β : Type} {e v : PyErr}

theorem Total.or {x : RandM ρ α} (h : Total x) : TotalOr v x := fun r => .inl (h r)

theorem Fails.or {x : RandM ρ α} (h : Fails x e) : FailsOr e v x := fun r => .inl (h r)

theorem TotalOr.bind' {x : RandM ρ α} (h : TotalOr v x) {f : α → RandM ρ β}
    (hf : ∀ a r r', x r = .ok (a, r') → TotalOr v (f a)) : TotalOr v (x >>= f) := by
  intro r
  rw [RandM.bind_app]
  rcases h r with ⟨a, r', h⟩ | h
  · rw [h]; exact hf a r r' h r'
  · rw [h]; exact .inr rfl

theorem TotalOr.bind {x : RandM ρ α} (h : TotalOr v x) {f : α → RandM ρ β}
    (hf : ∀ a, TotalOr v (f a)) : TotalOr v (x >>= f) := h.bind' fun a _ _ _ => hf a

theorem TotalOr.fails' {x : RandM ρ α} (h : TotalOr v x) {f : α → RandM ρ β}
    (hf : ∀ a r r', x r = .ok (a, r') → FailsOr e v (f a)) : FailsOr e v (x >>= f) := by
  intro r
  rw [RandM.bind_app]
  rcases h r with ⟨a, r', h⟩ | h
  · rw [h]; exact hf a r r' h r'
  · rw [h]; exact .inr rfl

theorem TotalOr.fails {x : RandM ρ α} (h : TotalOr v x) {f : α → RandM ρ β}
    (hf : ∀ a, FailsOr e v (f a)) : FailsOr e v (x >>= f) := h.fails' fun a _ _ _ => hf a

theorem FailsOr.bind {x : RandM ρ α} (h : FailsOr e v x) (f : α → RandM ρ β) :
    FailsOr e v (x >>= f) := by
  intro r
  rw [RandM.bind_app]
  rcases h r with h | h
  · rw [h]; exact .inl rfl
  · rw [h]; exact .inr rfl

theorem TotalOr.chain {τ S : Type} {step : Nat → τ → S → RandM ρ S}
    (h : ∀ i t x, TotalOr v (step i t x)) :
    ∀ (ts : List τ) (i : Nat) (x : S), TotalOr v (chain step i ts x)
  | [], _, _ => (Total.pure _).or
  | t :: ts, i, x => by
    rw [DPFC.chain]
    exact (h i t x).bind fun y => (TotalOr.chain h ts (i+1) y).bind fun ys => (Total.pure _).or

theorem FailsOr.chain_first {τ S : Type} {step : Nat → τ → S → RandM ρ S} {i : Nat} {t : τ} {ts : List τ}
    {x : S} (h : FailsOr e v (step i t x)) : FailsOr e v (DPFC.chain step i (t :: ts) x) := by
  rw [DPFC.chain]; exact h.bind _

theorem FailsOr.chain_second {τ S : Type} {step : Nat → τ → S → RandM ρ S} {i : Nat} {t t' : τ}
    {ts : List τ} {x : S} (h1 : TotalOr v (step i t x))
    (h : ∀ y, FailsOr e v (step (i+1) t' y)) : FailsOr e v (DPFC.chain step i (t :: t' :: ts) x) := by
  rw [DPFC.chain]
  refine h1.fails fun y => ?_
  rw [DPFC.chain]
  exact ((h y).bind _).bind _

/-- Where a chain fails: an initial part is computed, the next step raises. -/
theorem chain_error {τ S : Type} {step : Nat → τ → S → RandM ρ S} :
    ∀ (ts : List τ) (i : Nat) (x : S) (r : ρ), chain step i ts x r = .error e →
      ∃ (pre : List τ) (t : τ) (post : List τ) (ys : List S) (r' : ρ) (y : S), ts = pre ++ t :: post ∧
        chain step i pre x r = .ok (ys, r') ∧ (x :: ys)[pre.length]? = some y ∧
        step (i + pre.length) t y r' = .error e
  | [], i, x, r, h => by rw [chain] at h; cases h
  | t :: ts, i, x, r, h => by
    rw [chain, RandM.bind_app] at h
    rcases h1 : step i t x r with e' | ⟨y, r1⟩
    · rw [h1] at h
      refine ⟨[], t, ts, [], r, x, rfl, rfl, rfl, ?_⟩
      rw [List.length_nil, Nat.add_zero, h1]
      simp only [Except.error.injEq] at h ⊢
      exact h
    · rw [h1] at h
      simp only [RandM.bind_app] at h
      rcases h2 : chain step (i+1) ts y r1 with e' | ⟨ys, r2⟩
      · rw [h2] at h
        simp only [Except.error.injEq] at h
        rw [h] at h2
        obtain ⟨pre, t', post, ys, r', y', rfl, h3, h4, h5⟩ := chain_error ts (i+1) y r1 h2
        refine ⟨t :: pre, t', post, y :: ys, r', y', rfl, ?_, ?_, ?_⟩
        · rw [chain, RandM.bind_app, h1]
          simp only [RandM.bind_app, h3]
          rfl
        · rw [List.length_cons, List.getElem?_cons_succ]; exact h4
        · rw [List.length_cons, show i + (pre.length + 1) = i + 1 + pre.length by omega]; exact h5
      · rw [h2] at h; cases h

end

section
variable {ρ : Type} {N M d : ℕ}

theorem torchInducing_to (env : Env ρ ℝ) (bnds : Fin d → ℝ × ℝ) :
    TotalOr .valueError (torchInducing env bnds M) := by
  intro r
  by_cases h : ∀ a, (bnds a).1 < (bnds a).2
  · exact .inl ⟨_, _, torchInducing_real env bnds r h⟩
  · push Not at h
    obtain ⟨a, h⟩ := h
    exact .inr (torchInducing_err env bnds r a (not_lt.2 h))

theorem tensor_classify (hd : 0 < d) (l : Fin d → ℝ) : ∃ ls, (TLS.tensor l).classify = .ok ls := by
  rcases Nat.lt_or_ge 1 d with h | h
  · exact ⟨_, classify_tensor h l⟩
  · refine ⟨.scalar (l ⟨0, hd⟩), ?_⟩
    simp only [TLS.classify]; rw [if_neg (by omega), dif_pos (by omega)]

theorem torchFSeperate_to (env : Env ρ ℝ) (hN : 0 < N) (hd : 0 < d) (g : ℝ) (f : Drift d N ℝ)
    (x : Mat d N ℝ) (t : ℝ) : TotalOr .valueError (torchFSeperate env M g f x t) := by
  unfold torchFSeperate
  rw [torchBox_real hN]
  simp only [RandM.liftM_ok, pure_bind]
  refine (torchInducing_to env _).bind fun S => ?_
  obtain ⟨ls, hls⟩ := tensor_classify hd (torchLengthScales x)
  rw [torchScore_real _ _ _ _ hls]
  exact (Total.pure _).or

theorem torchOttoStep_to (env : Env ρ ℝ) (hN : 0 < N) (hd : 0 < d) (g : ℝ) (f : Drift d N ℝ)
    (x : Mat d N ℝ) (t : ℝ) : TotalOr .valueError (torchOttoStep env M g f x t) :=
  (torchFSeperate_to env hN hd g f x t).bind fun _ => (Total.pure _).or

theorem torchReweight_tot (env : Env ρ ℝ) (hN : 0 < N) (hE : EmdTotal env) (x : Mat d N ℝ)
    (w : Fin N → ℝ) : ∃ y, torchReweight env x w = .ok y := by
  unfold torchReweight
  cases N with
  | zero => omega
  | succ n =>
    simp only [torchMatMax, Except.ok_bind']
    obtain ⟨T, hT⟩ := hE (n+1) (normWeights w) (fun _ => lit 1 1 / lit (n+1 : ℕ) 1)
      (fun i j => (NumOps.sum fun k => sq (x k i - x k j)) /
        NumOps.amax fun i => NumOps.amax fun j => NumOps.sum fun k => sq (x k i - x k j))
    exact ⟨_, by rw [hT]; rfl⟩

theorem torchOttoRw_tot (env : Env ρ ℝ) (hN : 0 < N) (hE : EmdTotal env) {U : Option (Constraint d N ℝ)}
    (hU : U.isNone = false) (x : Mat d N ℝ) (t : ℝ) :
    Total (liftM (torchOttoRw env U x t) : RandM ρ (Mat d N ℝ)) := by
  cases U with
  | none => simp at hU
  | some U =>
    obtain ⟨y, hy⟩ := torchReweight_tot env hN hE x fun n => NumOps.exp (U.call2 x t n * dtc)
    exact fun r => ⟨y, r, liftM_ok_app hy r⟩

theorem torchStochRw_tot (env : Env ρ ℝ) (hN : 0 < N) (hE : EmdTotal env)
    {U : Option (Constraint d N ℝ)} (hU : (U.bind (·.call1)).isNone = false) (x : Mat d N ℝ) :
    Total (liftM (torchStochRw env U x) : RandM ρ (Mat d N ℝ)) := by
  cases U with
  | none => simp at hU
  | some U =>
    cases hu : U.call1 with
    | none => simp [hu] at hU
    | some u =>
      obtain ⟨y, hy⟩ := torchReweight_tot env hN hE x fun n => NumOps.exp (u x n)
      exact fun r => ⟨y, r, liftM_ok_app (by simp only [torchStochRw, hu]; exact hy) r⟩

theorem torchStochRw_fails (env : Env ρ ℝ)
    {U : Option (Constraint d N ℝ)} (hU : (U.bind (·.call1)).isNone = true) (x : Mat d N ℝ) :
    Fails (liftM (torchStochRw env U x) : RandM ρ (Mat d N ℝ)) .typeError := by
  cases U with
  | none => exact Fails.liftM _
  | some U =>
    cases hu : U.call1 with
    | some u => simp [hu] at hU
    | none =>
      simp only [torchStochRw, hu]
      exact Fails.liftM _

theorem torchOttoSlice_one_tot (env : Env ρ ℝ) (hN : 0 < N) (c : Cfg d N M ℝ)
    (hU : c.reweight = true → c.U.isNone = false ∧ EmdTotal env) (t : ℝ) (x : Mat d N ℝ) :
    Total (torchOttoSlice env c 1 t x) := by
  rw [torchOttoSlice_bind, if_pos rfl]
  refine (noisyStep_tot env _ _ _ _).bind fun raw => ?_
  split
  · rename_i hr
    exact torchOttoRw_tot env hN (hU hr).2 (hU hr).1 _ _
  · exact Total.pure _

theorem torchOttoSlice_to (env : Env ρ ℝ) (hN : 0 < N) (hd : 0 < d) (c : Cfg d N M ℝ)
    (hU : c.reweight = true → c.U.isNone = false ∧ EmdTotal env) (i : ℕ) (t : ℝ) (x : Mat d N ℝ) :
    TotalOr .valueError (torchOttoSlice env c i t x) := by
  rw [torchOttoSlice_bind]
  refine TotalOr.bind ?_ fun raw => ?_
  · split
    · exact (noisyStep_tot env _ _ _ _).or
    · exact torchOttoStep_to env hN hd _ _ _ _
  · split
    · rename_i hr
      exact (torchOttoRw_tot env hN (hU hr).2 (hU hr).1 _ _).or
    · exact (Total.pure _).or

theorem torchOttoSlice_fails (env : Env ρ ℝ) (c : Cfg d N M ℝ) (hr : c.reweight = true)
    (hU : c.U.isNone = true) (t : ℝ) (x : Mat d N ℝ) : Fails (torchOttoSlice env c 1 t x) .typeError := by
  rw [torchOttoSlice_bind, if_pos rfl]
  cases hu : c.U with
  | some U => rw [hu] at hU; simp at hU
  | none =>
    simp only [if_pos hr]
    exact (noisyStep_tot env _ _ _ _).fails fun raw => Fails.liftM _

theorem torchTrueScore_tot (hd : 0 < d) (hs : BridgeShapes d N M) (x : Mat d N ℝ) (S : Mat M d ℝ) :
    ∃ y, torchTrueScore x S = .ok y := by
  unfold torchTrueScore
  obtain ⟨ls, hls⟩ := tensor_classify hd (torchLengthScales x)
  unfold BridgeShapes at hs
  by_cases hM : M = d
  · have hN : N = d := by omega
    rw [dif_pos hM, torchScore_real _ _ _ _ hls, Except.ok_bind', dif_pos hN]
    exact ⟨_, rfl⟩
  · rw [dif_neg hM, dif_pos (show M = 1 by omega), torchScore_real _ _ _ _ hls, Except.ok_bind']
    by_cases hN : N = d
    · rw [dif_pos hN]; exact ⟨_, rfl⟩
    · rw [dif_neg hN, dif_pos (show N = 1 by omega)]; exact ⟨_, rfl⟩

theorem torchTrueScore_err (hd : 0 < d) (hs : ¬ BridgeShapes d N M) (x : Mat d N ℝ) (S : Mat M d ℝ) :
    torchTrueScore x S = .error .runtimeError := by
  unfold torchTrueScore
  obtain ⟨ls, hls⟩ := tensor_classify hd (torchLengthScales x)
  unfold BridgeShapes at hs
  by_cases hM : M = d
  · have hN : N ≠ d := by omega
    rw [dif_pos hM, torchScore_real _ _ _ _ hls, Except.ok_bind', dif_neg hN]
  · rw [dif_neg hM]
    by_cases hM1 : M = 1
    · rw [dif_pos hM1, torchScore_real _ _ _ _ hls, Except.ok_bind', dif_neg (by omega), dif_neg (by omega)]
    · rw [dif_neg hM1]

theorem torchTrueStep_to (env : Env ρ ℝ) (hN : 0 < N) (hd : 0 < d) (hs : BridgeShapes d N M) (g : ℝ)
    (f : Drift d N ℝ) (x : Mat d N ℝ) (t : ℝ) : TotalOr .valueError (torchTrueStep env M g f x t) := by
  unfold torchTrueStep torchFSeperateTrue
  rw [torchBox_real hN]
  simp only [RandM.liftM_ok, pure_bind]
  refine TotalOr.bind ((torchInducing_to env _).bind fun S => ?_) fun _ => (Total.pure _).or
  obtain ⟨y, hy⟩ := torchTrueScore_tot hd hs x S
  rw [hy]
  exact (Total.pure _).or

theorem torchTrueStep_fo (env : Env ρ ℝ) (hN : 0 < N) (hd : 0 < d) (hs : ¬ BridgeShapes d N M) (g : ℝ)
    (f : Drift d N ℝ) (x : Mat d N ℝ) (t : ℝ) :
    FailsOr .runtimeError .valueError (torchTrueStep env M g f x t) := by
  unfold torchTrueStep torchFSeperateTrue
  rw [torchBox_real hN]
  simp only [RandM.liftM_ok, pure_bind]
  refine FailsOr.bind ((torchInducing_to env _).fails fun S => ?_) _
  rw [torchTrueScore_err hd hs x S]
  exact ((Fails.liftM _).bind _).or

theorem torchDensityAt_to (env : Env ρ ℝ) (hN : 0 < N) (hd : 2 ≤ d) (z b : Mat d N ℝ) :
    TotalOr .valueError (torchDensityAt env M "RBF" z b) := by
  unfold torchDensityAt
  rw [densityBox_real hN]
  simp only [RandM.liftM_ok, pure_bind]
  refine (torchInducing_to env _).bind fun S => ?_
  rw [torchScoreFn_real _ _ _ _ (classify_tensor hd _) (by intro w h; cases h)]
  exact (Total.pure _).or

theorem torchDensityAt_fo (env : Env ρ ℝ) (hN : 0 < N) (hd : 0 < d) (kern : String)
    (hk : d = 1 ∨ kern ≠ "RBF") (z b : Mat d N ℝ) :
    FailsOr .nameError .valueError (torchDensityAt env M kern z b) := by
  unfold torchDensityAt
  rw [densityBox_real hN]
  simp only [RandM.liftM_ok, pure_bind]
  refine (torchInducing_to env _).fails fun S => ?_
  have : torchScoreFn (tr z) S (.tensor (torchLengthScales z)) (lit 1 1000) kern (.tensor (tr b))
      = .error .nameError := by
    obtain ⟨ls, hls⟩ := tensor_classify hd (torchLengthScales z)
    simp only [torchScoreFn, torchCommon_real _ _ _ ls hls, Except.ok_bind']
    have : torchKsz S (.tensor (torchLengthScales z)) ls kern (.tensor (tr b)) = .error .nameError := by
      unfold torchKsz
      split
      · rename_i hr
        have h1 : d = 1 := by
          rcases hk with h | h
          · exact h
          · exact absurd hr h
        simp only [TLS.classify] at hls
        rw [if_neg (by omega), dif_pos h1] at hls
        cases hls
        rfl
      · rfl
    rw [this]; rfl
  rw [this]
  exact ((Fails.liftM _).bind _).or

theorem torchBwDensityAt_to (env : Env ρ ℝ) (hN : 0 < N) (hd : 2 ≤ d) (kern : String) (z b : Mat d N ℝ) :
    TotalOr .valueError (torchBwDensityAt env M kern z b) := by
  unfold torchBwDensityAt
  rw [hullBox_real hN]
  simp only [RandM.liftM_ok, pure_bind]
  refine (torchInducing_to env _).bind fun S => ?_
  rw [torchScore_real _ _ _ _ (classify_tensor hd _)]
  exact (Total.pure _).or

theorem normalMat_tot (env : Env ρ ℝ) (s : ℝ) : Total (normalMat env s d N : RandM ρ (Mat d N ℝ)) := by
  intro r
  exact ⟨_, _, rfl⟩

theorem torchBack_to (env : Env ρ ℝ) (hN : 0 < N) (hd : 2 ≤ d) (c : Cfg d N M ℝ)
    (hk : KnownKernel c.kern) (i : ℕ) (zt : Mat d N ℝ × ℝ) (b : Mat d N ℝ) :
    TotalOr .valueError (torchBack env c i zt b) := by
  have he : effKern c.kern = "RBF" := effKern_rbf hk
  simp only [torchBack, backStep, he]
  refine (torchDensityAt_to env hN hd _ _).bind fun gro => ?_
  split
  · exact ((normalMat_tot env _).bind fun _ => Total.pure _).or
  · exact (torchBwDensityAt_to env hN hd _ _ _).bind fun _ => (Total.pure _).or

theorem torchBack_fo (env : Env ρ ℝ) (hN : 0 < N) (hd : 0 < d) (c : Cfg d N M ℝ)
    (hk : d = 1 ∨ ¬ KnownKernel c.kern) (i : ℕ) (zt : Mat d N ℝ × ℝ) (b : Mat d N ℝ) :
    FailsOr .nameError .valueError (torchBack env c i zt b) := by
  simp only [torchBack, backStep]
  refine FailsOr.bind (torchDensityAt_fo env hN hd _ ?_ _ _) _
  rcases hk with h | h
  · exact .inl h
  · refine .inr ?_
    rw [effKern_unknown h]
    exact fun h' => h (.inl h')

theorem torchStochSlice_tot (env : Env ρ ℝ) (hN : 0 < N) (c : Cfg d N M ℝ)
    (hU : c.reweight = true → (c.U.bind (·.call1)).isNone = false ∧ EmdTotal env) (i : ℕ) (t : ℝ)
    (x : Mat d N ℝ) : Total (torchStochSlice env c i t x) := by
  unfold torchStochSlice
  refine (noisyStep_tot env _ _ _ _).bind fun raw => ?_
  split
  · rename_i hr
    exact torchStochRw_tot env hN (hU hr).2 (hU hr).1 _
  · exact Total.pure _

theorem torchStochSlice_fails (env : Env ρ ℝ) (c : Cfg d N M ℝ) (hr : c.reweight = true)
    (hU : (c.U.bind (·.call1)).isNone = true) (i : ℕ) (t : ℝ)
    (x : Mat d N ℝ) : Fails (torchStochSlice env c i t x) .typeError := by
  unfold torchStochSlice
  simp only [if_pos hr]
  exact (noisyStep_tot env _ _ _ _).fails fun raw => torchStochRw_fails env hU _

end
end DPFC
