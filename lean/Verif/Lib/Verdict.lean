import Verif.Lib.FlowReal
import Verif.Lib.Comp
import Verif.Spec.Verdict

/-! Exceptions that do not depend on the random stream. -/

set_option linter.unusedSectionVars false

namespace DPFC
open Spec

section
variable {ρ : Type}

/-- Raises `e` for every random stream. -/
def Fails {α : Type} (x : RandM ρ α) (e : PyErr) : Prop := ∀ r, x r = .error e

theorem Fails.bind {α β : Type} {x : RandM ρ α} {e : PyErr} (h : Fails x e) (f : α → RandM ρ β) :
    Fails (x >>= f) e := fun r => by rw [RandM.bind_app, h r]

theorem Total.fails {α β : Type} {x : RandM ρ α} {e : PyErr} (h : Total x) {f : α → RandM ρ β}
    (hf : ∀ a, Fails (f a) e) : Fails (x >>= f) e := by
  intro r
  obtain ⟨a, r', h⟩ := h r
  rw [RandM.bind_app, h]
  exact hf a r'

theorem Fails.raise {α : Type} (e : PyErr) : Fails (RandM.raise e : RandM ρ α) e := fun _ => rfl

theorem Fails.liftM {α : Type} (e : PyErr) : Fails (liftM (.error e : Except PyErr α) : RandM ρ α) e :=
  fun _ => rfl

theorem Fails.chain_first {τ S : Type} {step : Nat → τ → S → RandM ρ S} {i : Nat} {t : τ} {ts : List τ}
    {x : S} {e : PyErr} (h : Fails (step i t x) e) : Fails (chain step i (t :: ts) x) e := by
  rw [chain]; exact h.bind _

theorem Fails.chain_second {τ S : Type} {step : Nat → τ → S → RandM ρ S} {i : Nat} {t t' : τ}
    {ts : List τ} {x : S} {e : PyErr} (h1 : Total (step i t x))
    (h : ∀ y, Fails (step (i+1) t' y) e) : Fails (chain step i (t :: t' :: ts) x) e := by
  rw [chain]
  refine h1.fails fun y => ?_
  rw [chain]
  exact ((h y).bind _).bind _

variable {N M d : ℕ}

theorem effKern_unknown {kern : String} (h : ¬ KnownKernel kern) : effKern kern = kern := by
  unfold KnownKernel at h
  unfold effKern
  rw [if_neg fun h' => h (Or.inr h')]

theorem seqM_fails {α : Type} (hd : 0 < d) (F : Fin d → RandM ρ α) {e : PyErr}
    (h : ∀ i, Fails (F i) e) : Fails (seqM d F) e := by
  cases d with
  | zero => omega
  | succ d => rw [seqM]; exact (h 0).bind _

theorem npInducing_tot (env : Env ρ ℝ) (bnds : Fin d → ℝ × ℝ) : Total (npInducing env bnds M) :=
  fun r => ⟨_, _, npInducing_gen env d bnds r⟩

theorem scoreAtParticles_unknown (pl : Bool) (env : Env ρ ℝ) (hN : 0 < N) (hd : 0 < d) {kern : String}
    (h : ¬ KnownKernel kern) (x : Mat d N ℝ) : Fails (scoreAtParticles pl env M kern x) .nameError := by
  unfold scoreAtParticles
  rw [boxOf_real hN]
  simp only [RandM.liftM_ok, pure_bind, plotGuard_real, ite_self]
  refine (npInducing_tot env _).fails fun S => ?_
  unfold KnownKernel at h
  push Not at h
  refine seqM_fails hd _ fun ii => ?_
  unfold scoreSep sepCommon
  rw [if_neg h.1, if_neg h.2]
  exact Fails.liftM _

theorem densityAt_unknown' (env : Env ρ ℝ) (hN : 0 < N) (hd : 0 < d) {kern : String}
    (h : ¬ KnownKernel kern) (z b : Mat d N ℝ) : Fails (densityAt env M kern z b) .nameError := by
  unfold densityAt
  rw [interBox_real hN]
  simp only [RandM.liftM_ok, pure_bind, plotGuard_real, ite_self]
  refine (npInducing_tot env _).fails fun S => ?_
  unfold KnownKernel at h
  push Not at h
  refine seqM_fails hd _ fun ii => ?_
  unfold scoreSepFn sepCommon
  rw [if_neg h.1, if_neg h.2]
  exact Fails.liftM _

theorem noisyStep_tot (env : Env ρ ℝ) (g : ℝ) (f : Drift d N ℝ) (x : Mat d N ℝ) (t : ℝ) :
    Total (noisyStep env g f x t) := fun r => ⟨_, _, noisyStep_real env _ _ _ _ r⟩

theorem ottoReweight_tot (env : Env ρ ℝ) (hE : EmdTotal env) {U : Option (Constraint d N ℝ)}
    (hU : U ≠ none) (x : Mat d N ℝ) (t : ℝ) :
    Total (liftM (ottoReweight env U x t) : RandM ρ (Mat d N ℝ)) := by
  intro r
  cases hu : U with
  | none => exact absurd hu hU
  | some U =>
    obtain ⟨T, hT⟩ := hE N (normWeights fun n => NumOps.exp (U.call2 x t n * dtc))
      (fun _ => lit 1 1 / lit N 1) (fun i j => if i = j then lit 0 1 else
        NumOps.sqrt (NumOps.sum fun k => sq (tr x i k - tr x j k)))
    exact ⟨_, r, liftM_ok_app (a := mm x fun i j => T i j * lit N 1)
      (by simp only [ottoReweight, reweightOT, hT, Except.ok_bind']) r⟩

theorem stochReweight_tot (env : Env ρ ℝ) (hE : EmdTotal env) {U : Option (Constraint d N ℝ)}
    (hU : (U.bind (·.call1)).isNone = false) (x : Mat d N ℝ) :
    Total (liftM (stochReweight env U x) : RandM ρ (Mat d N ℝ)) := by
  intro r
  cases U with
  | none => simp at hU
  | some U =>
    cases hu : U.call1 with
    | none => simp [hu] at hU
    | some u =>
      obtain ⟨T, hT⟩ := hE N (normWeights fun n => NumOps.exp (u x n))
        (fun _ => lit 1 1 / lit N 1) (fun i j => if i = j then lit 0 1 else
          NumOps.sqrt (NumOps.sum fun k => sq (tr x i k - tr x j k)))
      exact ⟨_, r, liftM_ok_app (a := mm x fun i j => T i j * lit N 1)
        (by simp only [stochReweight, hu, reweightOT, hT, Except.ok_bind']) r⟩

theorem ottoSlice_one_tot (env : Env ρ ℝ) (c : Cfg d N M ℝ)
    (hU : c.reweight = true → c.U ≠ none ∧ EmdTotal env) (t : ℝ) (x : Mat d N ℝ) :
    Total (ottoSlice env c 1 t x) := by
  rw [ottoSlice_bind, if_pos rfl]
  refine (noisyStep_tot env _ _ _ _).bind fun raw => ?_
  split
  · rename_i hr
    exact ottoReweight_tot env (hU hr).2 (hU hr).1 _ _
  · exact Total.pure _

theorem ottoSlice_one_fails (env : Env ρ ℝ) (c : Cfg d N M ℝ) (hr : c.reweight = true) (hU : c.U = none)
    (t : ℝ) (x : Mat d N ℝ) : Fails (ottoSlice env c 1 t x) .typeError := by
  rw [ottoSlice_bind, if_pos rfl]
  simp only [if_pos hr, hU]
  exact (noisyStep_tot env _ _ _ _).fails fun raw => Fails.liftM _

theorem ottoSlice_two_fails (env : Env ρ ℝ) (hN : 0 < N) (hd : 0 < d) (c : Cfg d N M ℝ)
    (hk : ¬ KnownKernel c.kern) (t : ℝ) (x : Mat d N ℝ) : Fails (ottoSlice env c 2 t x) .nameError := by
  rw [ottoSlice_bind, if_neg (by norm_num), effKern_unknown hk]
  unfold ottoStep fSeperate
  exact (((scoreAtParticles_unknown _ env hN hd hk x).bind _).bind _).bind _

theorem stochRaw_tot (env : Env ρ ℝ) (c : Cfg d N M ℝ) (hf : c.f.call1.isNone = false) (x : Mat d N ℝ) :
    Total (stochRaw env c x) := by
  have := stochSlice_total env ({ c with reweight := false } : Cfg d N M ℝ) (by
    intro h
    change c.f.call1 = none at h
    simp [h] at hf) rfl 0 0 x
  unfold stochSlice at this
  simp only [Bool.false_eq_true, if_false, bind_pure] at this
  exact this

theorem stochRaw_fails (env : Env ρ ℝ) (hN : 0 < N) (c : Cfg d N M ℝ) (hf : c.f.call1 = none)
    (x : Mat d N ℝ) : Fails (stochRaw env c x) .typeError := by
  unfold stochRaw
  refine Fails.bind (seqM_fails hN _ fun i => ?_) _
  unfold stochCol
  rw [hf]
  exact Fails.raise _

theorem stochReweight_fails (env : Env ρ ℝ) {U : Option (Constraint d N ℝ)}
    (hU : (U.bind (·.call1)).isNone = true) (x : Mat d N ℝ) :
    Fails (liftM (stochReweight env U x) : RandM ρ (Mat d N ℝ)) .typeError := by
  cases U with
  | none => exact Fails.liftM _
  | some U =>
    cases hu : U.call1 with
    | some u => simp [hu] at hU
    | none =>
      simp only [stochReweight, hu]
      exact Fails.liftM _

theorem visits_pair (a b : Mat d N ℝ) (t0 t1 : ℝ) : visits [a, b] [t0, t1] = [] := rfl

/-- A deterministic run on two grid points needs no score. -/
theorem visits_two (Z : Traj d N ℝ) (g : List ℝ) (h : g.length ≤ 2) : visits Z g = [] := by
  unfold visits
  rw [List.reverse_eq_nil_iff, List.drop_eq_nil_iff, List.length_zip]
  omega

theorem visits_three (Z : Traj d N ℝ) (g : List ℝ) (h : 3 ≤ g.length) (h' : 3 ≤ Z.length) :
    ∃ p ps, visits Z g = p :: ps := by
  cases hv : visits Z g with
  | cons p ps => exact ⟨p, ps, rfl⟩
  | nil =>
    unfold visits at hv
    rw [List.reverse_eq_nil_iff, List.drop_eq_nil_iff, List.length_zip] at hv
    omega

end
end DPFC
