import Verif.Lib.RecReal2
import Verif.Spec.Solver

/-!
# Lemmas for C104
-/

namespace DPFC.Sol
open Spec

variable {ρ K : Type} {d N M : ℕ}

/-- The second result is the first or an error in `E`. -/
def OrE {α : Type} (E : PyErr → Prop) (a b : Except PyErr α) : Prop := b = a ∨ ∃ e, E e ∧ b = .error e

/-- The same for computations. -/
def OrM {α : Type} (E : PyErr → Prop) (m m' : RandM ρ α) : Prop := ∀ r, OrE E (m r) (m' r)

section
variable {E : PyErr → Prop} {α β : Type}

theorem OrE.refl (a : Except PyErr α) : OrE E a a := .inl rfl
theorem OrM.refl (m : RandM ρ α) : OrM E m m := fun _ => .inl rfl

theorem OrE.bind {a b : Except PyErr α} {f g : α → Except PyErr β} (h : OrE E a b) (hf : ∀ x, OrE E (f x) (g x)) :
    OrE E (a >>= f) (b >>= g) := by
  rcases h with rfl | ⟨e, he, rfl⟩
  · cases b with
    | error e => exact .inl rfl
    | ok x => exact hf x
  · exact .inr ⟨e, he, rfl⟩

theorem OrM.bind {m m' : RandM ρ α} {f g : α → RandM ρ β} (h : OrM E m m') (hf : ∀ x, OrM E (f x) (g x)) :
    OrM E (m >>= f) (m' >>= g) := by
  intro r
  rw [RandM.bind_app, RandM.bind_app]
  rcases h r with h | ⟨e, he, h⟩
  · rw [h]
    cases m r with
    | error e => exact .inl rfl
    | ok x => exact hf x.1 x.2
  · rw [h]; exact .inr ⟨e, he, rfl⟩

theorem OrM.lift {a b : Except PyErr α} (h : OrE E a b) : OrM E (liftM a : RandM ρ α) (liftM b) := by
  rcases h with rfl | ⟨e, he, rfl⟩
  · exact OrM.refl _
  · exact fun r => .inr ⟨e, he, rfl⟩

theorem OrM.loop {σ : Type} {f g : ℕ → K → σ → RandM ρ σ} (h : ∀ i t s, OrM E (f i t s) (g i t s)) :
    ∀ (l : List K) (i : ℕ) (s : σ), OrM E (enumLoop f i l s) (enumLoop g i l s)
  | [], _, _ => OrM.refl _
  | _ :: l, i, s => (h i _ s).bind fun s' => OrM.loop h l (i+1) s'

end

section
variable [Add K] [Sub K] [Mul K] [Div K] [Neg K] [NumOps K]
variable {E : PyErr → Prop} {env : Env ρ K}
  {S : {n : ℕ} → (Fin n → K) → (Fin n → K) → Mat n n K → Except PyErr (Mat n n K)}

/-- The numpy constructor with another solver. -/
theorem construct_or (c : Cfg d N M K)
    (h : c.reweight = true → ∀ (x : Mat d N K) (v : Fin N → K), OrE E (reweightOT env (tr x) (normWeights fun n => NumOps.exp (v n)))
      (reweightOT (withSolver env S) (tr x) (normWeights fun n => NumOps.exp (v n)))) :
    OrM E (construct env c) (construct (withSolver env S) c) := by
  unfold construct
  by_cases hdet : c.deterministic = true
  · simp only [hdet, if_true]
    refine OrM.bind (OrM.loop (fun i t s => ?_) _ _ _) fun Z => OrM.refl _
    unfold ottoBody
    have tail : ∀ Z : Traj d N K, OrM E
        (if (c.reweight && decide (0 < i)) = true then do
          let x ← liftM (pyGet Z i)
          let y ← liftM (ottoReweight env c.U x t)
          (liftM (setSlice Z i y) : RandM ρ (Traj d N K)) else pure Z)
        (if (c.reweight && decide (0 < i)) = true then do
          let x ← liftM (pyGet Z i)
          let y ← liftM (ottoReweight (withSolver env S) c.U x t)
          liftM (setSlice Z i y) else pure Z) := by
      intro Z
      split
      · rename_i hr
        rw [Bool.and_eq_true] at hr
        refine OrM.bind (OrM.refl _) fun x => OrM.bind (OrM.lift ?_) fun _ => OrM.refl _
        unfold ottoReweight
        cases c.U with
        | none => exact OrE.refl _
        | some U => exact OrE.bind (h hr.1 x _) fun _ => OrE.refl _
      · exact OrM.refl _
    simp only []
    by_cases h0 : i = 0
    · simp only [if_pos h0]; exact OrM.bind (OrM.refl _) tail
    · by_cases h1 : i = 1
      · simp only [if_neg h0, if_pos h1]
        exact OrM.bind (OrM.refl _) fun x => OrM.bind (OrM.refl _) fun y => OrM.bind (OrM.refl _) tail
      · simp only [if_neg h0, if_neg h1]
        exact OrM.bind (OrM.refl _) fun x => OrM.bind (OrM.refl _) fun y => OrM.bind (OrM.refl _) tail
  · simp only [hdet, Bool.false_eq_true, if_false]
    refine OrM.bind (OrM.bind (OrM.loop (fun i t s => ?_) _ _ _) fun _ => OrM.refl _) fun Z => OrM.refl _
    unfold stochBody
    split
    · exact OrM.refl _
    · refine OrM.bind (OrM.refl _) fun Z => ?_
      split
      · rename_i hr
        refine OrM.bind (OrM.refl _) fun x => OrM.bind (OrM.lift ?_) fun _ => OrM.refl _
        unfold stochReweight
        cases c.U with
        | none => exact OrE.refl _
        | some U =>
          simp only
          cases U.call1 with
          | none => exact OrE.refl _
          | some u => exact OrE.bind (h hr x _) fun _ => OrE.refl _
      · exact OrM.refl _

/-- The torch constructor with another solver. -/
theorem torchConstruct_or (c : Cfg d N M K)
    (h : c.reweight = true → ∀ (x : Mat d N K) (v : Fin N → K), OrE E (torchReweight env x fun n => NumOps.exp (v n))
      (torchReweight (withSolver env S) x fun n => NumOps.exp (v n))) :
    OrM E (torchConstruct env c) (torchConstruct (withSolver env S) c) := by
  unfold torchConstruct
  refine OrM.bind (OrM.refl _) fun grid => ?_
  by_cases hdet : c.deterministic = true
  · simp only [hdet, if_true]
    refine OrM.bind (OrM.loop (fun i t s => ?_) _ _ _) fun Z => OrM.refl _
    unfold torchOttoBody
    simp only []
    by_cases h0 : i = 0
    on_goal 1 => simp only [if_pos h0]; refine OrM.bind (OrM.refl _) fun Z => ?_
    on_goal 2 =>
      by_cases h1 : i = 1
      on_goal 1 => simp only [if_neg h0, if_pos h1]
      on_goal 2 => simp only [if_neg h0, if_neg h1]
      all_goals refine OrM.bind (OrM.refl _) fun x => OrM.bind (OrM.refl _) fun y => OrM.bind (OrM.refl _) fun Z => ?_
    all_goals
      split
      · rename_i hr
        rw [Bool.and_eq_true] at hr
        cases c.U with
        | none => exact OrM.refl _
        | some U => exact OrM.bind (OrM.refl _) fun x => OrM.bind (OrM.lift (h hr.1 x _)) fun _ => OrM.refl _
      · exact OrM.refl _
  · simp only [hdet, Bool.false_eq_true, if_false]
    refine OrM.bind (OrM.loop (fun i t s => ?_) _ _ _) fun Z => OrM.refl _
    unfold torchStochBody
    split
    · exact OrM.refl _
    · refine OrM.bind (OrM.refl _) fun x => OrM.bind (OrM.refl _) fun y => OrM.bind (OrM.refl _) fun Z => ?_
      split
      · rename_i hr
        cases c.U with
        | none => exact OrM.refl _
        | some U =>
          simp only
          cases U.call1 with
          | none => exact OrM.refl _
          | some u => exact OrM.bind (OrM.refl _) fun x => OrM.bind (OrM.lift (h hr x _)) fun _ => OrM.refl _
      · exact OrM.refl _

theorem reweightOT_or (h : ∀ (n : ℕ) (a b : Fin n → K) (C : Mat n n K), OrE E (env.emd a b C) (S a b C))
    (x : Mat N d K) (w : Fin N → K) : OrE E (reweightOT env x w) (reweightOT (withSolver env S) x w) :=
  OrE.bind (h _ _ _ _) fun _ => OrE.refl _

theorem torchReweight_or (h : ∀ (n : ℕ) (a b : Fin n → K) (C : Mat n n K), OrE E (env.emd a b C) (S a b C))
    (x : Mat d N K) (w : Fin N → K) : OrE E (torchReweight env x w) (torchReweight (withSolver env S) x w) :=
  OrE.bind (OrE.refl _) fun _ => OrE.bind (h _ _ _ _) fun _ => OrE.refl _

end

/-! ### The problems that are asked -/

theorem softmax_onto (hN : 0 < N) (v : Fin N → ℝ) : OntoUniform (softmax v) fun _ => 1 / (N : ℝ) := by
  have hs : 0 < ∑ m, Real.exp (v m) := Finset.sum_pos (fun i _ => Real.exp_pos _) ⟨⟨0, hN⟩, Finset.mem_univ _⟩
  refine ⟨fun i => div_pos (Real.exp_pos _) hs, ?_, rfl⟩
  unfold softmax
  rw [← Finset.sum_div, div_self hs.ne']

theorem pdist_metric (x : Fin d → Fin N → ℝ) : IsMetric (pdist x) := by
  have e : ∀ i j, pdist x i j = dist (WithLp.toLp 2 (particle x i) : EuclideanSpace ℝ (Fin d)) (WithLp.toLp 2 (particle x j)) := by
    intro i j
    rw [EuclideanSpace.dist_eq]
    unfold pdist
    congr 1
    refine Finset.sum_congr rfl fun a _ => ?_
    simp only [particle, Real.dist_eq, sq_abs]
  refine ⟨fun i => ?_, fun i j => ?_, fun i j => ?_, fun i j k => ?_⟩
  · rw [e]; exact dist_self _
  · rw [e, e]; exact dist_comm _ _
  · rw [e]; exact dist_nonneg
  · rw [e, e, e]; exact dist_triangle _ _ _

theorem unit_cost (hN : 0 < N) (x : Fin d → Fin N → ℝ) :
    IsUnitCost fun i j => sqdist x i j / hi fun i => hi fun j => sqdist x i j := by
  have h0 : ∀ i j, 0 ≤ sqdist x i j := fun i j => Finset.sum_nonneg fun _ _ => sq_nonneg _
  have : Nonempty (Fin N) := ⟨⟨0, hN⟩⟩
  have le_hi : ∀ (v : Fin N → ℝ) (i : Fin N), v i ≤ hi v := fun v i => le_ciSup (Set.finite_range v).bddAbove i
  obtain ⟨i0, hi0⟩ : ∃ i, (hi fun j => sqdist x i j) = hi fun i => hi fun j => sqdist x i j := exists_eq_ciSup_of_finite
  obtain ⟨j0, hj0⟩ : ∃ j, sqdist x i0 j = hi fun j => sqdist x i0 j := exists_eq_ciSup_of_finite
  set H := hi fun i => hi fun j => sqdist x i j with hH
  have hle : ∀ i j, sqdist x i j ≤ H := fun i j => (le_hi (fun j => sqdist x i j) j).trans (le_hi (fun i => hi fun j => sqdist x i j) i)
  have hH0 : 0 ≤ H := (h0 i0 j0).trans (hle _ _)
  have hat : sqdist x i0 j0 = H := by rw [hj0, hi0]
  refine ⟨fun i => ?_, fun i j => ?_, fun i j => ⟨div_nonneg (h0 i j) hH0, div_le_one_of_le₀ (hle i j) hH0⟩, ?_⟩
  · have : sqdist x i i = 0 := by unfold sqdist; simp
    simp only [this, zero_div]
  · have : sqdist x i j = sqdist x j i := by
      unfold sqdist
      exact Finset.sum_congr rfl fun a _ => by ring
    simp only [this]
  · by_cases hz : H = 0
    · right; intro i j; simp only [hz, div_zero]
    · left; exact ⟨i0, j0, by simp only [hat]; exact div_self hz⟩

end DPFC.Sol
