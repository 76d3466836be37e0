import Verif.Inst.XR
import Verif.Spec.Embeds

/-!
# Exact arithmetic with special values contains exact arithmetic

`XR.ops XR.realInv` computes with finite values as the reals do, with the true matrix inverse; every problem over
the reals has a counterpart in it.
-/

namespace DPFC
open Spec

namespace XR

open Classical in
/-- `linalg.inv` (score_function_estimators.py:254, 273): the true inverse (or LinAlgError) for a matrix of numbers,
NaN everywhere for a matrix with special values. -/
noncomputable def realInv {m : ℕ} (A : Mat m m XR) : Except PyErr (Mat m m XR) :=
  if h : ∃ B : Mat m m ℝ, A = fun i j => fin (B i j) then
    (NumOps.inv h.choose).map fun B i j => fin (B i j)
  else .ok fun _ _ => nan

/-- the operations used below -/
@[reducible] noncomputable def xops : NumOps XR := ops realInv

theorem fold_min {n : ℕ} (v : Fin n → ℝ) (a : ℝ) :
    Fin.foldl n (fun acc i => min2 acc (fin (v i))) (fin a) = fin (Fin.foldl n (fun acc i => min acc (v i)) a) := by
  induction n generalizing a with
  | zero => rfl
  | succ n ih =>
    rw [Fin.foldl_succ, Fin.foldl_succ, ← ih (fun i => v i.succ)]
    congr 1
    simp only [min2]
    by_cases h : v 0 < a
    · rw [if_pos (show lt (fin (v 0)) (fin a) from h), min_eq_right h.le]
    · rw [if_neg (show ¬ lt (fin (v 0)) (fin a) from h), min_eq_left (not_lt.1 h)]

theorem fold_max {n : ℕ} (v : Fin n → ℝ) (a : ℝ) :
    Fin.foldl n (fun acc i => max2 acc (fin (v i))) (fin a) = fin (Fin.foldl n (fun acc i => max acc (v i)) a) := by
  induction n generalizing a with
  | zero => rfl
  | succ n ih =>
    rw [Fin.foldl_succ, Fin.foldl_succ, ← ih (fun i => v i.succ)]
    congr 1
    simp only [max2]
    by_cases h : a < v 0
    · rw [if_pos (show lt (fin a) (fin (v 0)) from h), max_eq_right h.le]
    · rw [if_neg (show ¬ lt (fin a) (fin (v 0)) from h), max_eq_left (not_lt.1 h)]

theorem foldl_min_le {n : ℕ} (v : Fin n → ℝ) (a : ℝ) :
    (∀ b, b ≤ Fin.foldl n (fun acc i => min acc (v i)) a ↔ b ≤ a ∧ ∀ i, b ≤ v i) := by
  induction n generalizing a with
  | zero => intro b; simp
  | succ n ih =>
    intro b
    rw [Fin.foldl_succ, ih (fun i => v i.succ), le_min_iff]
    constructor
    · rintro ⟨⟨h1, h2⟩, h3⟩
      exact ⟨h1, fun i => Fin.cases h2 h3 i⟩
    · rintro ⟨h1, h2⟩
      exact ⟨⟨h1, h2 0⟩, fun i => h2 i.succ⟩

theorem foldl_max_le {n : ℕ} (v : Fin n → ℝ) (a : ℝ) :
    (∀ b, Fin.foldl n (fun acc i => max acc (v i)) a ≤ b ↔ a ≤ b ∧ ∀ i, v i ≤ b) := by
  induction n generalizing a with
  | zero => intro b; simp
  | succ n ih =>
    intro b
    rw [Fin.foldl_succ, ih (fun i => v i.succ), max_le_iff]
    constructor
    · rintro ⟨⟨h1, h2⟩, h3⟩
      exact ⟨h1, fun i => Fin.cases h2 h3 i⟩
    · rintro ⟨h1, h2⟩
      exact ⟨⟨h1, h2 0⟩, fun i => h2 i.succ⟩

theorem realInv_fin {m : ℕ} (A : Mat m m ℝ) :
    realInv (fun i j => fin (A i j)) = (NumOps.inv A).map fun B i j => fin (B i j) := by
  have h : ∃ B : Mat m m ℝ, (fun i j => fin (A i j)) = fun i j => fin (B i j) := ⟨A, rfl⟩
  unfold realInv
  rw [dif_pos h]
  have : h.choose = A := by
    funext i j
    have := congrFun (congrFun h.choose_spec i) j
    exact (fin.inj this).symm
  rw [this]

/-- The finite values of `XR` are exact arithmetic. -/
theorem embeds : @Embeds XR _ _ _ _ _ xops fin := by
  classical
  letI := xops
  constructor
  · intro p q; rfl
  · intro a b; rfl
  · intro a b; change fin (a + -b) = _; rw [sub_eq_add_neg]
  · intro a b; rfl
  · intro a; rfl
  · intro a b hb; change (if b = 0 then _ else _) = _; rw [if_neg hb]
  · intro a; rfl
  · intro a ha; change (if a < 0 then _ else _) = _; rw [if_neg (not_lt.2 ha)]
  · intro a; rfl
  · intro a; rfl
  · intro a; rfl
  · intro a b; exact @decide_eq_true_iff (lt (fin a) (fin b)) (Classical.propDecidable _)
  · intro a b; exact @decide_eq_true_iff (le (fin a) (fin b)) (Classical.propDecidable _)
  · intro a b; exact decide_eq_true_iff
  · intro a; rfl
  · intro a; rfl
  · intro n v
    change Fin.foldl n (fun acc i => acc + fin (v i)) (fin 0) = _
    rw [sum_fin, zero_add]
  · intro n v
    change Fin.foldl n (fun acc i => min2 acc (fin (v i.succ))) (fin (v 0)) = _
    rw [fold_min (fun i => v i.succ)]
    congr 1
    refine eq_of_forall_le_iff fun b => ?_
    rw [foldl_min_le, Finset.le_inf'_iff]
    exact ⟨fun h i _ => Fin.cases h.1 h.2 i, fun h => ⟨h 0 (Finset.mem_univ _), fun i => h _ (Finset.mem_univ _)⟩⟩
  · intro n v
    change Fin.foldl n (fun acc i => max2 acc (fin (v i.succ))) (fin (v 0)) = _
    rw [fold_max (fun i => v i.succ)]
    congr 1
    refine eq_of_forall_ge_iff fun b => ?_
    rw [foldl_max_le, Finset.sup'_le_iff]
    exact ⟨fun h i _ => Fin.cases h.1 h.2 i, fun h => ⟨h 0 (Finset.mem_univ _), fun i => h _ (Finset.mem_univ _)⟩⟩
  · intro m A; exact realInv_fin A

theorem invOfNan : @InvOfNan XR _ _ _ _ _ xops (ieee realInv) := by
  letI := xops
  intro m A hA
  change ∃ B, realInv A = .ok B
  rcases Nat.eq_zero_or_pos m with rfl | hm
  · have : A = fun i j => fin ((fun _ _ => 0 : Mat 0 0 ℝ) i j) := by funext i; exact i.elim0
    rw [this, realInv_fin, real_inv_ok (by simp)]
    exact ⟨_, rfl⟩
  · have : ¬ ∃ B : Mat m m ℝ, A = fun i j => fin (B i j) := by
      rintro ⟨B, rfl⟩
      have := hA ⟨0, hm⟩ ⟨0, hm⟩
      cases this
    unfold realInv
    rw [dif_neg this]
    exact ⟨_, rfl⟩

theorem finite_fin (x : ℝ) : @Ieee.fin XR _ _ _ _ _ xops (ieee realInv) (fin x) := ⟨x, rfl⟩

/-- the number, 0 for special values -/
def val : XR → ℝ
  | fin a => a
  | _ => 0

section
variable {ρ : Type} {d N M : ℕ}

/-- a drift that ignores special values -/
def liftDrift (f : Drift d N ℝ) : Drift d N XR where
  call2 x t := fun a j => fin (f.call2 (fun a j => (x a j).val) t.val a j)
  call1 := f.call1.map fun u x => fun a => fin (u (fun a => (x a).val) a)

def liftConstraint (U : Constraint d N ℝ) : Constraint d N XR where
  call2 x t := fun n => fin (U.call2 (fun a j => (x a j).val) t.val n)
  call1 := U.call1.map fun u x => fun n => fin (u (fun a j => (x a j).val) n)

/-- the same problem over `XR` -/
def liftCfg (c : Cfg d N M ℝ) : Cfg d N M XR where
  t1 := fin c.t1
  t2 := fin c.t2
  y1 := fun a => fin (c.y1 a)
  y2 := fun a => fin (c.y2 a)
  f := liftDrift c.f
  g := fin c.g
  reweight := c.reweight
  U := c.U.map liftConstraint
  densEst := c.densEst
  reject := c.reject
  kern := c.kern
  fTrue := c.fTrue.map liftDrift
  brownBridge := c.brownBridge
  deterministic := c.deterministic

/-- the same generators and solver over `XR` -/
def liftEnv (env : Env ρ ℝ) : Env ρ XR where
  normal r := (fin (env.normal r).1, (env.normal r).2)
  uniform r := (fin (env.uniform r).1, (env.uniform r).2)
  emd a b C := (env.emd (fun i => (a i).val) (fun i => (b i).val) (fun i j => (C i j).val)).map
    fun T i j => fin (T i j)

theorem sameEnv (env : Env ρ ℝ) : SameEnv fin env (liftEnv env) :=
  ⟨fun _ => rfl, fun _ => rfl, fun _ _ _ => rfl⟩

theorem sameDrift (f : Drift d N ℝ) : SameDrift fin f (liftDrift f) := by
  refine ⟨fun _ _ => rfl, by simp [liftDrift], fun u u' h h' x => ?_⟩
  simp only [liftDrift, h, Option.map_some, Option.some.injEq] at h'
  subst h'
  rfl

theorem sameConstraint (U : Constraint d N ℝ) : SameConstraint fin U (liftConstraint U) := by
  refine ⟨fun _ _ => rfl, by simp [liftConstraint], fun u u' h h' x => ?_⟩
  simp only [liftConstraint, h, Option.map_some, Option.some.injEq] at h'
  subst h'
  rfl

theorem sameCfg (c : Cfg d N M ℝ) : SameCfg fin c (liftCfg c) := by
  refine ⟨rfl, rfl, rfl, rfl, sameDrift _, rfl, rfl, ?_, rfl, ?_, rfl, rfl⟩
  · cases h : c.U with
    | none => simp only [liftCfg, h]; trivial
    | some U => simp only [liftCfg, h]; exact sameConstraint U
  · cases h : c.fTrue with
    | none => simp only [liftCfg, h]; trivial
    | some f => simp only [liftCfg, h]; exact sameDrift f

end
end XR
end DPFC
