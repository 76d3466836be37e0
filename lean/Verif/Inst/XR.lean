import Verif.Spec.Ieee
import Mathlib.Analysis.SpecialFunctions.Trigonometric.Basic
import Mathlib.Analysis.SpecialFunctions.Sqrt
import Mathlib.Algebra.BigOperators.Fin

/-!
# Exact arithmetic with special values

The reals extended by two infinities and NaN, with the IEEE rules for the special values and exact
arithmetic for finite values (one unsigned zero; a non-zero number divided by zero is an infinity with the
sign of the numerator). `linalg.inv` is a parameter: the rules do not say what it does on singular or
non-finite matrices.
-/

namespace DPFC
open Spec

/-- Extended reals with NaN. -/
inductive XR
  | fin (r : ℝ)
  | pinf
  | ninf
  | nan

namespace XR

/-- sign of a special value or number as a factor of an infinity -/
noncomputable def infMul (s : ℝ) : XR := if 0 < s then pinf else if s < 0 then ninf else nan

protected noncomputable def add : XR → XR → XR
  | fin a, fin b => fin (a + b)
  | nan, _ => nan
  | _, nan => nan
  | pinf, ninf => nan
  | ninf, pinf => nan
  | pinf, _ => pinf
  | _, pinf => pinf
  | ninf, _ => ninf
  | _, ninf => ninf

protected noncomputable def neg : XR → XR
  | fin a => fin (-a)
  | pinf => ninf
  | ninf => pinf
  | nan => nan

/-- sign of a value: 1, -1 or 0 -/
noncomputable def sgn : XR → ℝ
  | fin a => if 0 < a then 1 else if a < 0 then -1 else 0
  | pinf => 1
  | ninf => -1
  | nan => 0

protected noncomputable def mul : XR → XR → XR
  | fin a, fin b => fin (a * b)
  | nan, _ => nan
  | _, nan => nan
  | a, b => infMul (sgn a * sgn b)

protected noncomputable def div : XR → XR → XR
  | nan, _ => nan
  | _, nan => nan
  | fin a, fin b => if b = 0 then infMul (sgn (fin a)) else fin (a / b)
  | fin _, _ => fin 0
  | a, fin b => if b = 0 then a else infMul (sgn a * sgn (fin b))
  | _, _ => nan

noncomputable instance : Add XR := ⟨XR.add⟩
noncomputable instance : Neg XR := ⟨XR.neg⟩
noncomputable instance : Sub XR := ⟨fun a b => XR.add a (XR.neg b)⟩
noncomputable instance : Mul XR := ⟨XR.mul⟩
noncomputable instance : Div XR := ⟨XR.div⟩

/-- `<` (false if a NaN is involved) -/
def lt : XR → XR → Prop
  | fin a, fin b => a < b
  | ninf, fin _ => True
  | ninf, pinf => True
  | fin _, pinf => True
  | _, _ => False

/-- `<=` -/
def le : XR → XR → Prop
  | fin a, fin b => a ≤ b
  | ninf, ninf => True
  | ninf, fin _ => True
  | ninf, pinf => True
  | fin _, pinf => True
  | pinf, pinf => True
  | _, _ => False

open Classical in
/-- minimum of two values, NaN if one of them is NaN -/
noncomputable def min2 : XR → XR → XR
  | nan, _ => nan
  | _, nan => nan
  | a, b => if lt b a then b else a

open Classical in
/-- maximum of two values, NaN if one of them is NaN -/
noncomputable def max2 : XR → XR → XR
  | nan, _ => nan
  | _, nan => nan
  | a, b => if lt a b then b else a

open Classical in
/-- The operations, with an arbitrary `linalg.inv`. -/
@[reducible] noncomputable def ops (inv : {m : ℕ} → Mat m m XR → Except PyErr (Mat m m XR)) :
    NumOps XR where
  lit p q := fin (p / q)
  exp
    | fin a => fin (Real.exp a)
    | pinf => pinf
    | ninf => fin 0
    | nan => nan
  sqrt
    | fin a => if a < 0 then nan else fin (Real.sqrt a)
    | pinf => pinf
    | ninf => nan
    | nan => nan
  sin
    | fin a => fin (Real.sin a)
    | _ => nan
  cos
    | fin a => fin (Real.cos a)
    | _ => nan
  abs
    | fin a => fin |a|
    | nan => nan
    | _ => pinf
  ltB a b := decide (lt a b)
  leB a b := decide (le a b)
  eqB
    | fin a, fin b => decide (a = b)
    | pinf, pinf => true
    | ninf, ninf => true
    | _, _ => false
  isFinite
    | fin _ => true
    | _ => false
  ceilNat
    | fin a => ⌈a⌉₊
    | _ => 0
  sum {n} v := Fin.foldl n (fun acc i => acc + v i) (fin 0)
  amin {n} v := Fin.foldl n (fun acc i => min2 acc (v i.succ)) (v 0)
  amax {n} v := Fin.foldl n (fun acc i => max2 acc (v i.succ)) (v 0)
  inv := inv

section
variable (inv : {m : ℕ} → Mat m m XR → Except PyErr (Mat m m XR))

theorem add_nan_right (a : XR) : a + nan = nan := by cases a <;> rfl
theorem add_nan_left (a : XR) : nan + a = nan := by cases a <;> rfl

theorem foldl_nan {n : ℕ} (v : Fin n → XR) : Fin.foldl n (fun acc i => acc + v i) nan = nan := by
  induction n with
  | zero => rfl
  | succ n ih => rw [Fin.foldl_succ, add_nan_left]; exact ih _

theorem sum_nan {n : ℕ} (v : Fin n → XR) (i : Fin n) (h : v i = nan) (acc : XR) :
    Fin.foldl n (fun acc i => acc + v i) acc = nan := by
  induction n generalizing acc with
  | zero => exact i.elim0
  | succ n ih =>
    rw [Fin.foldl_succ]
    cases i using Fin.cases with
    | zero => rw [h, add_nan_right]; exact foldl_nan _
    | succ i => exact ih (fun j => v j.succ) i h _

theorem sum_fin {n : ℕ} (w : Fin n → ℝ) (a : ℝ) :
    Fin.foldl n (fun acc i => acc + fin (w i)) (fin a) = fin (a + ∑ i, w i) := by
  induction n generalizing a with
  | zero => simp
  | succ n ih =>
    rw [Fin.foldl_succ, Fin.sum_univ_succ]
    change Fin.foldl n _ (fin (a + w 0)) = _
    rw [ih (fun j => w j.succ), add_assoc]

theorem foldl_const {n : ℕ} (f : XR → XR → XR) (a : XR) (h : f a a = a) :
    Fin.foldl n (fun acc _ => f acc a) a = a := by
  induction n with
  | zero => rfl
  | succ n ih => rw [Fin.foldl_succ, h]; exact ih

theorem foldl_absorb {n : ℕ} (f : XR → XR → XR) (hl : ∀ a, f nan a = nan) (v : Fin n → XR) :
    Fin.foldl n (fun acc i => f acc (v i)) nan = nan := by
  induction n with
  | zero => rfl
  | succ n ih => rw [Fin.foldl_succ, hl]; exact ih _

theorem foldl_absorb' {n : ℕ} (f : XR → XR → XR) (hl : ∀ a, f nan a = nan) (hr : ∀ a, f a nan = nan)
    (v : Fin n → XR) (i : Fin n) (h : v i = nan) (acc : XR) :
    Fin.foldl n (fun acc i => f acc (v i)) acc = nan := by
  induction n generalizing acc with
  | zero => exact i.elim0
  | succ n ih =>
    rw [Fin.foldl_succ]
    cases i using Fin.cases with
    | zero => rw [h, hr]; exact foldl_absorb f hl _
    | succ i => exact ih (fun j => v j.succ) i h _

theorem fold_nan {n : ℕ} (f : XR → XR → XR) (hl : ∀ a, f nan a = nan) (hr : ∀ a, f a nan = nan)
    (v : Fin (n+1) → XR) (i : Fin (n+1)) (h : v i = nan) :
    Fin.foldl n (fun acc i => f acc (v i.succ)) (v 0) = nan := by
  cases i using Fin.cases with
  | zero => rw [h]; exact foldl_absorb f hl _
  | succ i => exact foldl_absorb' f hl hr (fun j => v j.succ) i h _

theorem amin_nan {n : ℕ} (v : Fin (n+1) → XR) (i : Fin (n+1)) (h : v i = nan) :
    Fin.foldl n (fun acc i => min2 acc (v i.succ)) (v 0) = nan :=
  fold_nan min2 (fun a => by cases a <;> rfl) (fun a => by cases a <;> rfl) v i h

theorem amax_nan {n : ℕ} (v : Fin (n+1) → XR) (i : Fin (n+1)) (h : v i = nan) :
    Fin.foldl n (fun acc i => max2 acc (v i.succ)) (v 0) = nan :=
  fold_nan max2 (fun a => by cases a <;> rfl) (fun a => by cases a <;> rfl) v i h

theorem not_lt_of_nan {a b : XR} (h : a = nan ∨ b = nan) : ¬ lt a b := by
  rcases h with rfl | rfl
  · cases b <;> simp [lt]
  · cases a <;> simp [lt]

theorem not_lt_self (a : XR) : ¬ lt a a := by cases a <;> simp [lt]

/-- Exact arithmetic with special values obeys the rules. -/
noncomputable def ieee : @Ieee XR _ _ _ _ _ (ops inv) :=
  letI := ops inv
  { nan := fun a => a = nan
    fin := fun a => ∃ r, a = fin r
    zero := fun a => a = fin 0
    zero_fin := fun h => ⟨0, h⟩
    nan_not_fin := by rintro a rfl ⟨r, h⟩; cases h
    nan_add_left := by rintro a b rfl; exact add_nan_left b
    nan_add_right := by rintro a b rfl; exact add_nan_right a
    nan_sub_left := by rintro a b rfl; exact add_nan_left _
    nan_sub_right := by rintro a b rfl; exact add_nan_right a
    nan_mul_left := by rintro a b rfl; cases b <;> rfl
    nan_mul_right := by rintro a b rfl; cases a <;> rfl
    nan_div_left := by rintro a b rfl; cases b <;> rfl
    nan_div_right := by rintro a b rfl; cases a <;> rfl
    nan_neg := by rintro a rfl; rfl
    nan_exp := by rintro a rfl; rfl
    nan_sqrt := by rintro a rfl; rfl
    nan_sum := fun {n v} i h => sum_nan v i h _
    nan_amin := fun {n v} i h => amin_nan v i h
    nan_amax := fun {n v} i h => amax_nan v i h
    isFinite_nan := by rintro a rfl; rfl
    ltB_nan := by
      intro a b h
      classical
      exact decide_eq_false (not_lt_of_nan h)
    lit_two := ⟨_, rfl⟩
    lit_zero := by change fin (((0:ℤ):ℝ) / ((1:ℕ):ℝ)) = fin 0; simp
    sub_self := by rintro a ⟨r, rfl⟩; change fin (r + -r) = fin 0; simp
    sub_add_zero := by
      rintro a z ⟨r, rfl⟩ rfl
      change fin (r + -(r + 0)) = fin 0; simp
    zero_mul := by rintro a b rfl ⟨r, rfl⟩; change fin (0 * r) = fin 0; simp
    mul_zero := by rintro a b ⟨r, rfl⟩ rfl; change fin (r * 0) = fin 0; simp
    zero_mul_any := by
      rintro a b rfl
      cases b with
      | fin r => left; change fin (0 * r) = fin 0; simp
      | pinf => right; change infMul (sgn (fin 0) * sgn pinf) = nan; simp [infMul, sgn]
      | ninf => right; change infMul (sgn (fin 0) * sgn ninf) = nan; simp [infMul, sgn]
      | nan => right; rfl
    mul_zero_any := by
      rintro a b rfl
      cases a with
      | fin r => left; change fin (r * 0) = fin 0; simp
      | pinf => right; change infMul (sgn pinf * sgn (fin 0)) = nan; simp [infMul, sgn]
      | ninf => right; change infMul (sgn ninf * sgn (fin 0)) = nan; simp [infMul, sgn]
      | nan => right; rfl
    zero_neg := by rintro a rfl; change fin (-0) = fin 0; simp
    zero_abs := by rintro a rfl; change fin |0| = fin 0; simp
    zero_sqrt := by
      rintro a rfl
      change (if (0:ℝ) < 0 then nan else fin (Real.sqrt 0)) = fin 0
      simp
    zero_sum := by
      intro n v h
      have e : v = fun i => fin ((fun _ => 0 : Fin n → ℝ) i) := funext h
      change Fin.foldl n (fun acc i => acc + v i) (fin 0) = fin 0
      rw [e, sum_fin]; simp
    zero_div := by
      rintro a n rfl hn
      have : ((n : ℝ) / ((1:ℕ):ℝ)) ≠ 0 := by simp; omega
      change (if ((n : ℝ) / ((1:ℕ):ℝ)) = 0 then infMul (sgn (fin 0)) else fin (0 / ((n:ℝ) / ((1:ℕ):ℝ)))) = fin 0
      rw [if_neg this]; simp
    zero_div_zero := by
      rintro a b rfl rfl
      change (if (0:ℝ) = 0 then infMul (sgn (fin 0)) else fin (0 / 0)) = nan
      simp [infMul, sgn]
    div_zero := by
      rintro a b rfl ⟨r, h⟩
      cases a with
      | fin a =>
        change (if (0:ℝ) = 0 then infMul (sgn (fin a)) else fin (a / 0)) = fin r at h
        rw [if_pos rfl] at h
        unfold infMul at h
        split at h
        · cases h
        · split at h <;> cases h
      | pinf =>
        change (if (0:ℝ) = 0 then pinf else _) = fin r at h
        rw [if_pos rfl] at h; cases h
      | ninf =>
        change (if (0:ℝ) = 0 then ninf else _) = fin r at h
        rw [if_pos rfl] at h; cases h
      | nan => cases h
    sub_of_not_fin := by
      rintro a b ha ⟨r, h⟩
      cases a with
      | fin a => exact ha ⟨a, rfl⟩
      | pinf => cases b <;> cases h
      | ninf => cases b <;> cases h
      | nan => cases b <;> cases h
    sub_self_of_not_fin := by
      intro a ha
      cases a with
      | fin a => exact absurd ⟨a, rfl⟩ ha
      | pinf => rfl
      | ninf => rfl
      | nan => rfl
    amin_const := by
      rintro n a ⟨r, rfl⟩
      exact foldl_const min2 (fin r) (by simp [min2])
    amax_const := by
      rintro n a ⟨r, rfl⟩
      exact foldl_const max2 (fin r) (by simp [max2]) }

theorem exactMean (N : ℕ) (hN : 0 < N) (r : ℝ) : @ExactMean XR _ _ _ _ _ (ops inv) N (fin r) := by
  letI := ops inv
  change (Fin.foldl N (fun acc i => acc + fin ((fun _ => r : Fin N → ℝ) i)) (fin 0)) / fin (((N:ℤ):ℝ) / ((1:ℕ):ℝ)) = fin r
  rw [sum_fin]
  have h : (((N:ℤ):ℝ) / ((1:ℕ):ℝ)) ≠ 0 := by simp; omega
  change (if (((N:ℤ):ℝ) / ((1:ℕ):ℝ)) = 0 then _ else fin _) = fin r
  rw [if_neg h]
  congr 1
  have hN' : (N : ℝ) ≠ 0 := by exact_mod_cast hN.ne'
  simp [hN']

end
end XR
end DPFC
