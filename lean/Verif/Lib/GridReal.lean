import Verif.Inst.Real
import Verif.Model.TorchDPFC
import Mathlib.Tactic.Linarith
import Mathlib.Tactic.Ring
import Mathlib.Algebra.Order.Floor.Semiring

/-! The time grid over the reals, and a family of concrete configurations used as examples. -/

namespace DPFC

theorem mkGrid_real (t1 t2 : ℝ) : mkGrid t1 t2
    = (List.range ⌈(t2 + 1/2000 - t1) * 1000⌉₊).map fun i : ℕ => t1 + (i : ℝ) * (1/1000) := by
  have hd : (dtc : ℝ) = 1/1000 := by simp [dtc]
  have h2 : (lit 2 1 : ℝ) = 2 := by rw [real_lit_int]; norm_num
  have : (t2 + dtc / lit 2 1 - t1) / (dtc : ℝ) = (t2 + 1/2000 - t1) * 1000 := by
    rw [hd, h2]; ring
  unfold mkGrid npArange
  rw [this]
  simp only [real_ceilNat, hd]
  refine List.map_congr_left fun i _ => ?_
  unfold npArangePoint
  split
  · rename_i h; rw [h]; simp
  · split
    · rename_i h; rw [h]; simp
    · rw [real_lit_int, Int.cast_natCast]; ring

/-- In exact arithmetic both classes have the same grid. -/
theorem torchPoints_real (t1 t2 : ℝ) : torchPoints t1 t2 = mkGrid t1 t2 := by
  have hd : (dtc : ℝ) = 1/1000 := by simp [dtc]
  have h2 : (lit 2 1 : ℝ) = 2 := by rw [real_lit_int]; norm_num
  have : (t2 + dtc / lit 2 1 - t1) / (dtc : ℝ) = (t2 + 1/2000 - t1) * 1000 := by
    rw [hd, h2]; ring
  rw [mkGrid_real]
  unfold torchPoints arange
  rw [this]
  simp only [real_ceilNat, hd, real_lit_int, Int.cast_natCast]

theorem mkGrid_length_real (t1 t2 : ℝ) :
    (mkGrid t1 t2).length = ⌈(t2 + 1/2000 - t1) * 1000⌉₊ := by rw [mkGrid_real]; simp

theorem mkGrid_getElem_real (t1 t2 : ℝ) (i : ℕ) (x : ℝ) :
    (mkGrid t1 t2)[i]? = some x ↔ x = t1 + i * (1/1000) ∧ x < t2 + 1/2000 := by
  have hlt : ∀ i : ℕ, i < ⌈(t2 + 1/2000 - t1) * 1000⌉₊ ↔ t1 + (i:ℝ) * (1/1000) < t2 + 1/2000 := by
    intro i
    rw [Nat.lt_ceil]
    constructor <;> intro h <;> linarith
  rw [mkGrid_real]
  by_cases hi : i < ⌈(t2 + 1/2000 - t1) * 1000⌉₊
  · simp only [List.getElem?_map, List.getElem?_range hi, Option.map_some, Option.some.injEq]
    constructor
    · rintro rfl; exact ⟨rfl, (hlt i).1 hi⟩
    · rintro ⟨h, _⟩; exact h.symm
  · have : (List.range ⌈(t2 + 1/2000 - t1) * 1000⌉₊)[i]? = none := by
      rw [List.getElem?_eq_none_iff, List.length_range]; omega
    simp only [List.getElem?_map, this, Option.map_none]
    constructor
    · intro h; cases h
    · rintro ⟨rfl, h⟩; exact absurd ((hlt i).2 h) hi

theorem mkGrid_length_steps (t1 : ℝ) (n : ℕ) : (mkGrid t1 (t1 + n / 1000)).length = n + 1 := by
  rw [mkGrid_length_real]
  have : (t1 + (n:ℝ) / 1000 + 1/2000 - t1) * 1000 = (n:ℝ) + 1/2 := by ring
  rw [this]
  refine le_antisymm (Nat.ceil_le.2 (by push_cast; linarith)) (Nat.succ_le_of_lt (Nat.lt_ceil.2 ?_))
  linarith

/-! ### Examples -/

/-- An example environment: a counter drives the random numbers, the transport plan is the
identity coupling. -/
noncomputable def exEnv : Env ℕ ℝ where
  normal r := (r, r + 1)
  uniform r := (1/2, r + 1)
  emd {n} _ _ _ := .ok fun i j => if i = j then 1 / n else 0

/-- An example configuration with `k = steps + 1` grid points. -/
noncomputable def exCfg (d N M steps : ℕ) (det rw bb : Bool) : Cfg d N M ℝ where
  t1 := 0
  t2 := steps / 1000
  y1 := fun a => 1 + a.val
  y2 := fun a => 3 + a.val
  f := ⟨fun x t a n => x a n + t, some fun x => x⟩
  g := 1
  reweight := rw
  U := some ⟨fun x t n => t + ∑ a, x a n, some fun x n => ∑ a, x a n⟩
  densEst := ""
  reject := true
  kern := "RBF"
  fTrue := some ⟨fun x _ a n => - x a n, none⟩
  brownBridge := bb
  deterministic := det

theorem exCfg_grid (d N M steps : ℕ) (det rw bb : Bool) :
    (mkGrid (exCfg d N M steps det rw bb).t1 (exCfg d N M steps det rw bb).t2).length
      = steps + 1 := by
  have := mkGrid_length_steps 0 steps
  rwa [zero_add] at this

theorem exCfg_torchGrid (d N M steps : ℕ) (det rw bb : Bool) :
    torchGrid (exCfg d N M steps det rw bb).t1 (exCfg d N M steps det rw bb).t2
      = .ok (mkGrid (exCfg d N M steps det rw bb).t1 (exCfg d N M steps det rw bb).t2) := by
  unfold torchGrid
  rw [if_neg, torchPoints_real]
  simp only [real_ltB, exCfg, dtc]
  have : (0:ℝ) ≤ steps / 1000 := by positivity
  have h2 : (lit 2 1 : ℝ) = 2 := by rw [real_lit_int]; norm_num
  rw [h2, real_lit_milli]
  linarith

end DPFC
