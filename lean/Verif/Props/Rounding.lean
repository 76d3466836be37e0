import Verif.Lib.Rounding
import Verif.Inst.F53
import Verif.Lib.Examples

/-!
# C66: the time grid in rounded arithmetic

C01 describes the grid in exact arithmetic. Here the numbers are rounded after every operation, with relative
error at most `2^-50` (`Spec.Rounds`); binary64 rounds with `2^-53`.
-/

namespace DPFC
open Spec

variable {ρ : Type} {d N M : ℕ}
variable {K : Type} [Add K] [Sub K] [Mul K] [Div K] [Neg K] [NumOps K]
variable {fin : K → Prop} {val : K → ℝ} {u Ω η : ℝ}

/-- **C66** (number of slices). Whenever the horizon is `n` steps up to a quarter of a step, every constructed
object, numpy or torch, has exactly `n+1` time points, whatever the rounding did: no point is lost and none is
added at the end. -/
theorem C66_grid_size (hr : Rounds fin val u Ω η) (hu : 0 ≤ u) (hu' : u ≤ 1 / 2 ^ 50) (hΩ : 10 ^ 13 ≤ Ω)
    (hη : η ≤ 1 / 10 ^ 9) (env : Env ρ K) (c : Cfg d N M K) (f1 : fin c.t1) (f2 : fin c.t2)
    (b1 : |val c.t1| ≤ 10 ^ 9) (b2 : |val c.t2| ≤ 10 ^ 9) (n : ℕ)
    (hn : |val c.t2 - val c.t1 - n / 1000| ≤ 1/4000) (r r' : ρ) (o : Obj d N M K)
    (h : construct env c r = .ok (o, r') ∨ torchConstruct env c r = .ok (o, r')) :
    o.timegrid.length = n + 1 := by
  have hc := Rounds.count hr hu hu' hΩ hη f1 f2 b1 b2 n hn
  rcases h with h | h
  · rw [(construct_fields h).2]
    simpa [mkGrid, npArange] using hc
  · rw [(torchConstruct_fields h).2.2]
    simpa [torchPoints, arange] using hc

/-- **C66** (accuracy of the numpy grid). The first point is exactly `t1`; point `i` is finite and within
`u (i+1) (2|t1|+1)` of `t1 + i*dt`: the error grows with the index, because `np.arange` repeats one rounded
increment. -/
theorem C66_grid_points (hr : Rounds fin val u Ω η) (hu : 0 ≤ u) (hu' : u ≤ 1 / 2 ^ 50) (hΩ : 10 ^ 13 ≤ Ω)
    (hη : η ≤ 1 / 10 ^ 9) (env : Env ρ K) (c : Cfg d N M K) (f1 : fin c.t1)
    (b1 : |val c.t1| ≤ 10 ^ 9) (r r' : ρ) (o : Obj d N M K) (h : construct env c r = .ok (o, r')) :
    (∀ x, o.timegrid[0]? = some x → x = c.t1) ∧
    ∀ (i : ℕ) (x : K), i ≤ 10 ^ 12 → o.timegrid[i]? = some x →
      fin x ∧ |val x - (val c.t1 + i / 1000)| ≤ u * (i + 1) * (2 * |val c.t1| + 1) := by
  rw [(construct_fields h).2]
  have key : ∀ i x, (mkGrid c.t1 c.t2)[i]? = some x → x = npArangePoint c.t1 dtc i := by
    intro i x hx
    simp only [mkGrid, npArange, List.getElem?_map, Option.map_eq_some_iff] at hx
    obtain ⟨j, hj, rfl⟩ := hx
    rw [List.getElem?_range (by by_contra hc; rw [List.getElem?_eq_none (by simpa using hc)] at hj; cases hj)] at hj
    rw [Option.some.inj hj]
  refine ⟨fun x hx => ?_, fun i x hi hx => ?_⟩
  · rw [key 0 x hx]; simp [npArangePoint]
  · rw [key i x hx]
    exact Rounds.npPoint hr hu hu' hΩ hη f1 b1 i hi

/-- **C66** (accuracy of the torch grid). Point `i` is finite and within `u (|t1| + i/50)` of `t1 + i*dt`. -/
theorem C66_torch_grid_points (hr : Rounds fin val u Ω η) (hu : 0 ≤ u) (hu' : u ≤ 1 / 2 ^ 50)
    (hΩ : 10 ^ 13 ≤ Ω) (hη : η ≤ 1 / 10 ^ 9) (env : Env ρ K) (c : Cfg d N M K) (f1 : fin c.t1)
    (b1 : |val c.t1| ≤ 10 ^ 9) (r r' : ρ) (o : Obj d N M K) (h : torchConstruct env c r = .ok (o, r'))
    (i : ℕ) (x : K) (hi : i ≤ 10 ^ 12) (hx : o.timegrid[i]? = some x) :
    fin x ∧ |val x - (val c.t1 + i / 1000)| ≤ u * (|val c.t1| + i / 50) := by
  rw [(torchConstruct_fields h).2.2] at hx
  simp only [torchPoints, arange, List.getElem?_map, Option.map_eq_some_iff] at hx
  obtain ⟨j, hj, rfl⟩ := hx
  rw [List.getElem?_range (by by_contra hc; rw [List.getElem?_eq_none (by simpa using hc)] at hj; cases hj)] at hj
  rw [← Option.some.inj hj]
  exact Rounds.tPoint hr hu hu' hΩ hη f1 b1 i hi

/-- **C66** (binary rounding). With every operation rounded to 53 significant bits and a starting time of at most 1 in
absolute value, the first `10^5` points of the grid of a constructed numpy object are within a thousandth of a step
of the exact ones and strictly increasing. -/
theorem C66_double_grid (env : Env ρ F53) (c : Cfg d N M F53) (b1 : |c.t1.val| ≤ 1) (r r' : ρ)
    (o : Obj d N M F53) (h : construct env c r = .ok (o, r')) :
    (∀ (i : ℕ) (x : F53), i < 10 ^ 5 → o.timegrid[i]? = some x → |x.val - (c.t1.val + i / 1000)| ≤ 1 / 10 ^ 6) ∧
    ∀ (i : ℕ) (x y : F53), i + 1 < 10 ^ 5 → o.timegrid[i]? = some x → o.timegrid[i + 1]? = some y → x.val < y.val := by
  have key : ∀ (i : ℕ) (x : F53), i < 10 ^ 5 → o.timegrid[i]? = some x →
      |x.val - (c.t1.val + i / 1000)| ≤ 1 / 10 ^ 6 := by
    intro i x hi hx
    have := ((C66_grid_points (F53.rounds (10 ^ 13) (1 / 10 ^ 9)) (by positivity) (by norm_num) le_rfl le_rfl env c
      trivial (b1.trans (by norm_num)) r r' o h).2 i x (by omega) hx).2
    refine this.trans ?_
    have hi' : (i:ℝ) + 1 ≤ 10 ^ 5 := by exact_mod_cast hi
    have i0 : (0:ℝ) ≤ i := Nat.cast_nonneg i
    calc 1 / 2 ^ 53 * ((i:ℝ) + 1) * (2 * |c.t1.val| + 1) ≤ 1 / 2 ^ 53 * 10 ^ 5 * (2 * 1 + 1) := by gcongr
      _ ≤ 1 / 10 ^ 6 := by norm_num
  refine ⟨key, fun i x y hi hx hy => ?_⟩
  have h1 := abs_le.1 (key i x (by omega) hx)
  have h2 := abs_le.1 (key (i + 1) y hi hy)
  push_cast at h2
  linarith

/-- The hypotheses are met by numbers rounded to 53 bits: start 0, end 2 (as in the first notebook), grid of 2001
points; and in exact arithmetic by a constructed object. -/
example : (mkGrid (⟨0⟩ : F53) ⟨2⟩).length = 2001 := by
  have := Rounds.count (F53.rounds (10 ^ 13) (1 / 10 ^ 9)) (by positivity) (by norm_num) le_rfl le_rfl
    (t1 := ⟨0⟩) (t2 := ⟨2⟩) trivial trivial (by norm_num) (by norm_num [abs_of_pos]) 2000 (by norm_num)
  simpa [mkGrid, npArange] using this

example : ∃ o r', construct exEnv (exCfg 2 5 3 1000 true true true) 0 = .ok (o, r') ∧
    o.timegrid.length = 1000 + 1 := by
  obtain ⟨o, r', h, _⟩ := ex_det 2 5 3 1000 true true (by norm_num) (by norm_num) 0
  exact ⟨o, r', h, C66_grid_size (rounds_real (10 ^ 13) (1 / 10 ^ 9)) le_rfl (by norm_num) le_rfl le_rfl exEnv _
    trivial trivial (by norm_num [exCfg]) (by norm_num [exCfg]) 1000 (by norm_num [exCfg]) 0 r' o (.inl h)⟩

/-- A configuration in rounded arithmetic: one step, two particles in the plane. -/
noncomputable def exF53 : Cfg 2 2 3 F53 where
  t1 := ⟨0⟩
  t2 := ⟨1 / 1000⟩
  y1 := fun a => ⟨1 + a.val⟩
  y2 := fun a => ⟨3 + a.val⟩
  f := ⟨fun x t a n => x a n + t, some fun x => x⟩
  g := ⟨1⟩
  reweight := false
  U := none
  densEst := ""
  reject := true
  kern := "RBF"
  fTrue := none
  brownBridge := false
  deterministic := true

/-- Example random source and transport solver in rounded arithmetic. -/
noncomputable def exEnvF : Env ℕ F53 where
  normal r := (⟨r⟩, r + 1)
  uniform r := (⟨1/2⟩, r + 1)
  emd {n} _ _ _ := .ok fun i j => ⟨if i = j then 1 / n else 0⟩

example : ∃ o r', construct exEnvF exF53 0 = .ok (o, r') ∧ o.timegrid.length = 1 + 1 := by
  have hg : (mkGrid exF53.t1 exF53.t2).length = 2 := by
    have := Rounds.count (F53.rounds (10 ^ 13) (1 / 10 ^ 9)) (by positivity) (by norm_num) le_rfl le_rfl
      (t1 := ⟨0⟩) (t2 := ⟨1/1000⟩) trivial trivial (by norm_num) (by norm_num [abs_of_pos]) 1 (by norm_num)
    simp only [mkGrid, npArange, List.length_map, List.length_range]
    exact this
  obtain ⟨a, b, hab⟩ : ∃ a b, mkGrid exF53.t1 exF53.t2 = [a, b] := List.length_eq_two.1 hg
  have : ∃ o r', construct exEnvF exF53 0 = .ok (o, r') := by
    unfold construct
    rw [hab]
    exact ⟨_, _, rfl⟩
  obtain ⟨o, r', h⟩ := this
  exact ⟨o, r', h, C66_grid_size (F53.rounds (10 ^ 13) (1 / 10 ^ 9)) (by positivity) (by norm_num) le_rfl le_rfl
    exEnvF exF53 trivial trivial (by norm_num [exF53]) (by norm_num [exF53, abs_of_pos]) 1
    (by norm_num [exF53]) 0 r' o (.inl h)⟩
end DPFC
