import Verif.Spec.Rounding
import Verif.Lib.GridReal
import Mathlib.Tactic.NormNum
import Mathlib.Tactic.Positivity

/-! Error bounds for the time grid in rounded arithmetic. -/

namespace DPFC
open Spec

namespace Rounds
variable {K : Type} [Add K] [Sub K] [Mul K] [Div K] [NumOps K]
variable {fin : K → Prop} {val : K → ℝ} {u Ω η : ℝ}

theorem dt (h : Rounds fin val u Ω η) (hΩ : 1 ≤ Ω) (hη : η ≤ 1/1000) :
    fin (dtc : K) ∧ |val (dtc : K) - 1/1000| ≤ u * (1/1000) := by
  have := h.lit 1 1000 (by norm_num [abs_of_pos]; linarith) (.inr (by norm_num [abs_of_pos]; linarith))
  unfold RelErr at this
  norm_num [abs_of_pos] at this ⊢
  exact this

theorem two (h : Rounds fin val u Ω η) (hΩ : 2 ≤ Ω) (hη : η ≤ 2) :
    fin (lit 2 1 : K) ∧ |val (lit 2 1 : K) - 2| ≤ u * 2 := by
  have := h.lit 2 1 (by norm_num; linarith) (.inr (by norm_num; linarith))
  unfold RelErr at this
  norm_num at this ⊢
  exact this

set_option maxHeartbeats 1600000 in
/-- The quotient whose ceiling is the number of grid points. -/
theorem quotient (h : Rounds fin val u Ω η) (hu : 0 ≤ u) (hu' : u ≤ 1 / 2 ^ 50) (hΩ : 10 ^ 13 ≤ Ω)
    (hη : η ≤ 1 / 10 ^ 9) {t1 t2 : K} (f1 : fin t1) (f2 : fin t2) (b1 : |val t1| ≤ 10 ^ 9)
    (b2 : |val t2| ≤ 10 ^ 9) (hq : 0 ≤ val t2 - val t1 + 1/4000) :
    fin ((t2 + dtc / lit 2 1 - t1) / (dtc : K)) ∧
    |val ((t2 + dtc / lit 2 1 - t1) / (dtc : K)) - ((val t2 - val t1) * 1000 + 1/2)| ≤ 1/5 := by
  have hub : u ≤ 1 / 10 ^ 15 := hu'.trans (by norm_num)
  obtain ⟨fd, ed⟩ := dt h (by linarith) (by linarith)
  obtain ⟨f2', e2⟩ := two h (by linarith) (by linarith)
  set D := val (dtc : K) with hD
  set T := val (lit 2 1 : K) with hT
  have ed' : |D - 1/1000| ≤ 1 / 10 ^ 18 := ed.trans (by nlinarith)
  have e2' : |T - 2| ≤ 1 / 10 ^ 14 := e2.trans (by nlinarith)
  rw [abs_le] at ed' e2'
  have hDp : 0 < D := by linarith
  have hTp : 0 < T := by linarith
  have hH : |D / T - 1/2000| ≤ 1 / 10 ^ 16 := by
    have : D / T - 1/2000 = (D - T/2000) / T := by field_simp
    rw [this, abs_div, abs_of_pos hTp, div_le_iff₀ hTp, abs_le]
    constructor <;> nlinarith
  rw [abs_le] at hH
  have hHp : 0 < D / T := by linarith
  obtain ⟨fh, eh⟩ := h.div dtc (lit 2 1) fd f2' hTp.ne' (by rw [← hD, ← hT, abs_of_pos hHp]; linarith)
    (.inr (by rw [← hD, ← hT, abs_of_pos hHp]; linarith))
  rw [← hD, ← hT] at eh
  unfold RelErr at eh
  rw [abs_of_pos hHp] at eh
  set H := val ((dtc : K) / lit 2 1) with hH'
  have eH : |H - 1/2000| ≤ 1 / 10 ^ 15 := by
    have : |H - D / T| ≤ 1 / 10 ^ 17 := eh.trans (by nlinarith)
    rw [abs_le] at this ⊢
    constructor <;> linarith
  rw [abs_le] at eH b1 b2
  have hs1 : |val t2 + H| ≤ 10 ^ 9 + 1 := by rw [abs_le]; constructor <;> linarith
  obtain ⟨fs, es⟩ := h.add t2 (dtc / lit 2 1) f2 fh (by rw [← hH']; linarith)
  rw [← hH'] at es
  unfold RelErr at es
  set S := val (t2 + (dtc : K) / lit 2 1) with hS
  have es' : |S - (val t2 + H)| ≤ 2 / 10 ^ 6 := es.trans (by nlinarith [abs_nonneg (val t2 + H)])
  rw [abs_le] at es'
  have hs2 : |S - val t1| ≤ 3 * 10 ^ 9 := by rw [abs_le]; constructor <;> linarith
  obtain ⟨fx, ex⟩ := h.sub (t2 + dtc / lit 2 1) t1 fs f1 (by rw [← hS]; linarith)
  rw [← hS] at ex
  unfold RelErr at ex
  set X := val (t2 + (dtc : K) / lit 2 1 - t1) with hX
  have ex' : |X - (S - val t1)| ≤ 3 / 10 ^ 6 := ex.trans (by nlinarith [abs_nonneg (S - val t1)])
  rw [abs_le] at ex'
  have eX : |X - (val t2 - val t1 + 1/2000)| ≤ 6 / 10 ^ 6 := by rw [abs_le]; constructor <;> linarith
  rw [abs_le] at eX
  have hXp : 1 / 10 ^ 4 ≤ X := by linarith
  have hXu : X ≤ 3 * 10 ^ 9 := by linarith
  have hQ : |X / D - X * 1000| ≤ 1/100 := by
    have : X / D - X * 1000 = X * (1 - 1000 * D) / D := by field_simp
    rw [this, abs_div, abs_of_pos hDp, div_le_iff₀ hDp, abs_mul, abs_of_pos (by linarith : 0 < X)]
    have : |1 - 1000 * D| ≤ 1 / 10 ^ 15 := by rw [abs_le]; constructor <;> linarith
    nlinarith [abs_nonneg (1 - 1000 * D)]
  rw [abs_le] at hQ
  have hQp : 0 < X / D := by linarith
  obtain ⟨fq, eq⟩ := h.div (t2 + dtc / lit 2 1 - t1) dtc fx fd hDp.ne'
    (by rw [← hX, ← hD, abs_of_pos hQp]; linarith)
    (.inr (by rw [← hX, ← hD, abs_of_pos hQp]; linarith))
  rw [← hX, ← hD] at eq
  unfold RelErr at eq
  rw [abs_of_pos hQp] at eq
  refine ⟨fq, ?_⟩
  have : |val ((t2 + dtc / lit 2 1 - t1) / (dtc : K)) - X / D| ≤ 1/100 := eq.trans (by nlinarith)
  rw [abs_le] at this ⊢
  constructor <;> linarith

theorem count (h : Rounds fin val u Ω η) (hu : 0 ≤ u) (hu' : u ≤ 1 / 2 ^ 50) (hΩ : 10 ^ 13 ≤ Ω)
    (hη : η ≤ 1 / 10 ^ 9) {t1 t2 : K} (f1 : fin t1) (f2 : fin t2) (b1 : |val t1| ≤ 10 ^ 9)
    (b2 : |val t2| ≤ 10 ^ 9) (n : ℕ) (hn : |val t2 - val t1 - n / 1000| ≤ 1/4000) :
    NumOps.ceilNat ((t2 + dtc / lit 2 1 - t1) / (dtc : K)) = n + 1 := by
  have hn' := abs_le.1 hn
  have n0 : (0:ℝ) ≤ n := Nat.cast_nonneg n
  obtain ⟨fq, eq⟩ := quotient h hu hu' hΩ hη f1 f2 b1 b2 (by linarith)
  rw [h.ceilNat _ fq]
  rw [abs_le] at eq
  refine le_antisymm (Nat.ceil_le.2 (by push_cast; linarith)) (Nat.succ_le_of_lt (Nat.lt_ceil.2 ?_))
  linarith

theorem nat (h : Rounds fin val u Ω η) (hη : η ≤ 1) (i : ℕ) (hi : (i:ℝ) ≤ Ω) :
    fin (lit (i : ℤ) 1 : K) ∧ |val (lit (i : ℤ) 1 : K) - i| ≤ u * i := by
  have e : ((i : ℤ) : ℝ) / ((1 : ℕ) : ℝ) = i := by push_cast; ring
  have := h.lit i 1 (by rw [e, abs_of_nonneg (Nat.cast_nonneg i)]; exact hi) (by
    rw [e]
    rcases Nat.eq_zero_or_pos i with rfl | h0
    · left; simp
    · right
      have : (1:ℝ) ≤ i := by exact_mod_cast h0
      rw [abs_of_nonneg (Nat.cast_nonneg i)]; linarith)
  unfold RelErr at this
  rw [e, abs_of_nonneg (Nat.cast_nonneg i : (0:ℝ) ≤ (i:ℝ))] at this
  exact this

/-- `a + i*s` with `s` close to `1/1000`. -/
theorem affinePoint (h : Rounds fin val u Ω η) (hu : 0 ≤ u) (hu' : u ≤ 1 / 2 ^ 50) (hΩ : 10 ^ 13 ≤ Ω)
    (hη : η ≤ 1 / 10 ^ 9) {t s : K} (ft : fin t) (fs : fin s) (bt : |val t| ≤ 10 ^ 9) {c : ℝ} (hc : 0 ≤ c)
    (hc' : c * u ≤ 1 / 10 ^ 5) (bs : |val s - 1/1000| ≤ c * u) (i : ℕ) (hi : i ≤ 10 ^ 12) :
    fin (t + lit (i : ℤ) 1 * s) ∧
    |val (t + lit (i : ℤ) 1 * s) - (val t + i / 1000)| ≤ u * (|val t| + i * (2 * c + 1/100)) := by
  have hub : u ≤ 1 / 10 ^ 15 := hu'.trans (by norm_num)
  have hi' : (i:ℝ) ≤ 10 ^ 12 := by exact_mod_cast hi
  have i0 : (0:ℝ) ≤ i := Nat.cast_nonneg i
  obtain ⟨fi, ei⟩ := nat h (by linarith) i (by linarith)
  set I := val (lit (i : ℤ) 1 : K) with hI
  set B := val s with hB
  have bs' : |B - 1/1000| ≤ 1 / 10 ^ 5 := bs.trans hc'
  rw [abs_le] at bs'
  have hIi : |I - i| ≤ 1 / 10 ^ 15 * i := ei.trans (mul_le_mul_of_nonneg_right hub i0)
  rw [abs_le] at hIi
  have I0 : 0 ≤ I := by linarith
  have hIu : I ≤ 2 * i := by linarith
  have IB0 : 0 ≤ I * B := mul_nonneg I0 (by linarith)
  have IBu : I * B ≤ i * (3/1000) := by nlinarith
  obtain ⟨fp, ep⟩ := h.mul (lit (i : ℤ) 1) s fi fs (by rw [← hI, ← hB, abs_of_nonneg IB0]; linarith) (by
    rw [← hI, ← hB]
    rcases Nat.eq_zero_or_pos i with h0 | h0
    · left
      have : I = 0 := by
        have : (i:ℝ) = 0 := by rw [h0]; simp
        rw [this] at hIi; linarith
      rw [this, zero_mul]
    · right
      have : (1:ℝ) ≤ i := by exact_mod_cast h0
      rw [abs_of_nonneg IB0]
      nlinarith)
  rw [← hI, ← hB] at ep
  unfold RelErr at ep
  rw [abs_of_nonneg IB0] at ep
  set P := val ((lit (i : ℤ) 1 : K) * s) with hP
  have e1 : |P - I * B| ≤ u * (i * (3/1000)) := ep.trans (mul_le_mul_of_nonneg_left IBu hu)
  have e2 : |I * B - i * B| ≤ u * i * (2/1000) := by
    rw [← sub_mul, abs_mul]
    have : |B| ≤ 2/1000 := by rw [abs_le]; constructor <;> linarith
    exact mul_le_mul ei this (abs_nonneg _) (mul_nonneg hu i0)
  have e3 : |(i:ℝ) * B - i / 1000| ≤ i * (c * u) := by
    rw [show (i:ℝ) * B - i / 1000 = i * (B - 1/1000) by ring, abs_mul, abs_of_nonneg i0]
    exact mul_le_mul_of_nonneg_left bs i0
  have eP : |P - i / 1000| ≤ u * (i * (c + 5/1000)) := by
    have := abs_sub_le P (I * B) (i / 1000)
    have h2 := abs_sub_le (I * B) (i * B) ((i:ℝ) / 1000)
    calc |P - i / 1000| ≤ u * (i * (3/1000)) + (u * i * (2/1000) + i * (c * u)) := by linarith
      _ = u * (i * (c + 5/1000)) := by ring
  have hPu : |P| ≤ i * (c * u) + i * (2/1000) := by
    have h1 := abs_sub_abs_le_abs_sub P (i / 1000)
    rw [abs_of_nonneg (by positivity : (0:ℝ) ≤ i / 1000)] at h1
    have : u * (i * (5/1000)) ≤ i * (1/1000) := by nlinarith
    have e : u * (i * (c + 5/1000)) = i * (c * u) + u * (i * (5/1000)) := by ring
    linarith
  have hPu' : |P| ≤ i * (3/1000) := by
    have : (i:ℝ) * (c * u) ≤ i * (1/1000) := mul_le_mul_of_nonneg_left (by linarith) i0
    linarith
  have hsum := abs_add_le (val t) P
  obtain ⟨fq, eq⟩ := h.add t (lit (i : ℤ) 1 * s) ft fp (by rw [← hP]; linarith)
  rw [← hP] at eq
  unfold RelErr at eq
  refine ⟨fq, ?_⟩
  set Q := val (t + (lit (i : ℤ) 1 : K) * s)
  have h1 : |Q - (val t + P)| ≤ u * (|val t| + i * (3/1000)) :=
    eq.trans (mul_le_mul_of_nonneg_left (by linarith) hu)
  have h2 := abs_sub_le Q (val t + P) (val t + i / 1000)
  rw [show val t + P - (val t + (i:ℝ) / 1000) = P - i / 1000 by ring] at h2
  have hcu : 0 ≤ u * (i * c) := by positivity
  calc |Q - (val t + i / 1000)| ≤ u * (|val t| + i * (3/1000)) + u * (i * (c + 5/1000)) := by linarith
    _ ≤ u * (|val t| + i * (2 * c + 1/100)) := by nlinarith [mul_nonneg hu i0]

/-- The increment used by numpy. -/
theorem increment (h : Rounds fin val u Ω η) (hu : 0 ≤ u) (hu' : u ≤ 1 / 2 ^ 50) (hΩ : 10 ^ 13 ≤ Ω)
    (hη : η ≤ 1 / 10 ^ 9) {t : K} (ft : fin t) (bt : |val t| ≤ 10 ^ 9) :
    fin (t + (dtc : K)) ∧ |val (t + (dtc : K)) - (val t + 1/1000)| ≤ u * (|val t| + 1/100) ∧
    fin (t + (dtc : K) - t) ∧ |val (t + (dtc : K) - t) - 1/1000| ≤ (|val t| + 1/50) * u := by
  have hub : u ≤ 1 / 10 ^ 15 := hu'.trans (by norm_num)
  obtain ⟨fd, ed⟩ := dt h (by linarith) (by linarith)
  set D := val (dtc : K) with hD
  have ed' : |D - 1/1000| ≤ 1 / 10 ^ 18 := ed.trans (by nlinarith)
  rw [abs_le] at ed'
  have hDa : |D| ≤ 2/1000 := by rw [abs_le]; constructor <;> linarith
  have hsum := abs_add_le (val t) D
  obtain ⟨fa, ea⟩ := h.add t dtc ft fd (by rw [← hD]; linarith)
  rw [← hD] at ea
  unfold RelErr at ea
  set A := val (t + (dtc : K)) with hA
  have ea' : |A - (val t + D)| ≤ u * (|val t| + 2/1000) :=
    ea.trans (mul_le_mul_of_nonneg_left (by linarith) hu)
  have ea2 : |A - (val t + 1/1000)| ≤ u * (|val t| + 1/100) := by
    have h2 := abs_sub_le A (val t + D) (val t + 1/1000)
    rw [show val t + D - (val t + 1/1000) = D - 1/1000 by ring] at h2
    nlinarith
  have hbig : u * (|val t| + 1/100) ≤ 2 / 10 ^ 6 := by nlinarith [abs_nonneg (val t)]
  have hAt : |A - val t| ≤ 2/1000 := by
    have := abs_le.1 (ea2.trans hbig)
    rw [abs_le]; constructor <;> linarith
  obtain ⟨fb, eb⟩ := h.sub (t + dtc) t fa ft (by rw [← hA]; linarith)
  rw [← hA] at eb
  unfold RelErr at eb
  refine ⟨fa, ea2, fb, ?_⟩
  have eb' : |val (t + (dtc : K) - t) - (A - val t)| ≤ u * (2/1000) :=
    eb.trans (mul_le_mul_of_nonneg_left hAt hu)
  have h2 := abs_sub_le (val (t + (dtc : K) - t)) (A - val t) (1/1000)
  rw [show A - val t - 1/1000 = A - (val t + 1/1000) by ring] at h2
  nlinarith

theorem npPoint (h : Rounds fin val u Ω η) (hu : 0 ≤ u) (hu' : u ≤ 1 / 2 ^ 50) (hΩ : 10 ^ 13 ≤ Ω)
    (hη : η ≤ 1 / 10 ^ 9) {t : K} (ft : fin t) (bt : |val t| ≤ 10 ^ 9) (i : ℕ) (hi : i ≤ 10 ^ 12) :
    fin (npArangePoint t dtc i) ∧
    |val (npArangePoint t dtc i) - (val t + i / 1000)| ≤ u * (i + 1) * (2 * |val t| + 1) := by
  have i0 : (0:ℝ) ≤ i := Nat.cast_nonneg i
  have t0 := abs_nonneg (val t)
  obtain ⟨fa, ea, fb, eb⟩ := increment h hu hu' hΩ hη ft bt
  unfold npArangePoint
  split
  · rename_i h0
    refine ⟨ft, ?_⟩
    rw [h0]
    simp only [Nat.cast_zero, zero_div, add_zero, sub_self, abs_zero]
    positivity
  · split
    · rename_i h1
      refine ⟨fa, ?_⟩
      rw [h1, Nat.cast_one]
      refine ea.trans ?_
      have := mul_nonneg hu t0
      nlinarith
    · have hub : u ≤ 1 / 10 ^ 15 := hu'.trans (by norm_num)
      obtain ⟨fq, eq⟩ := affinePoint h hu hu' hΩ hη ft fb bt (c := |val t| + 1/50) (by linarith)
        (by nlinarith) eb i hi
      refine ⟨fq, eq.trans ?_⟩
      rw [mul_assoc]
      refine mul_le_mul_of_nonneg_left ?_ hu
      nlinarith [mul_nonneg i0 t0]

theorem tPoint (h : Rounds fin val u Ω η) (hu : 0 ≤ u) (hu' : u ≤ 1 / 2 ^ 50) (hΩ : 10 ^ 13 ≤ Ω)
    (hη : η ≤ 1 / 10 ^ 9) {t : K} (ft : fin t) (bt : |val t| ≤ 10 ^ 9) (i : ℕ) (hi : i ≤ 10 ^ 12) :
    fin (t + lit (i : ℤ) 1 * (dtc : K)) ∧
    |val (t + lit (i : ℤ) 1 * (dtc : K)) - (val t + i / 1000)| ≤ u * (|val t| + i / 50) := by
  have i0 : (0:ℝ) ≤ i := Nat.cast_nonneg i
  have hub : u ≤ 1 / 10 ^ 15 := hu'.trans (by norm_num)
  obtain ⟨fd, ed⟩ := dt h (by linarith) (by linarith)
  obtain ⟨fq, eq⟩ := affinePoint h hu hu' hΩ hη ft fd bt (c := 1/1000) (by norm_num)
    (by nlinarith) (by rw [mul_comm]; exact ed) i hi
  refine ⟨fq, eq.trans (mul_le_mul_of_nonneg_left ?_ hu)⟩
  linarith

end Rounds
end DPFC
