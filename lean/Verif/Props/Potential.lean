import Verif.Lib.Potential
import Verif.Props.Symmetry

/-!
# C100: the conservative example systems
-/

namespace DPFC
open Spec Filter Topology

/-- **C100**, double well. The drift is minus the derivative of the plotted potential; it vanishes exactly at -1, 0 and
1; the potential is at least -1 everywhere, with equality exactly at -1 and 1, and between the wells it has its highest
value 0 exactly at 0. -/
theorem C100_double_well (x : ℝ) :
    HasDerivAt (dwV : ℝ → ℝ) (-(dwF x)) x ∧
      (dwF x = 0 ↔ x = -1 ∨ x = 0 ∨ x = 1) ∧
      -1 ≤ dwV x ∧ (dwV x = -1 ↔ x = -1 ∨ x = 1) ∧
      (|x| ≤ 1 → dwV x ≤ 0 ∧ (dwV x = 0 ↔ x = 0)) := by
  refine ⟨?_, ?_, ?_, ?_, ?_⟩
  · have e : (dwV : ℝ → ℝ) = fun x => (x ^ 2 - 1) ^ 2 - 1 := funext dwV_real
    rw [e, dwF_real]
    have h := ((((hasDerivAt_id x).pow 2).sub_const 1).pow 2).sub_const 1
    refine h.congr_deriv ?_
    simp
    ring
  · rw [dwF_real]
    constructor
    · intro h
      rcases mul_eq_zero.1 h with h | h
      · rcases mul_eq_zero.1 h with h | h
        · exact .inr (.inl (by linarith))
        · exact .inr (.inr (by linarith))
      · exact .inl (by linarith)
    · rintro (rfl | rfl | rfl) <;> norm_num
  · rw [dwV_real]
    nlinarith [sq_nonneg (x ^ 2 - 1)]
  · rw [dwV_real]
    constructor
    · intro h
      have h1 : (x ^ 2 - 1) ^ 2 = 0 := by linarith
      have h2 : (x - 1) * (x + 1) = 0 := by nlinarith [pow_eq_zero_iff (two_ne_zero) |>.1 h1]
      rcases mul_eq_zero.1 h2 with h | h
      · exact .inr (by linarith)
      · exact .inl (by linarith)
    · rintro (rfl | rfl) <;> norm_num
  · intro h
    have h1 : x ^ 2 ≤ 1 := by
      rw [← sq_abs]
      nlinarith [abs_nonneg x]
    rw [dwV_real]
    have h0 := sq_nonneg x
    refine ⟨by nlinarith, ?_, ?_⟩
    · intro e
      have h2 : x ^ 2 * (2 - x ^ 2) = 0 := by nlinarith
      rcases mul_eq_zero.1 h2 with h | h
      · exact pow_eq_zero_iff two_ne_zero |>.1 h
      · nlinarith
    · rintro rfl
      norm_num

/-- **C100**, double well: without noise, and with the library's step 0.001, the potential goes down in every Euler step
that starts in `[-10, 10]` outside the three equilibria. -/
theorem C100_double_well_descent (x : ℝ) (h : |x| ≤ 10) (hx : x ≠ -1 ∧ x ≠ 0 ∧ x ≠ 1) :
    dwV (x + 1 / 1000 * dwF x) < dwV x := by
  have hf : dwF x ≠ 0 := fun e => by
    rcases (C100_double_well x).2.1.1 e with e | e | e
    · exact hx.1 e
    · exact hx.2.1 e
    · exact hx.2.2 e
  have := dwV_step x (1 / 1000)
  have hp : 0 < 1 / 1000 * dwF x ^ 2 := by positivity
  nlinarith [mul_neg_of_pos_of_neg hp (dwV_factor h)]

/-- **C100**, double well: noise-free Euler paths never change wells. From a start in `(0, 10]` they converge to 1, from
`[-10, 0)` to -1, and from 0 they do not move; on the way they keep their sign. -/
theorem C100_double_well_basins (x0 : ℝ) :
    (0 < x0 → x0 ≤ 10 → Tendsto (eulerIter dwF x0) atTop (𝓝 1) ∧ ∀ n, 0 < eulerIter dwF x0 n) ∧
      (x0 < 0 → -10 ≤ x0 → Tendsto (eulerIter dwF x0) atTop (𝓝 (-1)) ∧ ∀ n, eulerIter dwF x0 n < 0) ∧
      (x0 = 0 → ∀ n, eulerIter dwF x0 n = 0) := by
  have pos : ∀ x0 : ℝ, 0 < x0 → x0 ≤ 10 → ∀ n, 0 < eulerIter dwF x0 n ∧ eulerIter dwF x0 n ≤ 10 := by
    intro x0 h0 h1 n
    induction n with
    | zero => exact ⟨h0, h1⟩
    | succ n ih =>
      rcases le_total (eulerIter dwF x0 n) 1 with h | h
      · have := euler_step_inner ih.1 h
        exact ⟨ih.1.trans_le this.1, this.2.trans (by norm_num)⟩
      · have := euler_step_outer h ih.2
        exact ⟨one_pos.trans_le this.1, this.2.trans ih.2⟩
  refine ⟨fun h0 h1 => ⟨euler_pos_limit h0 h1, fun n => (pos x0 h0 h1 n).1⟩, fun h0 h1 => ?_, ?_⟩
  · have e : eulerIter dwF x0 = fun n => -eulerIter dwF (-x0) n := funext fun n => by
      rw [← euler_neg, neg_neg]
    refine ⟨?_, fun n => ?_⟩
    · rw [e]
      exact (euler_pos_limit (by linarith) (by linarith)).neg
    · rw [e]
      have := (pos (-x0) (by linarith) (by linarith) n).1
      simpa using this
  · rintro rfl n
    induction n with
    | zero => rfl
    | succ n ih => rw [eulerIter, ih, dwF_real]; norm_num

/-- The mirror image of a one-dimensional problem. -/
def mirror (N M : ℕ) : Symmetry 1 N M where
  sign _ := -1
  unit _ := .inr rfl
  coord := 1
  part := 1
  ind := 1

/-- **C100**, double well in the library (numpy, deterministic, no reweighting). The run from `-y1` to `-y2` with
mirrored random numbers returns the mirror image of both flows of the run from `y1` to `y2`. -/
theorem C100_double_well_mirror {ρ ρ' : Type} {N M : ℕ} (env : Env ρ ℝ) (env' : Env ρ' ℝ) (R : ρ → ρ' → Prop)
    (hR : (mirror N M).Coupled env env' R) (c : Cfg 1 N M ℝ) (hf : c.f = dwDrift) (hN : 0 < N)
    (hdet : c.deterministic = true) (hw : c.reweight = false) (hk : c.kern = "RBF" ∨ c.kern = "periodic")
    (r r1 : ρ) (r' : ρ') (hr : R r r') (o : Obj 1 N M ℝ) (h : construct env c r = .ok (o, r1))
    (h2 : 2 ≤ o.timegrid.length)
    (sZ : ∀ j x, 1 ≤ j → o.Z[j]? = some x → Spread x)
    (sB : ∀ j x, 2 ≤ j → j + 1 < o.timegrid.length → o.B[j]? = some x → Spread x) :
    ∃ (o' : Obj 1 N M ℝ) (r1' : ρ'),
      construct env' ({ c with y1 := fun a => -(c.y1 a), y2 := fun a => -(c.y2 a) } : Cfg 1 N M ℝ) r' = .ok (o', r1') ∧
      R r1 r1' ∧ o'.Z = o.Z.map (fun x a n => -(x a n)) ∧ o'.B = o.B.map fun x a n => -(x a n) := by
  have cloud : ∀ x : Mat 1 N ℝ, (mirror N M).cloud x = fun a n => -(x a n) := fun x => by
    funext a n
    simp [Symmetry.cloud, mirror]
  have point : ∀ x : Fin 1 → ℝ, (mirror N M).point x = fun a => -(x a) := fun x => by
    funext a
    simp [Symmetry.point, mirror]
  have hc : (mirror N M).Poses c { c with y1 := fun a => -(c.y1 a), y2 := fun a => -(c.y2 a) } := by
    refine ⟨by simp only [point], fun x t => ?_⟩
    simp only [cloud, hf]
    funext a n
    exact dwF_neg _
  obtain ⟨o', r1', h', hr1, -, hZ, hB⟩ := C70_numpy_symmetry (mirror N M) env env' R hR c _ hc hN one_pos hdet hw hk r r1 r'
    hr o h h2 sZ sB
  refine ⟨o', r1', h', hr1, ?_, ?_⟩
  · rw [hZ]
    exact List.map_congr_left fun x _ => cloud x
  · rw [hB]
    exact List.map_congr_left fun x _ => cloud x

/-- **C100**, planar system. For every `b` the drift is minus the gradient of `(1 - x)^2 + b (y - x^2)^2`; for `b > 0`
that potential is positive except at (1, 1), the only equilibrium. -/
theorem C100_banana (b : ℝ) :
    GradientSystem (fun p a => rosF (n := 1) b (fun c _ => p c) a 0) (bananaPotential b) ∧
      (b ≠ 0 → ∀ p : Mat 2 1 ℝ, rosF b p = (fun _ _ => 0) ↔ p = fun _ _ => 1) ∧
      (0 < b → ∀ p, 0 ≤ bananaPotential b p ∧ (bananaPotential b p = 0 ↔ p = fun _ => 1)) := by
  refine ⟨?_, ?_, ?_⟩
  · intro p a
    fin_cases a
    · show HasDerivAt _ (-(rosF (n := 1) b (fun c _ => p c) 0 0)) (p 0)
      rw [rosF_zero]
      have e : (fun s => bananaPotential b (Function.update p 0 s)) = fun s => (1 - s) ^ 2 + b * (p 1 - s ^ 2) ^ 2 := by
        funext s
        simp [bananaPotential]
      show HasDerivAt (fun s => bananaPotential b (Function.update p 0 s)) _ _
      rw [e]
      have h := ((hasDerivAt_id (p 0)).const_sub 1 |>.pow 2).add
        ((((hasDerivAt_id (p 0)).pow 2).const_sub (p 1) |>.pow 2).const_mul b)
      refine h.congr_deriv ?_
      simp
      ring
    · show HasDerivAt _ (-(rosF (n := 1) b (fun c _ => p c) 1 0)) (p 1)
      rw [rosF_one]
      have e : (fun s => bananaPotential b (Function.update p 1 s)) =
          fun s => (1 - p 0) ^ 2 + b * (s - p 0 ^ 2) ^ 2 := by
        funext s
        simp [bananaPotential]
      show HasDerivAt (fun s => bananaPotential b (Function.update p 1 s)) _ _
      rw [e]
      have h := ((((hasDerivAt_id (p 1)).sub_const (p 0 ^ 2)).pow 2).const_mul b).const_add ((1 - p 0) ^ 2)
      refine h.congr_deriv ?_
      simp
      ring
  · intro hb p
    constructor
    · intro h
      have h0 := congrFun (congrFun h 0) 0
      have h1 := congrFun (congrFun h 1) 0
      rw [rosF_zero] at h0
      rw [rosF_one] at h1
      have h3 : p 1 0 = p 0 0 ^ 2 := by
        have : b * (p 1 0 - p 0 0 ^ 2) = 0 := by linarith
        rcases mul_eq_zero.1 this with h | h
        · exact absurd h hb
        · linarith
      rw [h3] at h0
      have h4 : p 0 0 = 1 := by nlinarith
      rw [h4] at h3
      funext a j
      rw [Subsingleton.elim j 0]
      fin_cases a
      · exact h4
      · simpa using h3
    · rintro rfl
      funext a j
      fin_cases a
      · show rosF b _ 0 j = 0
        rw [rosF_zero]
        ring
      · show rosF b _ 1 j = 0
        rw [rosF_one]
        ring
  · intro hb p
    refine ⟨by unfold bananaPotential; positivity, ?_, ?_⟩
    · intro h
      unfold bananaPotential at h
      have h1 := sq_nonneg (1 - p 0)
      have h2 := mul_nonneg hb.le (sq_nonneg (p 1 - p 0 ^ 2))
      have h3 : (1 - p 0) ^ 2 = 0 := by linarith
      have h4 : b * (p 1 - p 0 ^ 2) ^ 2 = 0 := by linarith
      have h5 : p 0 = 1 := by linarith [pow_eq_zero_iff two_ne_zero |>.1 h3]
      have h6 : p 1 - p 0 ^ 2 = 0 := by
        rcases mul_eq_zero.1 h4 with h | h
        · exact absurd h hb.ne'
        · exact pow_eq_zero_iff two_ne_zero |>.1 h
      funext a
      fin_cases a
      · exact h5
      · show p 1 = 1
        rw [h5] at h6
        linarith
    · rintro rfl
      simp [bananaPotential]

/-- **C100**, the path constraint of the planar system is never positive, zero exactly for particles on the line through
the target, and larger for particles closer to that line. -/
theorem C100_path_constraint {n : ℕ} (y2 : Fin 2 → ℝ) (x : Mat 2 n ℝ) (i j : Fin n) :
    rosU y2 x i ≤ 0 ∧ (rosU y2 x i = 0 ↔ x 1 i = y2 1) ∧
      (|x 1 i - y2 1| < |x 1 j - y2 1| ↔ rosU y2 x j < rosU y2 x i) := by
  simp only [rosU, sq]
  refine ⟨by nlinarith [mul_self_nonneg (x 1 i - y2 1)], ?_, ?_⟩
  · rw [neg_eq_zero, mul_self_eq_zero, sub_eq_zero]
  · rw [neg_lt_neg_iff, ← pow_two, ← pow_two, sq_lt_sq]

/-! Non-vacuity. -/

example : dwV ((2 : ℝ) + 1 / 1000 * dwF 2) < dwV (2 : ℝ) :=
  C100_double_well_descent 2 (by norm_num) (by norm_num)

example : Tendsto (eulerIter dwF (1 / 10)) atTop (𝓝 1) :=
  ((C100_double_well_basins (1 / 10)).1 (by norm_num) (by norm_num)).1

/-- The double well in the library: two particles, three inducing points, one noisy step from 1 towards 3. -/
noncomputable def exWell : Cfg 1 2 3 ℝ := { exCfg 1 2 3 1 true false false with f := dwDrift }

/-- All hypotheses of `C100_double_well_mirror` are met by the run of `exWell`. -/
example (r : ℕ) : ∃ (ρ' : Type) (env' : Env ρ' ℝ) (r' r1' : ρ') (o o' : Obj 1 2 3 ℝ) (r1 : ℕ),
    construct exEnv exWell r = .ok (o, r1) ∧
      construct env' ({ exWell with y1 := fun _ => -1, y2 := fun _ => -3 } : Cfg 1 2 3 ℝ) r' = .ok (o', r1') ∧
      o'.Z = o.Z.map (fun x a n => -(x a n)) ∧ o'.B = o.B.map fun x a n => -(x a n) := by
  obtain ⟨ρ', env', R, hR, hr⟩ := (C70_coupled_generator (mirror 2 3) one_pos two_pos three_pos exEnv).1
  obtain ⟨r', hr⟩ := hr r
  have hgl : (mkGrid exWell.t1 exWell.t2).length = 2 := exCfg_grid 1 2 3 1 true false false
  obtain ⟨o, r1, h⟩ := construct_det_total exEnv exWell two_pos rfl hgl.ge rfl (fun h => by cases h)
    (fun h => by cases h) r
  have hl : o.timegrid.length = 2 := by rw [(construct_fields h).2]; exact hgl
  have run := Lim.run_np two_pos one_pos rfl (.inl rfl) rfl h hl.ge
  have hz1 := run.z1 (by omega)
  obtain ⟨o', r1', h', -, hZ, hB⟩ := C100_double_well_mirror exEnv env' R hR exWell rfl two_pos rfl rfl (.inl rfl) r r1 r' hr
    o h hl.ge
    (fun j x hj hx a => by
      have hj2 : j < 2 := by rw [← hl, ← run.lenZ]; exact (List.getElem?_eq_some_iff.1 hx).1
      obtain rfl : j = 1 := by omega
      rw [Lim.sl_eq hx] at hz1
      rw [hz1]
      refine sdev_ne_zero (i := 0) (j := 1) ?_
      rw [Subsingleton.elim a 0]
      have e0 : normals exEnv 1 2 r 0 0 = r := rfl
      have e1 : normals exEnv 1 2 r 0 1 = ((r + 1 : ℕ) : ℝ) := rfl
      have hs : (0:ℝ) < √(1 / 1000) := by positivity
      simp only [noisy, e0, e1, run.z0]
      show ¬ (_ + _ * dwF _ + (1:ℝ) * _ = _ + _ * dwF _ + (1:ℝ) * _)
      push_cast
      intro e
      nlinarith)
    (fun j x h1 h2 => by omega)
  refine ⟨ρ', env', r', r1', o, o', r1, h, ?_, hZ, hB⟩
  have e1 : (fun a => -(exWell.y1 a)) = fun _ => (-1 : ℝ) := by
    funext a
    simp [exWell, exCfg]
  have e2 : (fun a => -(exWell.y2 a)) = fun _ => (-3 : ℝ) := by
    funext a
    simp [exWell, exCfg]
  rw [e1, e2] at h'
  exact h'

example : ∃ p : Mat 2 1 ℝ, rosF 1 p ≠ fun _ _ => 0 :=
  ⟨fun _ _ => 0, fun h => by
    have := ((C100_banana 1).2.1 one_ne_zero _).1 h
    have := congrFun (congrFun this 0) 0
    norm_num at this⟩

end DPFC
