import Verif.Lib.KuramotoModel
import Verif.Props.Kuramoto

/-!
# C77, C78: the Kuramoto drift and the synchronisation constraint
-/

namespace DPFC
open Spec

variable {ρ : Type} {N M d : ℕ}

/-- **C77** (the drift). The drift of the script, called with a state or an ensemble, is the Kuramoto vector field
`w_j + (K/d) sum_i sin(x_i - x_j)` of every particle. -/
theorem C77_kuramoto (w : Fin d → ℝ) (κ t : ℝ) (x : Fin d → ℝ) (X : Fin d → Fin N → ℝ) :
    kuraDrift w κ x = kuramoto w κ x ∧ ∀ j n, kuraDriftE w κ X t j n = kuramoto w κ (fun a => X a n) j :=
  ⟨kuraDrift_real w κ x, fun j n => by unfold kuraDriftE; rw [kuraDrift_real]⟩

/-- **C77** (a function of angles). Changing phases by multiples of `2π` does not change the drift. -/
theorem C77_angles (w : Fin d → ℝ) (κ : ℝ) (x y : Fin d → ℝ) (h : ∀ j, SameAngle (x j) (y j)) :
    kuraDrift w κ y = kuraDrift w κ x := by
  rw [kuraDrift_real, kuraDrift_real, kuramoto_congr w κ h]

/-- **C77** (rotation). Rotating all oscillators by the same angle does not change the drift. -/
theorem C77_rotation (w : Fin d → ℝ) (κ θ : ℝ) (x : Fin d → ℝ) :
    kuraDrift w κ (fun j => x j + θ) = kuraDrift w κ x := by
  rw [kuraDrift_real, kuraDrift_real]
  funext j
  unfold kuramoto
  simp only [add_sub_add_right_eq_sub]

/-- **C77** (permutation). Renumbering the oscillators (phases and frequencies) renumbers the drift. -/
theorem C77_permutation (w : Fin d → ℝ) (κ : ℝ) (x : Fin d → ℝ) (σ : Equiv.Perm (Fin d)) (j : Fin d) :
    kuraDrift (fun i => w (σ i)) κ (fun i => x (σ i)) j = kuraDrift w κ x (σ j) := by
  rw [kuraDrift_real, kuraDrift_real]
  unfold kuramoto
  rw [Equiv.sum_comp σ fun i => Real.sin (x i - x (σ j))]

/-- **C77** (mean field). The coupling of every oscillator is `K R sin(ψ - x_j)` with the order parameter `R` and one
common mean phase `ψ`; in particular it is at most `|K| R`. -/
theorem C77_mean_field (hd : 0 < d) (w : Fin d → ℝ) (κ : ℝ) (x : Fin d → ℝ) :
    (∃ ψ : ℝ, ∀ j, kuraDrift w κ x j = w j + κ * orderR x * Real.sin (ψ - x j)) ∧
    ∀ j, |kuraDrift w κ x j - w j| ≤ |κ| * orderR x := by
  have hd' : (d : ℝ) ≠ 0 := by positivity
  obtain ⟨ψ, h⟩ := kuramoto_meanfield hd x
  have key : ∀ j, kuraDrift w κ x j = w j + κ * orderR x * Real.sin (ψ - x j) := by
    intro j
    rw [kuraDrift_real]
    unfold kuramoto
    rw [h j]
    field_simp
  refine ⟨⟨ψ, key⟩, fun j => ?_⟩
  rw [key, add_sub_cancel_left, abs_mul, abs_mul, abs_of_nonneg (orderR_nonneg x)]
  exact mul_le_of_le_one_right (mul_nonneg (abs_nonneg _) (orderR_nonneg x)) (Real.abs_sin_le_one _)

/-- **C77** (gradient). The coupling is the gradient of `(K d / 2) R^2`: the uncontrolled interaction increases the
synchronisation the constraint rewards (for `K > 0`). -/
theorem C77_gradient (hd : 0 < d) (w : Fin d → ℝ) (κ : ℝ) (x : Fin d → ℝ) (j : Fin d) :
    HasDerivAt (fun s => κ * d / 2 * orderR (Function.update x j s)^2) (kuraDrift w κ x j - w j) (x j) := by
  rw [kuraDrift_real]
  unfold kuramoto
  rw [add_sub_cancel_left]
  exact kuramoto_deriv hd κ x j

/-- **C77** (mean frequency). The sum of the drift over the oscillators is the sum of the frequencies. -/
theorem C77_mean_frequency (w : Fin d → ℝ) (κ : ℝ) (x : Fin d → ℝ) : ∑ j, kuraDrift w κ x j = ∑ j, w j := by
  rw [kuraDrift_real, kuramoto_sum]

/-- **C77** (synchronised state). If all phases are the same angle, every oscillator moves with its own frequency. -/
theorem C77_synchronised (w : Fin d → ℝ) (κ : ℝ) (x : Fin d → ℝ) (h : ∀ i j, SameAngle (x i) (x j)) :
    kuraDrift w κ x = w := by
  rw [kuraDrift_real]
  funext j
  unfold kuramoto
  rw [Finset.sum_eq_zero, mul_zero, add_zero]
  intro i _
  obtain ⟨m, hm⟩ := h i j
  rw [hm, show x i - (x i + 2 * Real.pi * m) = ((-m : ℤ) : ℝ) * (2 * Real.pi) by push_cast; ring]
  have := Real.sin_add_int_mul_two_pi 0 (-m)
  rw [zero_add, Real.sin_zero] at this
  exact this

theorem sum_split (d m : ℕ) (hm : m ≤ d) (q : ℝ) :
    ∑ j : Fin d, (if j.val < m then q else -q) = (2 * m - d) * q := by
  rw [Fin.sum_univ_eq_sum_range (fun j => if j < m then q else -q) d, Finset.sum_ite]
  have h1 : (Finset.range d).filter (· < m) = Finset.range m := by
    ext j; simp; omega
  have h2 : (Finset.range d).filter (fun j => ¬ j < m) = Finset.Ico m d := by
    ext j; simp; omega
  rw [h1, h2]
  simp only [Finset.sum_const, Finset.card_range, Nat.card_Ico, nsmul_eq_mul]
  rw [Nat.cast_sub hm]
  ring

/-- **C77** (bimodal frequencies). The script's frequencies are `+freq` or `-freq`; for an even number of oscillators
their sum is zero, for an odd number one of the two groups is larger by one. -/
theorem C77_frequencies (q : ℝ) :
    (∀ j : Fin d, kuraWs q j = q ∨ kuraWs q j = -q) ∧
    (d % 2 = 0 → ∑ j : Fin d, kuraWs q j = 0) ∧
    (d % 4 = 1 → ∑ j : Fin d, kuraWs q j = -q) ∧
    (d % 4 = 3 → ∑ j : Fin d, kuraWs q j = q) := by
  refine ⟨fun j => ?_, fun h => ?_, fun h => ?_, fun h => ?_⟩
  · unfold kuraWs
    split
    · exact .inl rfl
    · exact .inr rfl
  all_goals
    unfold kuraWs
    have hr : roundHalf d = if d % 2 = 0 then d / 2 else if d / 2 % 2 = 0 then d / 2 else d / 2 + 1 := rfl
    rw [sum_split d (roundHalf d) (by rw [hr]; split_ifs <;> omega)]
  · have : d = 2 * roundHalf d := by rw [hr, if_pos h]; omega
    have : (d : ℝ) = 2 * roundHalf d := by exact_mod_cast this
    rw [this]; ring
  · have : d = 2 * roundHalf d + 1 := by rw [hr, if_neg (by omega), if_pos (by omega)]; omega
    have : (d : ℝ) = 2 * roundHalf d + 1 := by exact_mod_cast this
    rw [this]; ring
  · have : d + 1 = 2 * roundHalf d := by rw [hr, if_neg (by omega), if_neg (by omega)]; omega
    have : (d : ℝ) + 1 = 2 * roundHalf d := by exact_mod_cast this
    rw [← this]; ring

/-- **C78** (order parameter). `R_t(x)` is the modulus of the mean of the points `exp(i x_j)`, lies in `[0, 1]` and is 1
exactly for synchronised oscillators. -/
theorem C78_order (hd : 0 < d) (x : Fin d → ℝ) :
    orderParam x = orderR x ∧ 0 ≤ orderParam x ∧ orderParam x ≤ 1 ∧
    (orderParam x = 1 ↔ ∀ i j, SameAngle (x i) (x j)) := by
  rw [orderParam_real]
  exact ⟨rfl, orderR_nonneg x, orderR_le_one x, orderR_eq_one_iff hd x⟩

/-- **C78** (invariance). The order parameter depends only on the angles, and does not change under common rotations
and renumbering. -/
theorem C78_invariance (x y : Fin d → ℝ) (θ : ℝ) (σ : Equiv.Perm (Fin d)) :
    ((∀ j, SameAngle (x j) (y j)) → orderParam y = orderParam x) ∧
    orderParam (fun j => x j + θ) = orderParam x ∧ orderParam (fun j => x (σ j)) = orderParam x := by
  simp only [orderParam_real]
  exact ⟨orderR_congr, orderR_rotate x θ, orderR_perm x σ⟩

/-- **C78** (constraint). The constraint of a particle is its order parameter minus one: in `[-1, 0]`, zero exactly for
a synchronised particle. -/
theorem C78_constraint (hd : 0 < d) (X : Fin d → Fin N → ℝ) (n : Fin N) :
    kuraU X n = orderR (fun a => X a n) - 1 ∧ -1 ≤ kuraU X n ∧ kuraU X n ≤ 0 ∧
    (kuraU X n = 0 ↔ ∀ i j, SameAngle (X i n) (X j n)) := by
  have e : kuraU X n = orderR (fun a => X a n) - 1 := by
    unfold kuraU
    rw [orderParam_real]
    simp
  rw [e]
  refine ⟨rfl, by linarith [orderR_nonneg fun a => X a n], by linarith [orderR_le_one fun a => X a n], ?_⟩
  rw [sub_eq_zero]
  exact orderR_eq_one_iff hd _

/-- **C78** (weights). The weights used for the reweighting in the script differ from the uniform ones by at most a
factor `e`, and a particle gets a larger weight than another exactly if it is better synchronised. -/
theorem C78_weights (hd : 0 < d) (X : Fin d → Fin N → ℝ) (n : Fin N) :
    1 / (Real.exp 1 * N) ≤ softmax (kuraU X) n ∧ softmax (kuraU X) n ≤ Real.exp 1 / N ∧
    ∀ m, softmax (kuraU X) n ≤ softmax (kuraU X) m ↔ orderR (fun a => X a n) ≤ orderR (fun a => X a m) := by
  have hN : (0:ℝ) < N := by exact_mod_cast n.pos
  haveI : Nonempty (Fin N) := ⟨n⟩
  have hb : ∀ m, Real.exp (-1) ≤ Real.exp (kuraU X m) ∧ Real.exp (kuraU X m) ≤ 1 := fun m =>
    ⟨Real.exp_le_exp.2 (C78_constraint hd X m).2.1, Real.exp_le_one_iff.2 (C78_constraint hd X m).2.2.1⟩
  have hS1 : ∑ m, Real.exp (kuraU X m) ≤ N := by
    calc _ ≤ ∑ _m : Fin N, (1:ℝ) := Finset.sum_le_sum fun m _ => (hb m).2
      _ = N := by simp
  have hS0 : N * Real.exp (-1) ≤ ∑ m, Real.exp (kuraU X m) := by
    calc N * Real.exp (-1) = ∑ _m : Fin N, Real.exp (-1) := by simp
      _ ≤ _ := Finset.sum_le_sum fun m _ => (hb m).1
  have hpos : 0 < ∑ m, Real.exp (kuraU X m) := Finset.sum_pos (fun _ _ => Real.exp_pos _) Finset.univ_nonempty
  have he := Real.exp_pos 1
  have hee : Real.exp (-1) * Real.exp 1 = 1 := by rw [← Real.exp_add]; simp
  refine ⟨?_, ?_, fun m => ?_⟩
  · unfold softmax
    rw [div_le_div_iff₀ (by positivity) hpos]
    calc 1 * ∑ m, Real.exp (kuraU X m) ≤ N := by rw [one_mul]; exact hS1
      _ = Real.exp (-1) * (Real.exp 1 * N) := by rw [← mul_assoc, hee, one_mul]
      _ ≤ _ := mul_le_mul_of_nonneg_right (hb n).1 (by positivity)
  · unfold softmax
    rw [div_le_div_iff₀ hpos hN]
    calc Real.exp (kuraU X n) * N ≤ N := mul_le_of_le_one_left hN.le (hb n).2
      _ = Real.exp 1 * (N * Real.exp (-1)) := by rw [mul_comm (N:ℝ), ← mul_assoc, mul_comm (Real.exp 1), hee, one_mul]
      _ ≤ _ := mul_le_mul_of_nonneg_left hS0 he.le
  · unfold softmax
    rw [div_le_div_iff_of_pos_right hpos, Real.exp_le_exp, (C78_constraint hd X n).1, (C78_constraint hd X m).1]
    exact sub_le_sub_iff_right 1

/-- **C78** (the forward flow of the script). In a returning construction of the script the forward flow moves every
particle with the Kuramoto vector field (noise in the first step, minus `g^2/2` times the score afterwards), reduces
the phases to `[0, 2π)`, and transports every new slice with log-weights `R - 1`. -/
theorem C78_script_flow (env : Env ρ ℝ) (t1 t2 h : ℝ) (y0 ws : Fin d → ℝ) (κ g : ℝ) (hN : 0 < N) (hd : 0 < d) (r r' : ρ)
    (o : PhaseObj d N ℝ) (ho : phaseConstruct env M (kuraCfg N t1 t2 h y0 ws κ g) r = .ok (o, r'))
    (h2 : 2 ≤ (phaseGrid t1 t2 h).length) :
    o.Z[0]? = some (gaussStart y0 g (pnormals env d N r)) ∧
    ∃ rs : ℕ → ρ, rs 0 = pnormalsNext env d N r ∧ ∀ i x y, o.Z[i]? = some x → o.Z[i+1]? = some y →
      ∃ raw : Fin d → Fin N → ℝ,
        (i = 0 → rs (i+1) = normalsNext env d N (rs i) ∧ raw = fun a n => phase (x a n
          + h * kuramoto ws κ (fun b => x b n) a + g * (Real.sqrt h * normals env d N (rs i) a n))) ∧
        (i ≠ 0 → rs (i+1) = unifsNext env d M (rs i) ∧ (Spread x → raw = fun a n => phase (x a n
          + h * (kuramoto ws κ (fun b => x b n) a - g^2/2 * cloudScore x
            (inducing (fun a => lo (x a)) (fun a => hi (x a)) (unifs env d M (rs i))) x a n)))) ∧
        PhaseTransportedTo env (fun n => orderR (fun a => raw a n) - 1) raw y := by
  obtain ⟨rsF, _, hrs, hF, _, _, _⟩ := C76_full_run env (kuraCfg N t1 t2 h y0 ws κ g) hN hd rfl r r' o ho h2 rfl
  obtain ⟨htg, hZl, _, hZ0, _⟩ := C75_ends env (kuraCfg N t1 t2 h y0 ws κ g) r r' o ho h2 rfl
  refine ⟨hZ0, rsF, hrs, fun i x y hx hy => ?_⟩
  have hg : phaseGrid (kuraCfg N t1 t2 h y0 ws κ g).t1 (kuraCfg N t1 t2 h y0 ws κ g).t2
      (kuraCfg N t1 t2 h y0 ws κ g).dt = phaseGrid t1 t2 h := rfl
  have hk : (kuraCfg N t1 t2 h y0 ws κ g).k = (phaseGrid t1 t2 h).length := rfl
  have hi := (List.getElem?_eq_some_iff.1 hy).1
  obtain ⟨raw, h0, h1, _, hT⟩ := hF i x y _ hx hy (List.getElem?_eq_getElem (by rw [htg, hg]; omega))
  obtain ⟨U, hU, hT⟩ := hT rfl
  have hf : ∀ t a n, (kuraCfg N t1 t2 h y0 ws κ g).f x t a n = kuramoto ws κ (fun b => x b n) a := fun t a n =>
    (C77_kuramoto ws κ t (fun b => x b n) x).2 a n
  refine ⟨raw, fun hi0 => ?_, fun hi0 => ?_, ?_⟩
  · obtain ⟨e1, e2⟩ := h0 hi0
    refine ⟨e1, e2.trans ?_⟩
    simp only [hf]
    rfl
  · obtain ⟨e1, e2⟩ := h1 hi0
    refine ⟨e1, fun hs => (e2 hs).trans ?_⟩
    simp only [hf]
    rfl
  · have : U raw = fun n => orderR (fun a => raw a n) - 1 := by
      have hU' : some (kuraU : Mat d N ℝ → Fin N → ℝ) = some U := hU
      cases hU'
      funext n
      exact (C78_constraint hd raw n).1
    rw [this] at hT
    exact hT

/-! ### Examples -/

/-- C77, C78: two oscillators in opposite phase have order parameter 0 and feel no coupling; two equal ones have order
parameter 1. -/
example : orderParam (fun j : Fin 2 => if j = 0 then 0 else Real.pi) = (0:ℝ) ∧
    orderParam (fun _ : Fin 2 => (1:ℝ)) = 1 := by
  constructor
  · rw [orderParam_real, orderR_eq]
    simp
  · exact (C78_order (by norm_num) _).2.2.2.2 fun i j => ⟨0, by simp⟩

/-- C77_synchronised: phases 1 and 1 + 2π. -/
example : ∀ i j : Fin 2, SameAngle ((fun j : Fin 2 => if j = 0 then 1 else 1 + 2 * Real.pi) i)
    ((fun j : Fin 2 => if j = 0 then 1 else 1 + 2 * Real.pi) j) := by
  intro i j
  fin_cases i <;> fin_cases j
  · exact ⟨0, by simp⟩
  · exact ⟨1, by simp⟩
  · exact ⟨-1, by simp⟩
  · exact ⟨0, by simp⟩

/-- C77: a drift that is not just the frequencies. -/
example : kuraDrift (fun _ : Fin 2 => (0:ℝ)) 2 (fun j => if j = 0 then 0 else Real.pi / 2) 0 = 1 := by
  rw [kuraDrift_real]
  simp [kuramoto, Fin.sum_univ_two]

/-- C78_script_flow: the run with 6 oscillators. -/
example : ∃ o r', phaseConstruct exEnv 4 (kuraCfg 5 0 (0 + (7:ℕ) * (1/1000)) (1/1000) (fun a : Fin 6 => 3 + a.val)
    (kuraWs (1/2)) 2 1) 0 = .ok (o, r') ∧ 2 ≤ (phaseGrid (0:ℝ) (0 + (7:ℕ) * (1/1000)) (1/1000)).length := by
  obtain ⟨o, r', h⟩ := exKura_runs 6 5 4 7 (by norm_num) (by norm_num) (by norm_num) 0
  refine ⟨o, r', h, ?_⟩
  have := phaseGrid_steps 0 (1/1000) (by norm_num) 7
  omega

end DPFC
