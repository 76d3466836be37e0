import Verif.Lib.MeasuresXR

/-!
# C101: the numbers reported about controlled runs

`u` is the stored array of controls (slices over time, one column per repetition), `F` the stored paths, `T > 0` the
duration and `dt > 0` the step. `csize u r t` is the Euclidean norm of the control of repetition `r` at time index `t`.
-/

namespace DPFC
open Spec
variable {d R : ℕ}

section
variable {T dt : ℝ} (hT : 0 < T) (hdt : 0 < dt)
include hT hdt

/-- **C101**. The reported control of a repetition is the squared sum over all stored times but the last of the
Euclidean norms of its controls, per step; it is never negative, and zero exactly if every control of the repetition is
zero at every time but the last. -/
theorem C101_control (u : Traj d R ℝ) (r : Fin R) :
    ctlAll T dt u r = (∑ t ∈ Finset.range (u.length - 1), csize u r t) ^ 2 / (T / dt) ∧
      0 ≤ ctlAll T dt u r ∧
      (ctlAll T dt u r = 0 ↔ ∀ t < u.length - 1, ∀ a, entry u t a r = 0) := by
  have hp := div_pos hT hdt
  refine ⟨ctlAll_real T dt u r, ?_, ?_⟩ <;> rw [ctlAll_real]
  · positivity
  · rw [div_eq_zero_iff, or_iff_left hp.ne', pow_eq_zero_iff two_ne_zero,
      Finset.sum_eq_zero_iff_of_nonneg fun t _ => csize_nonneg u r t]
    simp only [Finset.mem_range, csize_eq_zero]

/-- **C101**, comparison with the mean squared control `E` (the quantity named on the axis of the figures). The
reported number is at least `E` and at most `E` times the number of counted times. It equals `E` exactly if at most one
control is non-zero. -/
theorem C101_bounds (u : Traj d R ℝ) (r : Fin R) :
    (∑ t ∈ Finset.range (u.length - 1), ∑ a, entry u t a r ^ 2) / (T / dt) ≤ ctlAll T dt u r ∧
      ctlAll T dt u r ≤
        ((u.length - 1 : ℕ) : ℝ) * ((∑ t ∈ Finset.range (u.length - 1), ∑ a, entry u t a r ^ 2) / (T / dt)) ∧
      (ctlAll T dt u r = (∑ t ∈ Finset.range (u.length - 1), ∑ a, entry u t a r ^ 2) / (T / dt) ↔
        ∀ i < u.length - 1, ∀ j < u.length - 1, i ≠ j → (∀ a, entry u i a r = 0) ∨ ∀ a, entry u j a r = 0) := by
  have hp := div_pos hT hdt
  simp only [ctlAll_real, ← csize_sq, ← csize_eq_zero]
  refine ⟨?_, ?_, ?_⟩
  · gcongr
    exact Finset.sum_sq_le_sq_sum_of_nonneg fun t _ => csize_nonneg u r t
  · rw [← mul_div_assoc]
    gcongr
    have := sq_sum_le_card_mul_sum_sq (s := Finset.range (u.length - 1)) (f := csize u r)
    simpa using this
  · rw [div_left_inj' hp.ne']
    exact sq_sum_eq_iff _ _ (csize_nonneg u r)

/-- **C101**, the reported number reaches the upper bound of `C101_bounds` for controls of constant size `c`: over
`k - 1` counted times it is `(k - 1) (k - 1) c ^ 2` per step, where the mean squared control is `(k - 1) c ^ 2` per
step. -/
theorem C101_constant (u : Traj d R ℝ) (r : Fin R) (c : ℝ) (h : ∀ t < u.length - 1, csize u r t = c) :
    ctlAll T dt u r =
      ((u.length - 1 : ℕ) : ℝ) * ((∑ t ∈ Finset.range (u.length - 1), ∑ a, entry u t a r ^ 2) / (T / dt)) := by
  simp only [ctlAll_real, ← csize_sq]
  rw [Finset.sum_congr rfl fun t ht => h t (Finset.mem_range.1 ht),
    Finset.sum_congr rfl fun t ht => congrArg (· ^ 2) (h t (Finset.mem_range.1 ht))]
  simp only [Finset.sum_const, Finset.card_range, nsmul_eq_mul]
  ring

/-- **C101**, the two halves. For a midpoint before the last stored time the square roots of the two halves add up to
the square root of the whole, so the halves together never exceed the whole and are at least half of it. -/
theorem C101_halves (u : Traj d R ℝ) (r : Fin R) (midt : ℕ) (hm : midt < u.length) :
    √(ctlAll T dt u r) = √(ctlFirst T dt midt u r) + √(ctlSecond T dt midt u r) ∧
      ctlFirst T dt midt u r + ctlSecond T dt midt u r ≤ ctlAll T dt u r ∧
      ctlAll T dt u r ≤ 2 * (ctlFirst T dt midt u r + ctlSecond T dt midt u r) := by
  have hp := div_pos hT hdt
  have hs : ∑ t ∈ Finset.range (u.length - 1), csize u r t =
      ∑ t ∈ Finset.range midt, csize u r t + ∑ t ∈ Finset.range (u.length - 1 - midt), csize u r (midt + t) := by
    rw [← Finset.sum_range_add]
    congr 2
    omega
  have h1 : 0 ≤ ∑ t ∈ Finset.range midt, csize u r t := Finset.sum_nonneg fun t _ => csize_nonneg u r t
  have h2 : 0 ≤ ∑ t ∈ Finset.range (u.length - 1 - midt), csize u r (midt + t) :=
    Finset.sum_nonneg fun t _ => csize_nonneg u r _
  rw [ctlAll_real, ctlFirst_real, ctlSecond_real, min_eq_left hm.le, hs]
  generalize ∑ t ∈ Finset.range midt, csize u r t = A at h1
  generalize ∑ t ∈ Finset.range (u.length - 1 - midt), csize u r (midt + t) = B at h2
  refine ⟨?_, ?_, ?_⟩
  · rw [Real.sqrt_div' _ hp.le, Real.sqrt_div' _ hp.le, Real.sqrt_div' _ hp.le, Real.sqrt_sq h1, Real.sqrt_sq h2,
      Real.sqrt_sq (add_nonneg h1 h2), add_div]
  · rw [← add_div]
    gcongr
    nlinarith [mul_nonneg h1 h2]
  · rw [← add_div, ← mul_div_assoc]
    gcongr
    nlinarith [sq_nonneg (A - B)]

/-- **C101**, what the reported control depends on. If at every time but the last the controls of one run are at most as
large as those of another one with as many times, so is the reported number; in particular rotating the controls of a
repetition at each time, or changing the last one, changes nothing. -/
theorem C101_monotone (u v : Traj d R ℝ) (r : Fin R) (hl : u.length = v.length)
    (h : ∀ t < u.length - 1, csize u r t ≤ csize v r t) :
    ctlAll T dt u r ≤ ctlAll T dt v r := by
  have hp := div_pos hT hdt
  rw [ctlAll_real, ctlAll_real, ← hl]
  have h1 : 0 ≤ ∑ t ∈ Finset.range (u.length - 1), csize u r t := Finset.sum_nonneg fun t _ => csize_nonneg u r t
  gcongr with t ht
  exact h t (Finset.mem_range.1 ht)

omit hT hdt in
/-- **C101**, multiplying all controls of a repetition by `c` multiplies the reported number by `c ^ 2`. -/
theorem C101_scale (u v : Traj d R ℝ) (r : Fin R) (c : ℝ) (hl : u.length = v.length)
    (h : ∀ t < u.length - 1, ∀ a, entry v t a r = c * entry u t a r) :
    ctlAll T dt v r = c ^ 2 * ctlAll T dt u r := by
  have e : ∀ t ∈ Finset.range (u.length - 1), csize v r t = |c| * csize u r t := fun t ht => by
    simp only [csize, h t (Finset.mem_range.1 ht), mul_pow, ← Finset.mul_sum]
    rw [Real.sqrt_mul (sq_nonneg c), Real.sqrt_sq_eq_abs]
  rw [ctlAll_real, ctlAll_real, ← hl, Finset.sum_congr rfl e, ← Finset.mul_sum, mul_pow, sq_abs, mul_div_assoc]

/-- **C101**, the one-dimensional figures report the mean squared control instead: it is the lower bound of
`C101_bounds`, and zero for the same runs. -/
theorem C101_energy (u : Traj 1 R ℝ) (r : Fin R) :
    ctlEnergy T dt u r = (∑ t ∈ Finset.range (u.length - 1), entry u t 0 r ^ 2) / (T / dt) ∧
      ctlEnergy T dt u r ≤ ctlAll T dt u r ∧
      ctlAll T dt u r ≤ ((u.length - 1 : ℕ) : ℝ) * ctlEnergy T dt u r ∧
      (ctlEnergy T dt u r = 0 ↔ ctlAll T dt u r = 0) := by
  have hb := C101_bounds hT hdt u r
  simp only [Fin.sum_univ_one] at hb
  rw [← ctlEnergy_real] at hb
  refine ⟨ctlEnergy_real T dt u r, hb.1, hb.2.1, ?_⟩
  have h0 := (C101_control hT hdt u r).2.1
  have he : 0 ≤ ctlEnergy T dt u r := by
    rw [ctlEnergy_real]
    have := (div_pos hT hdt).le
    exact div_nonneg (Finset.sum_nonneg fun _ _ => sq_nonneg _) this
  constructor
  · intro e
    have := hb.2.1
    rw [e, mul_zero] at this
    exact le_antisymm this h0
  · intro e
    have := hb.1
    rw [e] at this
    exact le_antisymm this he

/-- **C101**, the path error counts the squared distances of the second coordinate to its target at all times but the
last: never negative, and zero exactly if that coordinate is on target at all those times. -/
theorem C101_path (y2 : Fin 2 → ℝ) (F : Traj 2 R ℝ) (r : Fin R) :
    pathError T dt y2 F r = (∑ t ∈ Finset.range (F.length - 1), (entry F t 1 r - y2 1) ^ 2) / (T / dt) ∧
      0 ≤ pathError T dt y2 F r ∧
      (pathError T dt y2 F r = 0 ↔ ∀ t < F.length - 1, entry F t 1 r = y2 1) := by
  have hp := div_pos hT hdt
  refine ⟨pathError_real T dt y2 F r, ?_, ?_⟩ <;> rw [pathError_real]
  · positivity
  · rw [div_eq_zero_iff, or_iff_left hp.ne', Finset.sum_eq_zero_iff_of_nonneg fun t _ => sq_nonneg _]
    simp only [Finset.mem_range, pow_eq_zero_iff two_ne_zero, sub_eq_zero]

end

/-- **C101**, the end error is the Euclidean distance of the last stored state to the target (an array without time
points gives an IndexError); it is zero exactly if the target is hit, whatever the states before. -/
theorem C101_end (y2 : Fin d → ℝ) (F : Traj d R ℝ) (r : Fin R) :
    (F = [] → endError y2 F r = .error .indexError) ∧
      ∀ F' x, F = F' ++ [x] → ∃ e, endError y2 F r = .ok e ∧ e = √(∑ a, (x a r - y2 a) ^ 2) ∧
        (e = 0 ↔ ∀ a, x a r = y2 a) := by
  constructor
  · rintro rfl
    rfl
  · rintro F' x rfl
    have hg : pyGet (F' ++ [x]) (-1) = .ok x := by
      simp [pyGet, pyIdx, bind, Except.bind]
    refine ⟨_, by rw [endError, hg]; rfl, ?_, ?_⟩
    · simp only [real_sqrt, real_sum, sq, pow_two]
    · simp only [real_sqrt, real_sum, sq]
      rw [Real.sqrt_eq_zero (Finset.sum_nonneg fun _ _ => mul_self_nonneg _),
        Finset.sum_eq_zero_iff_of_nonneg fun _ _ => mul_self_nonneg _]
      simp [sub_eq_zero]

section
variable (inv : {m : ℕ} → Mat m m XR → Except PyErr (Mat m m XR))
variable {T dt : ℝ} (hT : 0 < T) (hdt : 0 < dt)
include hT hdt

/-- **C101**, missing controls. With special values a NaN control counts as zero control: if no infinity occurs before
the last time, the reported number is that of the array with zeros in place of NaN. -/
theorem C101_nan (u : Traj d R XR) (r : Fin R) (h : ∀ m ∈ u.dropLast, ∀ a, NotInf (m a r)) :
    letI : NumOps XR := XR.ops inv
    ctlAll (.fin T) (.fin dt) u r = .fin (ctlAll T dt (u.map fun m a r => nanToZero (m a r)) r) := by
  have := xr_effort_fin inv hT hdt u.dropLast r h
  unfold ctlAll
  rw [this, List.map_dropLast]

/-- **C101**, an infinite control before the last time makes the reported number infinite, and the repetition is
dropped from the comparison. -/
theorem C101_infinite (u : Traj d R XR) (r : Fin R) (m) (hm : m ∈ u.dropLast) (a : Fin d)
    (h : m a r = .pinf ∨ m a r = .ninf) :
    letI : NumOps XR := XR.ops inv
    ctlAll (.fin T) (.fin dt) u r = .pinf ∧ kept (.fin T) (.fin dt) u r = false := by
  letI : NumOps XR := XR.ops inv
  have e : ctlAll (.fin T) (.fin dt) u r = .pinf := xr_effort_inf inv hT hdt u.dropLast r m hm a h
  refine ⟨e, ?_⟩
  rw [kept, e, Bool.eq_false_iff]
  exact fun c => (xr_ltB inv _ _).1 c

/-- **C101**, which repetitions the comparison keeps: exactly those without an infinite control before the last time
whose reported number, with NaN counted as zero, is below ten million. -/
theorem C101_kept (u : Traj d R XR) (r : Fin R) :
    letI : NumOps XR := XR.ops inv
    kept (.fin T) (.fin dt) u r = true ↔
      (∀ m ∈ u.dropLast, ∀ a, NotInf (m a r)) ∧
        ctlAll T dt (u.map fun m a r => nanToZero (m a r)) r < 10000000 := by
  letI : NumOps XR := XR.ops inv
  by_cases h : ∀ m ∈ u.dropLast, ∀ a, NotInf (m a r)
  · rw [kept, C101_nan inv hT hdt u r h]
    have e : (NumOps.ltB (XR.fin (ctlAll T dt (u.map fun m a r => nanToZero (m a r)) r)) (lit 10000000 1) = true) ↔
        ctlAll T dt (u.map fun m a r => nanToZero (m a r)) r < 10000000 := by
      refine (xr_ltB inv _ _).trans ?_
      show _ < ((10000000 : ℤ) : ℝ) / ((1 : ℕ) : ℝ) ↔ _
      norm_num
    rw [e]
    exact ⟨fun c => ⟨h, c⟩, fun c => c.2⟩
  · have h' := h
    simp only [not_forall, NotInf, not_and_or, not_not] at h
    obtain ⟨m, hm, a, ha⟩ := h
    rw [(C101_infinite inv hT hdt u r m hm a ha).2]
    simp only [Bool.false_eq_true, false_iff, not_and]
    exact fun c => absurd c h'

/-- **C101**, a repetition whose controls are all NaN is reported with zero control and kept; if its last state is NaN in
some coordinate, its end error is NaN. -/
theorem C101_lost_run (u F : Traj d R XR) (r : Fin R) (h : ∀ m ∈ u.dropLast, ∀ a, m a r = .nan)
    (F' : Traj d R XR) (x) (hF : F = F' ++ [x]) (a : Fin d) (hx : x a r = .nan) (y2 : Fin d → XR) :
    letI : NumOps XR := XR.ops inv
    ctlAll (.fin T) (.fin dt) u r = .fin 0 ∧ kept (.fin T) (.fin dt) u r = true ∧ endError y2 F r = .ok .nan := by
  letI : NumOps XR := XR.ops inv
  have hn : ∀ m ∈ u.dropLast, ∀ a, NotInf (m a r) := fun m hm a => by rw [h m hm a]; simp [NotInf]
  have hz : ctlAll T dt (u.map fun m a r => nanToZero (m a r)) r = 0 := by
    rw [(C101_control hT hdt _ r).2.2]
    intro t ht a
    rw [List.length_map] at ht
    have ht' : t < u.dropLast.length := by simpa using ht
    have := h _ (List.getElem_mem ht') a
    rw [List.getElem_dropLast] at this
    simp only [entry, List.getD, List.getElem?_map]
    rw [List.getElem?_eq_getElem (by omega : t < u.length)]
    simp [this, nanToZero]
  refine ⟨by rw [C101_nan inv hT hdt u r hn, hz], (C101_kept inv hT hdt u r).2 ⟨hn, by rw [hz]; norm_num⟩, ?_⟩
  subst hF
  have hg : pyGet (F' ++ [x]) (-1) = .ok x := by
    simp [pyGet, pyIdx, bind, Except.bind]
  rw [endError, hg]
  have e : (NumOps.sum fun a => sq (x a r - y2 a)) = XR.nan := by
    refine XR.sum_nan _ a ?_ _
    rw [hx]
    show sq (XR.nan + XR.neg (y2 a)) = XR.nan
    rw [XR.add_nan_left]
    rfl
  show Except.ok (NumOps.sqrt (NumOps.sum fun a => sq (x a r - y2 a))) = _
  rw [e]
  rfl
end

/-! Non-vacuity: two coordinates, one repetition, three times; norms 5, 2 and (not counted) 100. -/

/-- controls `(3, 4)`, `(0, -2)`, `(100, 0)` -/
def exCtl : Traj 2 1 ℝ := [fun a _ => if a = 0 then 3 else 4, fun a _ => if a = 0 then 0 else -2,
  fun a _ => if a = 0 then 100 else 0]

example : csize exCtl 0 0 = 5 ∧ csize exCtl 0 1 = 2 := by
  constructor
  · rw [csize]
    simp only [entry, exCtl, Fin.sum_univ_two, List.getD, List.getElem?_cons_zero, Option.getD_some]
    rw [show (5 : ℝ) = √(5 ^ 2) by rw [Real.sqrt_sq (by norm_num)]]
    norm_num
  · rw [csize]
    simp only [entry, exCtl, Fin.sum_univ_two, List.getD, List.getElem?_cons_zero, List.getElem?_cons_succ,
      Option.getD_some]
    rw [show (2 : ℝ) = √(2 ^ 2) by rw [Real.sqrt_sq (by norm_num)]]
    norm_num

example : (1 : ℕ) < exCtl.length := by simp [exCtl]
example : ctlAll 1 1 exCtl 0 ≠ 0 := fun h => by
  have := (((C101_control one_pos one_pos exCtl 0).2.2).1 h) 0 (by simp [exCtl]) 0
  simp [entry, exCtl] at this

/-- a run lost at the first time -/
noncomputable def exLost : Traj 2 1 XR := [fun _ _ => .nan, fun _ _ => .nan, fun _ _ => .nan]

example : (∀ m ∈ exLost.dropLast, ∀ a, m a 0 = .nan) ∧ exLost = [fun _ _ => .nan, fun _ _ => .nan] ++ [fun _ _ => .nan] :=
  ⟨by intro m hm a; simp [exLost] at hm; subst hm; rfl, rfl⟩

end DPFC
