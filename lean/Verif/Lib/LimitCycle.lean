import Verif.Spec.LimitCycle
import Verif.Lib.LoopReal
import Verif.Lib.GridReal

/-! The reference path and the arguments of the limit-cycle scripts. -/

namespace DPFC
open Spec
variable {ρ : Type} {N M : ℕ}

theorem lcF_real {n : ℕ} (x : Mat 2 n ℝ) (a : Fin 2) (j : Fin n) :
    lcF x a j = if a = 0 then cycleX (x 0 j) (x 1 j) else cycleY (x 0 j) (x 1 j) := by
  unfold lcF cycleX cycleY
  simp only [real_lit_one, real_sq, pow_two]

/-- One step of the path. -/
noncomputable def refStep (env : Env ρ ℝ) (g : ℝ) (x : Mat 2 1 ℝ) : RandM ρ (Mat 2 1 ℝ) := do
  let xi ← normalVec env (NumOps.sqrt dtc) 2
  pure fun a j => x a j + dtc * lcF x a j + g * xi a

theorem refBody_step (env : Env ρ ℝ) (g : ℝ) (x0 : Fin 2 → ℝ) (ti : ℕ) (tt : ℝ) (F : Traj 2 1 ℝ) (x : Mat 2 1 ℝ)
    (h1 : 1 ≤ ti) (hF : ti < F.length) (hx : F[ti-1]? = some x) :
    refBody env g x0 ti tt F = (do let y ← refStep env g x; pure (F.set ti y)) := by
  have e : ((ti : Int) - 1) = ((ti - 1 : ℕ) : Int) := by omega
  have gx : pyGet F ((ti : Int) - 1) = .ok x := by
    rw [e, pyGet_nat F (by omega)]
    rw [List.getElem?_eq_getElem (by omega)] at hx
    rw [Option.some.inj hx]
  unfold refBody refStep
  rw [if_neg (by omega)]
  simp only [gx, setSlice_nat F hF, RandM.liftM_ok, pure_bind, bind_assoc]

theorem cyclePath_state (env : Env ρ ℝ) (g : ℝ) (x0 : Fin 2 → ℝ) (r : ρ) (i : ℕ) :
    cyclePath env g (x0 0) (x0 1) r i = (cycleState env g (x0 0) (x0 1) r i 0, cycleState env g (x0 0) (x0 1) r i 1,
      (cyclePath env g (x0 0) (x0 1) r i).2.2) := rfl

theorem refStep_path (env : Env ρ ℝ) (g : ℝ) (x0 : Fin 2 → ℝ) (r : ρ) (i : ℕ) :
    refStep env g (fun a _ => cycleState env g (x0 0) (x0 1) r i a) (cyclePath env g (x0 0) (x0 1) r i).2.2
      = .ok (fun a _ => cycleState env g (x0 0) (x0 1) r (i+1) a, (cyclePath env g (x0 0) (x0 1) r (i+1)).2.2) := by
  unfold refStep
  rw [RandM.bind_app]
  simp only [normalVec, drawVec, RandM.pure_app, dtc_real, real_sqrt, real_lit_zero, zero_add]
  congr 2
  funext a j
  rw [lcF_real]
  have h01 : (1 : Fin 2) ≠ 0 := by decide
  fin_cases a
  · simp [cycleState, cyclePath]
  · simp [cycleState, cyclePath]

theorem refChain (env : Env ρ ℝ) (g : ℝ) (x0 : Fin 2 → ℝ) (r : ρ) : ∀ (ts : List ℝ) (i : ℕ),
    chain (fun _ _ => refStep env g) (i+1) ts (fun a _ => cycleState env g (x0 0) (x0 1) r i a)
      (cyclePath env g (x0 0) (x0 1) r i).2.2
    = .ok ((List.range ts.length).map fun j => fun a _ => cycleState env g (x0 0) (x0 1) r (i + 1 + j) a,
        (cyclePath env g (x0 0) (x0 1) r (i + ts.length)).2.2) := by
  intro ts
  induction ts with
  | nil => intro i; rfl
  | cons t ts ih =>
    intro i
    simp only [chain]
    rw [RandM.bind_app, refStep_path]
    simp only
    rw [RandM.bind_app, ih (i+1)]
    simp only [RandM.pure_app, List.length_cons]
    rw [List.range_succ_eq_map, List.map_cons, List.map_map]
    have e1 : i + 1 + ts.length = i + (ts.length + 1) := by omega
    rw [e1]
    congr 3
    refine List.map_congr_left fun j _ => ?_
    simp only [Function.comp]
    funext a _
    congr 1
    omega

theorem refGrid_real (T : ℝ) : refGrid T = (List.range ⌈1000 * T⌉₊).map fun i : ℕ => (i : ℝ) / 1000 := by
  have hd : (dtc : ℝ) = 1/1000 := by simp [dtc]
  unfold refGrid npArange
  have : (T - lit 0 1) / (dtc : ℝ) = 1000 * T := by rw [hd, real_lit_zero]; ring
  rw [this]
  simp only [real_ceilNat, hd]
  refine List.map_congr_left fun i _ => ?_
  unfold npArangePoint
  split
  · rename_i h; rw [h]; simp
  · split
    · rename_i h; rw [h]; simp
    · rw [real_lit_zero, real_lit_int, Int.cast_natCast]; ring

theorem refGrid_length (T : ℝ) : (refGrid T).length = ⌈1000 * T⌉₊ := by rw [refGrid_real]; simp

theorem cycleState_zero (env : Env ρ ℝ) (g : ℝ) (x0 : Fin 2 → ℝ) (r : ρ) :
    cycleState env g (x0 0) (x0 1) r 0 = x0 := by
  funext a
  fin_cases a <;> rfl

theorem refPath_real (env : Env ρ ℝ) (g : ℝ) (x0 : Fin 2 → ℝ) (T : ℝ) (r : ρ) :
    refPath env g x0 T r = .ok ((List.range ⌈1000 * T⌉₊).map fun j => fun a _ => cycleState env g (x0 0) (x0 1) r j a,
      (cyclePath env g (x0 0) (x0 1) r (⌈1000 * T⌉₊ - 1)).2.2) := by
  unfold refPath
  rw [← refGrid_length]
  cases hg : refGrid T with
  | nil => rfl
  | cons t ts =>
    simp only [enumLoop, List.length_cons]
    have h0 : refBody env g x0 0 t (zerosT 2 1 (ts.length + 1))
        = pure ((zerosT 2 1 (ts.length + 1)).set 0 fun a _ => x0 a) := by
      unfold refBody
      rw [if_pos rfl]
      have := setSlice_nat (zerosT 2 1 (ts.length + 1) : Traj 2 1 ℝ) (i := 0) (by simp [zerosT]) (S := fun a _ => x0 a)
      simp only [Nat.cast_zero] at this ⊢
      rw [this, RandM.liftM_ok]
    rw [h0, pure_bind]
    rw [enumLoop_chain (refBody env g x0) (fun _ _ => refStep env g)
      (fun ti tt Z x h1 h2 h3 => refBody_step env g x0 ti tt Z x h1 h2 h3) ts 1 _ (fun a _ => x0 a) le_rfl
      (by simp [zerosT]; omega) (by simp [zerosT])]
    have := refChain env g x0 r ts 0
    rw [cycleState_zero] at this
    rw [RandM.bind_app]
    have e : (cyclePath env g (x0 0) (x0 1) r 0).2.2 = r := rfl
    rw [e] at this
    rw [this]
    simp only [RandM.pure_app, zero_add, Nat.add_sub_cancel]
    congr 2
    rw [List.range_succ_eq_map, List.map_cons, List.map_map]
    have e2 : List.take 1 ((zerosT 2 1 (ts.length + 1)).set 0 fun a _ => x0 a) = [fun a (_ : Fin 1) => x0 a] := by
      simp [zerosT, List.replicate_succ]
    rw [e2, List.singleton_append]
    congr 1
    · funext a _
      rw [cycleState_zero]
    · refine List.map_congr_left fun j _ => ?_
      simp only [Function.comp, Nat.succ_eq_add_one, Nat.add_comm 1 j]

theorem lt_of_cast {n : ℕ} {T : ℝ} : n < ⌈1000 * T⌉₊ ↔ (n : ℝ) < 1000 * T := Nat.lt_ceil

/-- The arguments the script passes. -/
noncomputable def lcCall (env : Env ρ ℝ) (s : LcSetup ℝ) (r : ρ) : Cfg 2 N M ℝ :=
  lcCfg s.g (s.timeIx / 1000) (s.timeIx / 1000 + s.steps / 1000)
    (cycleState env s.g (s.x0 0) (s.x0 1) r s.stateIx) (cycleState env s.g (s.x0 0) (s.x0 1) r (s.stateIx + s.steps))

theorem pyGet_big {α : Type} (l : List α) (i : ℕ) (h : l.length ≤ i) : pyGet l (i : Int) = .error .indexError := by
  unfold pyGet pyIdx
  rw [if_pos (by omega), if_neg (by omega)]
  rfl

theorem lcArgs_real (env : Env ρ ℝ) (s : LcSetup ℝ) (r : ρ) (h : LongEnough s) :
    lcArgs (N := N) (M := M) s
      ((List.range ⌈1000 * s.T⌉₊).map fun j => fun a _ => cycleState env s.g (s.x0 0) (s.x0 1) r j a)
      = .ok (lcCall env s r) := by
  obtain ⟨h1, h2⟩ := h
  have g1 := lt_of_cast.2 h1
  have g2 := lt_of_cast.2 h2
  have e1 : ((s.timeIx : Int) + s.steps) = ((s.timeIx + s.steps : ℕ) : Int) := by push_cast; rfl
  have e2 : ((s.stateIx : Int) + s.steps) = ((s.stateIx + s.steps : ℕ) : Int) := by push_cast; rfl
  unfold lcArgs
  rw [e1, e2, pyGet_nat _ (by rw [refGrid_length]; omega), pyGet_nat _ (by rw [refGrid_length]; omega),
    pyGet_nat _ (by simp; omega), pyGet_nat _ (by simp; omega)]
  simp only [refGrid_real, List.getElem_map, List.getElem_range]
  have e3 : ((s.timeIx + s.steps : ℕ) : ℝ) / 1000 = s.timeIx / 1000 + s.steps / 1000 := by push_cast; ring
  rw [e3]
  rfl

theorem lcArgs_short (env : Env ρ ℝ) (s : LcSetup ℝ) (r : ρ) (h : ¬ LongEnough s) :
    lcArgs (N := N) (M := M) s
      ((List.range ⌈1000 * s.T⌉₊).map fun j => fun a _ => cycleState env s.g (s.x0 0) (s.x0 1) r j a)
      = .error .indexError := by
  have e1 : ((s.timeIx : Int) + s.steps) = ((s.timeIx + s.steps : ℕ) : Int) := by push_cast; rfl
  have e2 : ((s.stateIx : Int) + s.steps) = ((s.stateIx + s.steps : ℕ) : Int) := by push_cast; rfl
  unfold LongEnough at h
  rw [← lt_of_cast, ← lt_of_cast] at h
  unfold lcArgs
  rw [e1, e2]
  by_cases k1 : s.timeIx < ⌈1000 * s.T⌉₊
  · rw [pyGet_nat _ (by rw [refGrid_length]; omega)]
    by_cases k2 : s.timeIx + s.steps < ⌈1000 * s.T⌉₊
    · rw [pyGet_nat _ (by rw [refGrid_length]; omega)]
      have k3 : ⌈1000 * s.T⌉₊ ≤ s.stateIx + s.steps := by omega
      by_cases k4 : s.stateIx < ⌈1000 * s.T⌉₊
      · rw [pyGet_nat _ (by simp; omega), pyGet_big _ _ (by simpa using k3)]
        rfl
      · rw [pyGet_big _ s.stateIx (by simpa using k4)]
        rfl
    · rw [pyGet_big _ _ (by rw [refGrid_length]; omega)]
      rfl
  · rw [pyGet_big _ _ (by rw [refGrid_length]; omega)]
    rfl

theorem lcBridge_real (env : Env ρ ℝ) (s : LcSetup ℝ) (r : ρ) (h : LongEnough s) :
    lcBridge env N M s r = (match construct (N := N) (M := M) env (lcCall env s r)
        (cyclePath env s.g (s.x0 0) (s.x0 1) r (⌈1000 * s.T⌉₊ - 1)).2.2 with
      | .error e => .error e
      | .ok (o, r') => .ok (((List.range ⌈1000 * s.T⌉₊).map fun j => fun a _ =>
          cycleState env s.g (s.x0 0) (s.x0 1) r j a, o), r')) := by
  unfold lcBridge
  rw [RandM.bind_app, refPath_real]
  simp only
  rw [lcArgs_real env s r h, RandM.liftM_ok, pure_bind, RandM.bind_app]
  split <;> simp_all

theorem lcTorch_real (env : Env ρ ℝ) (s : LcSetup ℝ) (r : ρ) (h : LongEnough s) :
    lcTorch env N M s r = (match torchConstruct (N := N) (M := M) env (lcCall env s r)
        (cyclePath env s.g (s.x0 0) (s.x0 1) r (⌈1000 * s.T⌉₊ - 1)).2.2 with
      | .error e => .error e
      | .ok (o, r') => .ok (((List.range ⌈1000 * s.T⌉₊).map fun j => fun a _ =>
          cycleState env s.g (s.x0 0) (s.x0 1) r j a, o), r')) := by
  unfold lcTorch
  rw [RandM.bind_app, refPath_real]
  simp only
  rw [lcArgs_real env s r h, RandM.liftM_ok, pure_bind, RandM.bind_app]
  split <;> simp_all

/-! ### Without noise -/

/-- One step of the squared radius. -/
noncomputable def radStep (s : ℝ) : ℝ := s * ((1001/1000 - s/1000) ^ 2 + (1/1000) ^ 2)

theorem cycleR2_succ (env : Env ρ ℝ) (x y : ℝ) (r : ρ) (i : ℕ) :
    cycleR2 env 0 x y r (i+1) = radStep (cycleR2 env 0 x y r i) := by
  unfold cycleR2 radStep
  simp only [cyclePath, cycleX, cycleY]
  ring

theorem sqrt_bounds : 1 - 1/1000000 ≤ Real.sqrt (1 - (1/1000) ^ 2) ∧ Real.sqrt (1 - (1/1000) ^ 2) ≤ 1 - 1/2000000 := by
  constructor
  · apply Real.le_sqrt_of_sq_le; norm_num
  · apply Real.sqrt_le_iff.2; norm_num

theorem sqrt_sq' : Real.sqrt (1 - (1/1000) ^ 2) ^ 2 = 1 - (1/1000) ^ 2 := Real.sq_sqrt (by norm_num)

theorem cycleLimit_bounds : 1 + 1/2000 ≤ cycleLimit ∧ cycleLimit ≤ 1 + 1/1000 := by
  unfold cycleLimit
  obtain ⟨h1, h2⟩ := sqrt_bounds
  constructor <;> linarith

/-- Distance from the limit after one step. -/
theorem radStep_sub (s : ℝ) : radStep s - cycleLimit
    = (s - cycleLimit) * (1 - s/1000 * ((1001/1000 - s/1000) + Real.sqrt (1 - (1/1000) ^ 2))) := by
  unfold radStep cycleLimit
  have h := sqrt_sq'
  set q := Real.sqrt (1 - (1/1000) ^ 2)
  linear_combination s * h

theorem rad_inside {m s : ℝ} (hm : 0 < m) (hm1 : m ≤ 1) (h1 : m ≤ s) (h2 : s ≤ 300) :
    m ≤ radStep s ∧ radStep s ≤ 300 ∧ |radStep s - cycleLimit| ≤ (1 - m/625) * |s - cycleLimit| ∧
      (s ≤ cycleLimit → s ≤ radStep s ∧ radStep s ≤ cycleLimit) ∧ (cycleLimit ≤ s → cycleLimit ≤ radStep s ∧ radStep s ≤ s) := by
  obtain ⟨q1, q2⟩ := sqrt_bounds
  obtain ⟨c1, c2⟩ := cycleLimit_bounds
  have e := radStep_sub s
  set q := Real.sqrt (1 - (1/1000) ^ 2)
  set κ := 1 - s/1000 * ((1001/1000 - s/1000) + q) with hκ
  have k0 : 0 ≤ κ := by
    have : s/1000 * ((1001/1000 - s/1000) + q) ≤ s/1000 * (2001/1000) :=
      mul_le_mul_of_nonneg_left (by linarith) (by linarith)
    nlinarith
  have k1 : κ ≤ 1 - m/625 := by
    have : s/1000 * (16/10) ≤ s/1000 * ((1001/1000 - s/1000) + q) :=
      mul_le_mul_of_nonneg_left (by linarith) (by linarith)
    rw [hκ]; linarith
  have habs : |radStep s - cycleLimit| = κ * |s - cycleLimit| := by
    rw [e, abs_mul, abs_of_nonneg k0, mul_comm]
  have hle : (s ≤ cycleLimit → s ≤ radStep s ∧ radStep s ≤ cycleLimit) := by
    intro hs
    have : (s - cycleLimit) * κ ≤ 0 := mul_nonpos_of_nonpos_of_nonneg (by linarith) k0
    have h' : (s - cycleLimit) ≤ (s - cycleLimit) * κ := by nlinarith
    constructor <;> linarith
  have hge : (cycleLimit ≤ s → cycleLimit ≤ radStep s ∧ radStep s ≤ s) := by
    intro hs
    have : 0 ≤ (s - cycleLimit) * κ := mul_nonneg (by linarith) k0
    have h' : (s - cycleLimit) * κ ≤ (s - cycleLimit) := by nlinarith
    constructor <;> linarith
  refine ⟨?_, ?_, ?_, hle, hge⟩
  · rcases le_total s cycleLimit with hs | hs
    · exact h1.trans (hle hs).1
    · linarith [(hge hs).1]
  · rcases le_total s cycleLimit with hs | hs
    · linarith [(hle hs).2]
    · exact (hge hs).2.trans h2
  · rw [habs]
    exact mul_le_mul_of_nonneg_right k1 (abs_nonneg _)

theorem rad_outside {s : ℝ} (h : 2002 ≤ s) : 1002/1000 * s ≤ radStep s := by
  unfold radStep
  have : (1002:ℝ)/1000 ≤ (1001/1000 - s/1000) ^ 2 + (1/1000) ^ 2 := by nlinarith
  nlinarith

end DPFC
