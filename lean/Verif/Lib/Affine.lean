import Verif.Lib.Equiv
import Verif.Lib.ScoreLaws

/-! Single steps in the coordinates `s x + v`. -/

set_option linter.unusedSectionVars false

namespace DPFC
open Spec
section
variable {ρ : Type} {N M d : ℕ} {s : ℝ} {v : Fin d → ℝ}

theorem unmoved_moved (hs : 0 < s) (x : Mat d N ℝ) : unmoved s v (moved s v x) = x := by
  funext a n
  simp only [unmoved, moved]
  field_simp
  ring

theorem lo_moved (hs : 0 < s) (hN : 0 < N) (x : Mat d N ℝ) (a : Fin d) :
    lo (moved s v x a) = s * lo (x a) + v a := by
  haveI : Nonempty (Fin N) := ⟨⟨0, hN⟩⟩
  obtain ⟨i, hi⟩ := exists_eq_ciInf_of_finite (f := x a)
  refine le_antisymm ?_ (le_ciInf fun n => ?_)
  · have : lo (x a) = x a i := hi.symm
    rw [this]
    exact ciInf_le (Set.finite_range _).bddBelow i
  · have : lo (x a) ≤ x a n := ciInf_le (Set.finite_range _).bddBelow n
    have := mul_le_mul_of_nonneg_left this hs.le
    simp only [moved]; linarith

theorem hi_moved (hs : 0 < s) (hN : 0 < N) (x : Mat d N ℝ) (a : Fin d) :
    hi (moved s v x a) = s * hi (x a) + v a := by
  haveI : Nonempty (Fin N) := ⟨⟨0, hN⟩⟩
  obtain ⟨i, hi'⟩ := exists_eq_ciSup_of_finite (f := x a)
  refine le_antisymm (ciSup_le fun n => ?_) ?_
  · have : x a n ≤ hi (x a) := le_ciSup (Set.finite_range _).bddAbove n
    have := mul_le_mul_of_nonneg_left this hs.le
    simp only [moved]; linarith
  · have : hi (x a) = x a i := hi'.symm
    rw [this]
    exact le_ciSup (f := moved s v x a) (Set.finite_range _).bddAbove i

theorem avg_moved (hN : 0 < N) (x : Mat d N ℝ) (a : Fin d) :
    avg (moved s v x a) = s * avg (x a) + v a := by
  have hN' : (N:ℝ) ≠ 0 := by positivity
  simp only [avg, moved, Finset.sum_add_distrib, ← Finset.mul_sum, Finset.sum_const,
    Finset.card_univ, Fintype.card_fin, nsmul_eq_mul]
  field_simp

theorem sqdev_moved (hN : 0 < N) (x : Mat d N ℝ) (a : Fin d) :
    ∑ i, (moved s v x a i - avg (moved s v x a)) ^ 2 = s ^ 2 * ∑ i, (x a i - avg (x a)) ^ 2 := by
  rw [avg_moved hN, Finset.mul_sum]
  refine Finset.sum_congr rfl fun i _ => ?_
  simp only [moved]; ring

theorem sdev_moved (hs : 0 < s) (hN : 0 < N) (x : Mat d N ℝ) (a : Fin d) :
    sdev (moved s v x a) = s * sdev (x a) := by
  simp only [sdev, variance]
  rw [sqdev_moved hN, mul_div_assoc, Real.sqrt_mul (sq_nonneg s), Real.sqrt_sq hs.le]

theorem sampleSdev_moved (hs : 0 < s) (hN : 0 < N) (x : Mat d N ℝ) (a : Fin d) :
    sampleSdev (moved s v x a) = s * sampleSdev (x a) := by
  simp only [sampleSdev]
  rw [sqdev_moved hN, mul_div_assoc, Real.sqrt_mul (sq_nonneg s), Real.sqrt_sq hs.le]

theorem score_affine (hs : 0 < s) (C : ℝ) (l v : Fin d → ℝ) (X : Mat N d ℝ) (Z : Mat M d ℝ) (j : Fin d)
    (x : Fin d → ℝ) :
    score C (fun k => s * l k) (fun i k => s * X i k + v k) (fun i k => s * Z i k + v k) j
      (fun k => s * x k + v k) = score C l X Z j x / s := by
  rw [← score_scale C l X Z j x hs.ne',
    ← score_translate C (fun k => s * l k) v (fun i k => s * X i k) (fun i k => s * Z i k) j
      (fun k => s * x k)]

theorem cloudScore_moved (hs : 0 < s) (hN : 0 < N) (x y : Mat d N ℝ) (P : Fin M → Fin d → ℝ)
    (a : Fin d) (n : Fin N) :
    cloudScore (moved s v x) (fun m a => s * P m a + v a) (moved s v y) a n
      = cloudScore x P y a n / s := by
  unfold cloudScore
  rw [← score_affine hs]
  have : (fun k => 2 * sdev (moved s v x k)) = fun k => s * (2 * sdev (x k)) := by
    funext k; rw [sdev_moved hs hN]; ring
  rw [this]
  rfl

theorem inducing_moved (l h : Fin d → ℝ) (u : Fin d → Fin M → ℝ) :
    inducing (fun a => s * l a + v a) (fun a => s * h a + v a) u
      = fun m a => s * inducing l h u m a + v a := by
  funext m a
  simp only [inducing]; ring

theorem max_affine (hs : 0 < s) (x y c : ℝ) : max (s * x + c) (s * y + c) = s * max x y + c := by
  rw [max_add_add_right, ← mul_max_of_nonneg _ _ hs.le]

theorem min_affine (hs : 0 < s) (x y c : ℝ) : min (s * x + c) (s * y + c) = s * min x y + c := by
  rw [min_add_add_right, ← mul_min_of_nonneg _ _ hs.le]

theorem scoreAtParticles_moved (pl : Bool) (env : Env ρ ℝ) (hs : 0 < s) (hN : 0 < N) (x : Mat d N ℝ) :
    scoreAtParticles pl env M "RBF" (moved s v x)
      = (do let y ← scoreAtParticles pl env M "RBF" x; pure fun a n => y a n / s) := by
  funext r
  rw [RandM.bind_app, scoreAtParticles_real pl env hN, scoreAtParticles_real pl env hN]
  simp only [RandM.pure_app, lo_moved hs hN, hi_moved hs hN, inducing_moved]
  congr 2
  funext a n
  exact cloudScore_moved hs hN _ _ _ _ _

theorem densityAt_moved (env : Env ρ ℝ) (hs : 0 < s) (hN : 0 < N) (z b : Mat d N ℝ) :
    densityAt env M "RBF" (moved s v z) (moved s v b)
      = (do let y ← densityAt env M "RBF" z b; pure fun a n => y a n / s) := by
  funext r
  rw [RandM.bind_app, densityAt_real env hN, densityAt_real env hN]
  simp only [RandM.pure_app, lo_moved hs hN, hi_moved hs hN, max_affine hs, min_affine hs, inducing_moved]
  congr 2
  funext a n
  exact cloudScore_moved hs hN _ _ _ _ _

theorem bwDensityAt_moved (env : Env ρ ℝ) (hs : 0 < s) (hN : 0 < N) (z b : Mat d N ℝ) :
    bwDensityAt env M "RBF" (moved s v z) (moved s v b)
      = (do let y ← bwDensityAt env M "RBF" z b; pure fun a n => y a n / s) := by
  funext r
  rw [RandM.bind_app, bwDensityAt_real env hN, bwDensityAt_real env hN]
  simp only [RandM.pure_app, lo_moved hs hN, hi_moved hs hN, max_affine hs, min_affine hs, inducing_moved]
  congr 2
  funext a n
  exact cloudScore_moved hs hN _ _ _ _ _

theorem noisyStep_moved (env : Env ρ ℝ) (hs : 0 < s) (g : ℝ) (f : Drift d N ℝ) (x : Mat d N ℝ) (t : ℝ) :
    noisyStep env (s * g) (Drift.move s v f) (moved s v x) t
      = (do let y ← noisyStep env g f x t; pure (moved s v y)) := by
  funext r
  rw [RandM.bind_app, noisyStep_real, noisyStep_real]
  simp only [RandM.pure_app, Drift.move, unmoved_moved hs]
  congr 2
  funext a n
  simp only [moved]; ring

theorem ottoStep_moved (pl : Bool) (env : Env ρ ℝ) (hs : 0 < s) (hN : 0 < N) (g : ℝ) (f : Drift d N ℝ) (x : Mat d N ℝ)
    (t : ℝ) :
    ottoStep pl env M "RBF" (s * g) (Drift.move s v f) (moved s v x) t
      = (do let y ← ottoStep pl env M "RBF" g f x t; pure (moved s v y)) := by
  unfold ottoStep fSeperate
  rw [scoreAtParticles_moved pl env hs hN]
  simp only [bind_assoc, pure_bind]
  congr 1; funext y
  congr 1
  funext a n
  simp only [Drift.move, unmoved_moved hs, moved, real_sq]
  field_simp
  ring

theorem backStep_moved (env : Env ρ ℝ) (hs : 0 < s) (dens bw : Mat d N ℝ → Mat d N ℝ → RandM ρ (Mat d N ℝ))
    (hd : ∀ z b, dens (moved s v z) (moved s v b) = (do let y ← dens z b; pure fun a n => y a n / s))
    (hb : ∀ z b, bw (moved s v z) (moved s v b) = (do let y ← bw z b; pure fun a n => y a n / s))
    (f : Drift d N ℝ) (g : ℝ) (det : Bool) (i : ℕ) (zt : Mat d N ℝ × ℝ) (b : Mat d N ℝ) :
    backStep env dens bw (Drift.move s v f) (s * g) det i (Prod.map (moved s v) id zt) (moved s v b)
      = (do let y ← backStep env dens bw f g det i zt b; pure (moved s v y)) := by
  unfold backStep
  simp only [Prod.map, hd, hb, bind_assoc, pure_bind, id]
  congr 1; funext gro
  split
  · simp only [bind_assoc, pure_bind]
    congr 1; funext xi
    congr 1
    funext a n
    simp only [Drift.move, unmoved_moved hs, moved, real_sq]
    field_simp
    ring
  · simp only [bind_assoc, pure_bind]
    congr 1; funext grb
    congr 1
    funext a n
    simp only [Drift.move, unmoved_moved hs, moved, real_sq]
    field_simp
    ring

theorem seqM_map {α β : Type} (g : α → β) : ∀ (n : ℕ) (f : Fin n → RandM ρ α),
    seqM n (fun i => (do let y ← f i; pure (g y))) = (do let w ← seqM n f; pure fun i => g (w i))
  | 0, f => by
    simp only [seqM, pure_bind]
    congr 1; funext i; exact i.elim0
  | n+1, f => by
    simp only [seqM, bind_assoc, pure_bind, seqM_map g n]
    congr 1; funext a
    congr 1; funext w
    congr 1; funext i
    refine Fin.cases rfl (fun j => rfl) i

theorem stochRaw_moved (env : Env ρ ℝ) (hs : 0 < s) (c : Cfg d N M ℝ) (x : Mat d N ℝ) :
    stochRaw env (move s v c) (moved s v x)
      = (do let y ← stochRaw env c x; pure (moved s v y)) := by
  have hc : ∀ i, stochCol env (move s v c) (moved s v x) i
      = (do let p ← stochCol env c x i; pure fun a => s * p a + v a) := by
    intro i
    unfold stochCol
    simp only [move, Drift.move]
    cases c.f.call1 with
    | none => rfl
    | some f1 =>
      simp only [Option.map_some, bind_assoc, pure_bind]
      congr 1; funext xi
      congr 1; funext a
      have : (fun a => (moved s v x a i - v a) / s) = fun a => x a i := by
        funext a; simp only [moved]; field_simp; ring
      rw [this]
      simp only [moved]; ring
  unfold stochRaw
  rw [show stochCol env (move s v c) (moved s v x) = _ from funext hc, seqM_map]
  simp only [bind_assoc, pure_bind]
  rfl

/-! ### Reweighting -/

theorem coupling_col {n : ℕ} (env : Env ρ ℝ) (hN : 0 < n) (hv : v = 0 ∨ SolverCouples env)
    {w : Fin n → ℝ} (hw : IsProb w) {C T : Fin n → Fin n → ℝ}
    (hT : env.emd w (fun _ => 1 / (n:ℝ)) C = .ok T) (a : Fin d) (j : Fin n) :
    v a * ∑ m, T m j * n = v a := by
  rcases hv with rfl | hc
  · simp
  · have := (hc n _ _ _ T hw (uniform_prob hN) hT).2.2 j
    have hN' : (n:ℝ) ≠ 0 := by positivity
    rw [← Finset.sum_mul, this]
    field_simp

theorem reweightOT_moved (env : Env ρ ℝ) (hs : 0 < s) (hN : 0 < N) (hv : v = 0 ∨ SolverCouples env)
    (hsc : s = 1 ∨ SolverScaleFree env) (x : Mat d N ℝ) {w : Fin N → ℝ} (hw : IsProb w) :
    (do let T ← reweightOT env (tr (moved s v x)) w; Except.ok (mm (moved s v x) T))
      = (do let T ← reweightOT env (tr x) w; Except.ok (mm x T)).map (moved s v) := by
  unfold reweightOT
  simp only [bind_assoc, Except.ok_bind']
  have hC : (fun i j : Fin N => if i = j then (lit 0 1 : ℝ) else
        NumOps.sqrt (NumOps.sum fun k => sq (tr (moved s v x) i k - tr (moved s v x) j k)))
      = fun i j => s * (if i = j then (lit 0 1 : ℝ) else
        NumOps.sqrt (NumOps.sum fun k => sq (tr x i k - tr x j k))) := by
    funext i j
    by_cases h : i = j
    · simp [h]
    · simp only [if_neg h, real_sqrt, real_sum, real_sq, tr, moved]
      rw [show (∑ k, (s * x k i + v k - (s * x k j + v k)) ^ 2) = s^2 * ∑ k, (x k i - x k j)^2 by
        rw [Finset.mul_sum]; exact Finset.sum_congr rfl fun k _ => by ring]
      rw [Real.sqrt_mul (sq_nonneg s), Real.sqrt_sq hs.le]
  rw [hC]
  have he : ∀ C : Mat N N ℝ, env.emd w (fun _ => (lit 1 1 : ℝ) / lit N 1) (fun i j => s * C i j)
      = env.emd w (fun _ => (lit 1 1 : ℝ) / lit N 1) C := by
    intro C
    rcases hsc with rfl | hf
    · simp
    · exact hf N _ _ _ s hs
  rw [he]
  cases hT : env.emd w (fun _ => (lit 1 1 : ℝ) / lit N 1) (fun i j : Fin N => if i = j then (lit 0 1 : ℝ) else
        NumOps.sqrt (NumOps.sum fun k => sq (tr x i k - tr x j k))) with
  | error e => rfl
  | ok T =>
    change Except.ok _ = Except.ok _
    congr 1
    funext a n
    simp only [mm, moved, real_sum, real_lit_int]
    have := coupling_col (v := v) env hN hv hw (by simpa using hT) a n
    push_cast
    calc ∑ m, (s * x a m + v a) * (T m n * N)
        = s * ∑ m, x a m * (T m n * N) + v a * ∑ m, T m n * N := by
          rw [Finset.mul_sum, Finset.mul_sum, ← Finset.sum_add_distrib]
          exact Finset.sum_congr rfl fun m _ => by ring
      _ = _ := by rw [this]

theorem ottoReweight_moved (env : Env ρ ℝ) (hs : 0 < s) (hN : 0 < N) (hv : v = 0 ∨ SolverCouples env)
    (hsc : s = 1 ∨ SolverScaleFree env) (U : Option (Constraint d N ℝ)) (x : Mat d N ℝ) (t : ℝ) :
    ottoReweight env (U.map (Constraint.move s v)) (moved s v x) t
      = (ottoReweight env U x t).map (moved s v) := by
  cases U with
  | none => rfl
  | some U =>
    simp only [ottoReweight, Option.map_some, Constraint.move, unmoved_moved hs]
    exact reweightOT_moved env hs hN hv hsc x (softmax_prob hN fun n => U.call2 x t n * dtc)

theorem stochReweight_moved (env : Env ρ ℝ) (hs : 0 < s) (hN : 0 < N) (hv : v = 0 ∨ SolverCouples env)
    (hsc : s = 1 ∨ SolverScaleFree env) (U : Option (Constraint d N ℝ)) (x : Mat d N ℝ) :
    stochReweight env (U.map (Constraint.move s v)) (moved s v x)
      = (stochReweight env U x).map (moved s v) := by
  cases U with
  | none => rfl
  | some U =>
    simp only [stochReweight, Option.map_some, Constraint.move]
    cases U.call1 with
    | none => rfl
    | some u =>
      simp only [Option.map_some, unmoved_moved hs]
      exact reweightOT_moved env hs hN hv hsc x (softmax_prob hN (u x))

theorem liftM_map {α β : Type} (g : α → β) (x : Except PyErr α) :
    (liftM (x.map g) : RandM ρ β) = (do let y ← (liftM x : RandM ρ α); pure (g y)) := by
  cases x with
  | error e => rfl
  | ok a => rfl

/-! ### torch -/

theorem torchInducing_moved (env : Env ρ ℝ) (hs : 0 < s) (bnds : Fin d → ℝ × ℝ) :
    torchInducing env (fun a => (s * (bnds a).1 + v a, s * (bnds a).2 + v a)) M
      = (do let S ← torchInducing env bnds M; pure fun m a => s * S m a + v a) := by
  funext r
  rw [RandM.bind_app]
  by_cases h : ∀ a, (bnds a).1 < (bnds a).2
  · rw [torchInducing_real env bnds r h, torchInducing_real env _ r fun a => by
      have := mul_lt_mul_of_pos_left (h a) hs
      simpa using this]
    simp only [RandM.pure_app]
    congr 2
    funext m a
    ring
  · push Not at h
    obtain ⟨a, ha⟩ := h
    rw [torchInducing_err env bnds r a (not_lt.2 ha), torchInducing_err env _ r a]
    rw [not_lt]
    have := mul_le_mul_of_nonneg_left ha hs.le
    simpa using this

theorem torchLengthScales_moved (hs : 0 < s) (hN : 0 < N) (x : Mat d N ℝ) :
    torchLengthScales (moved s v x) = fun k => s * torchLengthScales x k := by
  rw [torchLengthScales_real, torchLengthScales_real]
  funext k
  rw [sampleSdev_moved hs hN]; ring

theorem torchScore_moved (hs : 0 < s) (hd : 2 ≤ d) (X : Mat N d ℝ) (Z : Mat M d ℝ) (l : Fin d → ℝ) (C : ℝ)
    (kern : String) :
    torchScore (fun i k => s * X i k + v k) (fun i k => s * Z i k + v k) (.tensor fun k => s * l k) C kern
      = (torchScore X Z (.tensor l) C kern).map fun y i k => y i k / s := by
  rw [torchScore_real _ _ _ _ (classify_tensor hd _), torchScore_real _ _ _ _ (classify_tensor hd _)]
  change Except.ok _ = Except.ok _
  congr 1
  funext i j
  exact score_affine hs _ _ _ _ _ _ _

theorem torchScoreFn_moved (hs : 0 < s) (hd : 2 ≤ d) (X : Mat N d ℝ) (Z : Mat M d ℝ) (l : Fin d → ℝ) (C : ℝ)
    (Y : Mat N d ℝ) :
    torchScoreFn (fun i k => s * X i k + v k) (fun i k => s * Z i k + v k) (.tensor fun k => s * l k) C "RBF"
        (.tensor fun i k => s * Y i k + v k)
      = (torchScoreFn X Z (.tensor l) C "RBF" (.tensor Y)).map fun y i k => y i k / s := by
  rw [torchScoreFn_real _ _ _ _ (classify_tensor hd _) (by intro w h; cases h),
    torchScoreFn_real _ _ _ _ (classify_tensor hd _) (by intro w h; cases h)]
  change Except.ok _ = Except.ok _
  congr 1
  funext i j
  exact score_affine hs _ _ _ _ _ _ _

theorem torchOttoStep_moved (env : Env ρ ℝ) (hs : 0 < s) (hN : 0 < N) (hd : 2 ≤ d) (g : ℝ)
    (f : Drift d N ℝ) (x : Mat d N ℝ) (t : ℝ) :
    torchOttoStep env M (s * g) (Drift.move s v f) (moved s v x) t
      = (do let y ← torchOttoStep env M g f x t; pure (moved s v y)) := by
  unfold torchOttoStep torchFSeperate
  rw [torchBox_real hN, torchBox_real hN]
  simp only [lo_moved hs hN, hi_moved hs hN, RandM.liftM_ok, pure_bind, torchLengthScales_moved hs hN]
  rw [torchInducing_moved env hs (fun a => (lo (x a), hi (x a)))]
  simp only [bind_assoc, pure_bind]
  congr 1; funext S
  have := torchScore_moved (v := v) hs hd (tr x) S (torchLengthScales x) (lit 1 1000) "RBF"
  change torchScore (tr (moved s v x)) _ _ _ _ = _ at this
  rw [this, liftM_map]
  simp only [bind_assoc, pure_bind]
  congr 1; funext y
  congr 1
  funext a n
  simp only [Drift.move, unmoved_moved hs, moved, real_sq]
  field_simp
  ring

theorem torchDensityAt_moved (env : Env ρ ℝ) (hs : 0 < s) (hN : 0 < N) (hd : 2 ≤ d) (z b : Mat d N ℝ) :
    torchDensityAt env M "RBF" (moved s v z) (moved s v b)
      = (do let y ← torchDensityAt env M "RBF" z b; pure fun a n => y a n / s) := by
  classical
  unfold torchDensityAt
  rw [densityBox_real hN, densityBox_real hN]
  have hbox : (fun a => if lo (moved s v b a) = hi (moved s v b a) then
        (lo (moved s v z a), hi (moved s v z a)) else
        (min (lo (moved s v z a)) (lo (moved s v b a)), max (hi (moved s v z a)) (hi (moved s v b a))))
      = fun a => (s * (if lo (b a) = hi (b a) then (lo (z a), hi (z a)) else
        (min (lo (z a)) (lo (b a)), max (hi (z a)) (hi (b a)))).1 + v a,
        s * (if lo (b a) = hi (b a) then (lo (z a), hi (z a)) else
        (min (lo (z a)) (lo (b a)), max (hi (z a)) (hi (b a)))).2 + v a) := by
    funext a
    simp only [lo_moved hs hN, hi_moved hs hN, max_affine hs, min_affine hs, add_left_inj,
      mul_right_inj' hs.ne']
    split <;> rfl
  rw [hbox]
  simp only [RandM.liftM_ok, pure_bind, torchLengthScales_moved hs hN]
  rw [torchInducing_moved env hs (fun a => if lo (b a) = hi (b a) then (lo (z a), hi (z a)) else
        (min (lo (z a)) (lo (b a)), max (hi (z a)) (hi (b a))))]
  simp only [bind_assoc, pure_bind]
  congr 1; funext S
  have := torchScoreFn_moved (v := v) hs hd (tr z) S (torchLengthScales z) (lit 1 1000) (tr b)
  change torchScoreFn (tr (moved s v z)) _ _ _ _ (.tensor (tr (moved s v b))) = _ at this
  rw [this, liftM_map]
  simp only [bind_assoc, pure_bind]
  rfl

theorem torchBwDensityAt_moved (env : Env ρ ℝ) (hs : 0 < s) (hN : 0 < N) (hd : 2 ≤ d) (kern : String)
    (z b : Mat d N ℝ) :
    torchBwDensityAt env M kern (moved s v z) (moved s v b)
      = (do let y ← torchBwDensityAt env M kern z b; pure fun a n => y a n / s) := by
  unfold torchBwDensityAt
  rw [hullBox_real hN, hullBox_real hN]
  simp only [RandM.liftM_ok, pure_bind, torchLengthScales_moved hs hN, lo_moved hs hN, hi_moved hs hN,
    max_affine hs, min_affine hs]
  rw [torchInducing_moved env hs
    (fun a => (min (lo (z a)) (lo (b a)), max (hi (z a)) (hi (b a))))]
  simp only [bind_assoc, pure_bind]
  congr 1; funext S
  have := torchScore_moved (v := v) hs hd (tr b) S (torchLengthScales b) (lit 1 1000) kern
  change torchScore (tr (moved s v b)) _ _ _ _ = _ at this
  rw [this, liftM_map]
  simp only [bind_assoc, pure_bind]
  rfl

theorem torchReweight_moved (env : Env ρ ℝ) (hs : 0 < s) (hN : 0 < N) (hv : v = 0 ∨ SolverCouples env)
    (x : Mat d N ℝ) (u : Fin N → ℝ) :
    torchReweight env (moved s v x) (fun n => NumOps.exp (u n))
      = (torchReweight env x (fun n => NumOps.exp (u n))).map (moved s v) := by
  obtain ⟨n, rfl⟩ : ∃ n, N = n + 1 := ⟨N - 1, by omega⟩
  unfold torchReweight
  simp only [torchMatMax, Except.ok_bind', real_sum, real_sq, amax_real]
  have hD : ∀ i j : Fin (n+1), ∑ k, (moved s v x k i - moved s v x k j)^2
      = s^2 * ∑ k, (x k i - x k j)^2 := by
    intro i j
    rw [Finset.mul_sum]
    exact Finset.sum_congr rfl fun k _ => by simp only [moved]; ring
  have hs2 : (0:ℝ) < s^2 := by positivity
  have hmax : (hi fun i : Fin (n+1) => hi fun j : Fin (n+1) => s^2 * ∑ k, (x k i - x k j)^2)
      = s^2 * hi fun i : Fin (n+1) => hi fun j : Fin (n+1) => ∑ k, (x k i - x k j)^2 := by
    have h1 : ∀ w : Fin (n+1) → ℝ, (hi fun j => s^2 * w j) = s^2 * hi w := by
      intro w
      have := hi_moved (d := 1) (s := s^2) (v := 0) hs2 hN (fun _ => w) 0
      have e : moved (s^2) 0 (fun (_ : Fin 1) => w) 0 = fun j => s^2 * w j := by
        funext j; simp [moved]
      rw [e] at this
      simpa using this
    simp only [h1]
  simp only [hD, hmax, mul_div_mul_left _ _ hs2.ne']
  cases hT : env.emd (normWeights fun n => NumOps.exp (u n))
      (fun _ => (lit 1 1 : ℝ) / lit ((n+1 : ℕ) : ℤ) 1)
      (fun i j : Fin (n+1) => (∑ k, (x k i - x k j)^2)
        / hi fun i : Fin (n+1) => hi fun j : Fin (n+1) => ∑ k, (x k i - x k j)^2) with
  | error e => rfl
  | ok T =>
    change Except.ok _ = Except.ok _
    congr 1
    funext a j
    simp only [mm, moved, real_sum, real_lit_int]
    rw [softmax_real] at hT
    have := coupling_col (v := v) env hN hv (softmax_prob hN u) (by simpa using hT) a j
    calc ∑ m, ((n+1 : ℕ) : ℤ) * (s * x a m + v a) * T m j
        = s * ∑ m, ((n+1 : ℕ) : ℤ) * x a m * T m j + v a * ∑ m, T m j * ((n+1 : ℕ) : ℝ) := by
          rw [Finset.mul_sum, Finset.mul_sum, ← Finset.sum_add_distrib]
          exact Finset.sum_congr rfl fun m _ => by push_cast; ring
      _ = _ := by rw [this]

theorem torchOttoRw_moved (env : Env ρ ℝ) (hs : 0 < s) (hN : 0 < N) (hv : v = 0 ∨ SolverCouples env)
    (U : Option (Constraint d N ℝ)) (x : Mat d N ℝ) (t : ℝ) :
    torchOttoRw env (U.map (Constraint.move s v)) (moved s v x) t
      = (torchOttoRw env U x t).map (moved s v) := by
  cases U with
  | none => rfl
  | some U =>
    simp only [torchOttoRw, Option.map_some, Constraint.move, unmoved_moved hs]
    exact torchReweight_moved env hs hN hv x _

theorem torchStochRw_moved (env : Env ρ ℝ) (hs : 0 < s) (hN : 0 < N) (hv : v = 0 ∨ SolverCouples env)
    (U : Option (Constraint d N ℝ)) (x : Mat d N ℝ) :
    torchStochRw env (U.map (Constraint.move s v)) (moved s v x)
      = (torchStochRw env U x).map (moved s v) := by
  cases U with
  | none => rfl
  | some U =>
    simp only [torchStochRw, Option.map_some, Constraint.move]
    cases U.call1 with
    | none => rfl
    | some u =>
      simp only [Option.map_some, unmoved_moved hs]
      exact torchReweight_moved env hs hN hv x _

end
end DPFC
