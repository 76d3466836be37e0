import Verif.Props.ControlBound
import Verif.Lib.Fan
import Verif.Props.Inducing
import Verif.Props.Score
import Verif.Spec.Far

/-!
# Property C113: controls far from the particles
-/

set_option linter.unusedVariables false

namespace DPFC
open Spec
variable {ρ : Type} {N M d n : ℕ}

/-! Helpers. -/

theorem gauss_far {l : Fin d → ℝ} {x z : Fin d → ℝ} {e : Fin d} {R : ℝ} (hR : 0 ≤ R) (h : R ≤ |x e - z e|) :
    gauss l x z ≤ Real.exp (-(R ^ 2 / (2 * l e ^ 2))) := by
  unfold gauss
  refine Real.exp_le_exp.2 (neg_le_neg ?_)
  refine le_trans ?_ (Finset.single_le_sum (f := fun k => (x k - z k) ^ 2 / (2 * l k ^ 2))
    (fun k _ => by positivity) (Finset.mem_univ e))
  have : R ^ 2 ≤ (x e - z e) ^ 2 := by
    rw [← sq_abs (x e - z e)]; exact pow_le_pow_left₀ hR h 2
  gcongr

theorem score_far {C : ℝ} (hC : -1/1000 < C) {l : Fin d → ℝ} (hl : ∀ k, l k ≠ 0) (X : Mat N d ℝ) (Z : Mat M d ℝ)
    (j e : Fin d) (x : Fin d → ℝ) {R : ℝ} (hR : 0 ≤ R) (h : ∀ m, R ≤ |x e - Z m e|) :
    |score C l X Z j x| ≤ M ^ 2 * N / (|l j| * ((C + 1/1000) * (1/1000))) * Real.exp (-(R ^ 2 / (2 * l e ^ 2))) := by
  have hc : 0 < (C + 1/1000) * (1/1000) := by
    have : 0 < C + 1/1000 := by linarith
    positivity
  have h2 : ∑ m, |gradSum l X Z j m| ≤ M * (N / |l j|) := by
    calc _ ≤ ∑ _m : Fin M, (N / |l j| : ℝ) :=
          Finset.sum_le_sum fun m _ => gradSum_bound l hl X Z j m
      _ = _ := by simp
  unfold score
  refine le_trans (Finset.abs_sum_le_sum_abs _ _) ?_
  calc ∑ i, |coef C l X Z j i * gauss l x (Z i)|
      ≤ ∑ _i : Fin M, (M * (N / |l j|)) / ((C + 1/1000) * (1/1000)) * Real.exp (-(R ^ 2 / (2 * l e ^ 2))) := by
        refine Finset.sum_le_sum fun i _ => ?_
        rw [abs_mul, abs_of_pos (gauss_pos _ _ _)]
        refine mul_le_mul ((coef_bound hC l X Z j i).trans ?_) (gauss_far hR (h i)) (gauss_pos _ _ _).le (by positivity)
        gcongr
    _ = _ := by
      have hlj : |l j| ≠ 0 := abs_ne_zero.2 (hl j)
      simp only [Finset.sum_const, Finset.card_univ, Fintype.card_fin, nsmul_eq_mul]
      field_simp

/-- `score_far` with `C = 1e-3` and lengthscales twice `s`. -/
theorem score_far_two {s : Fin d → ℝ} (hs : ∀ k, s k ≠ 0) (h0 : ∀ k, 0 ≤ s k) (X : Mat N d ℝ) (Z : Mat M d ℝ)
    (j e : Fin d) (x : Fin d → ℝ) {R : ℝ} (hR : 0 ≤ R) (h : ∀ m, R ≤ |x e - Z m e|) :
    |score (1/1000) (fun k => 2 * s k) X Z j x|
      ≤ 250000 * M ^ 2 * N * (Real.exp (-(R ^ 2 / (8 * s e ^ 2))) / s j) := by
  refine (score_far (C := 1/1000) (by norm_num) (fun k => by simpa using hs k) X Z j e x hR h).trans (le_of_eq ?_)
  have e1 : |2 * s j| = 2 * s j := abs_of_nonneg (by have := h0 j; positivity)
  have e2 : 2 * (2 * s e) ^ 2 = 8 * s e ^ 2 := by ring
  rw [e1, e2]
  have := hs j
  field_simp
  ring

theorem far_of_between {z b : Fin d → Fin N → ℝ} {e : Fin d} {R v p q w : ℝ} (h : FarFrom z b e R v)
    (hw : Between p q w) (hp : hullLow z b e ≤ p) (hp' : p ≤ hullHigh z b e) (hq : hullLow z b e ≤ q)
    (hq' : q ≤ hullHigh z b e) : R ≤ |v - w| := by
  have h1 : hullLow z b e ≤ w := (le_min hp hq).trans hw.1
  have h2 : w ≤ hullHigh z b e := hw.2.trans (max_le hp' hq')
  rcases h with h | h
  · rw [abs_sub_comm]
    exact (by linarith : R ≤ w - v).trans (le_abs_self _)
  · exact (by linarith : R ≤ v - w).trans (le_abs_self _)

theorem inter_in_hull (hN : 0 < N) (z b : Fin d → Fin N → ℝ) (e : Fin d) :
    hullLow z b e ≤ ibLow z b e ∧ ibLow z b e ≤ hullHigh z b e ∧ hullLow z b e ≤ ibHigh z b e ∧
      ibHigh z b e ≤ hullHigh z b e := by
  have hz := lo_le_hi hN (z e)
  have hb := lo_le_hi hN (b e)
  unfold hullLow hullHigh ibLow ibHigh
  exact ⟨min_le_max, max_le_max hz hb, min_le_min hz hb, min_le_max⟩

/-! ## C113 -/

/-- **C113** (numpy). At interior times, outside reweighted Brownian-bridge mode, the control fades away from the
particles: at a query point which in some coordinate `e` is at least `R` away from the range of both clouds, component
`a` of the control is at most `250000 M^2 N (exp(-R^2/(8 sdev(b_e)^2))/sdev(b_a) + exp(-R^2/(8 sdev(z_e)^2))/sdev(z_a))`,
whatever the inducing points that are drawn. -/
theorem C113_control_fades (env : Env ρ ℝ) (hu : UnitUniform env) (o : Obj d N M ℝ) (hN : 0 < N)
    (hk : o.cfg.kern = "RBF" ∨ o.cfg.kern = "periodic")
    (hm : (o.cfg.reweight && o.cfg.brownBridge) = false) (ti : Int)
    (he : ¬ Edge o.timegrid.length ti) (b z : Mat d N ℝ) (hb : pyAt o.B ti = some b)
    (hz : pyAt o.Z ti = some z) (sb : Spread b) (sz : Spread z) (x : Mat n d ℝ) (r : ρ) :
    ∃ (u : Mat d n ℝ) (r' : ρ), calculateU env o x ti r = .ok (u, r') ∧
      ∀ j e R, 0 ≤ R → FarFrom z b e R (x j e) → ∀ a,
        |u a j| ≤ 250000 * M ^ 2 * N * (Real.exp (-(R ^ 2 / (8 * sdev (b e) ^ 2))) / sdev (b a)
          + Real.exp (-(R ^ 2 / (8 * sdev (z e) ^ 2))) / sdev (z a)) := by
  refine ⟨_, _, C39_interior_control env o hN hk hm x ti he b z hb hz r, fun j e R hR hf a => ?_⟩
  obtain ⟨i1, i2, i3, i4⟩ := inter_in_hull hN z b e
  have hP : ∀ m, R ≤ |x j e - inducing (ibLow z b) (ibHigh z b) (unifs env d M r) m e| := fun m =>
    far_of_between hf (inducing_between hu _ _ r m e) i1 i2 i3 i4
  have h1 := score_far_two (s := fun k => sdev (b k)) sb (fun k => Real.sqrt_nonneg _) (particle b)
    (inducing (ibLow z b) (ibHigh z b) (unifs env d M r)) a e (x j) hR hP
  have h2 := score_far_two (s := fun k => sdev (z k)) sz (fun k => Real.sqrt_nonneg _) (particle z)
    (inducing (ibLow z b) (ibHigh z b) (unifs env d M r)) a e (x j) hR hP
  refine ((abs_sub _ _).trans (add_le_add h1 h2)).trans (le_of_eq ?_)
  ring

/-- **C113** (torch, all modes). -/
theorem C113_torch_control_fades (env : Env ρ ℝ) (hu : UnitUniform env) (o : Obj d N M ℝ) (hN : 0 < N) (hd : 2 ≤ d)
    (hk : o.cfg.kern = "RBF" ∨ o.cfg.kern = "periodic") (ti : Int)
    (he : ¬ Edge o.timegrid.length ti) (b z zr : Mat d N ℝ) (hb : pyAt o.B ti = some b)
    (hz : pyAt o.Z ti = some z) (hr : reference o ti = some zr)
    (sb : Spread b) (sz : Spread zr) (x : Mat n d ℝ) (r : ρ) :
    ∃ (u : Mat d n ℝ) (r' : ρ), torchCalculateU env o x ti r = .ok (⟨d, n, u⟩, r') ∧
      ∀ j e R, 0 ≤ R → FarFrom zr b e R (x j e) → ∀ a,
        |u a j| ≤ 250000 * M ^ 2 * N * (Real.exp (-(R ^ 2 / (8 * sampleSdev (b e) ^ 2))) / sampleSdev (b a)
          + Real.exp (-(R ^ 2 / (8 * sampleSdev (zr e) ^ 2))) / sampleSdev (zr a)) := by
  have hlh : ∀ a, hullLow zr b a < hullHigh zr b a := fun a =>
    (min_le_right _ _).trans_lt ((lo_lt_hi_of_spread hN (sb a)).trans_le (le_max_right _ _))
  refine ⟨_, _, C39_torch_interior_control env o hN hd hk x ti he b z zr hb hz hr hlh r, fun j e R hR hf a => ?_⟩
  have hP : ∀ m, R ≤ |x j e - tinducing (hullLow zr b) (hullHigh zr b) (tunifs env d M r) m e| := fun m =>
    far_of_between hf (tinducing_between hu _ _ r m e) le_rfl (hlh e).le (hlh e).le le_rfl
  have h1 := score_far_two (s := fun k => sampleSdev (b k)) (fun k => Lim.sample_ne (sb k)) (fun k => Real.sqrt_nonneg _)
    (particle b) (tinducing (hullLow zr b) (hullHigh zr b) (tunifs env d M r)) a e (x j) hR hP
  have h2 := score_far_two (s := fun k => sampleSdev (zr k)) (fun k => Lim.sample_ne (sz k)) (fun k => Real.sqrt_nonneg _)
    (particle zr) (tinducing (hullLow zr b) (hullHigh zr b) (tunifs env d M r)) a e (x j) hR hP
  refine ((abs_sub _ _).trans (add_le_add h1 h2)).trans (le_of_eq ?_)
  ring

/-- **C113** (edge times). Near the two ends of the horizon it is the opposite: if the two clouds have different variances
in coordinate `a`, that component of the control is unbounded far away from the particles; if they have equal variances
it is the same at every point. -/
theorem C113_edge_unbounded (env : Env ρ ℝ) (o : Obj d N M ℝ) (hN : 0 < N) (ti : Int)
    (he : Edge o.timegrid.length ti) (b z zr : Mat d N ℝ) (hb : pyAt o.B ti = some b)
    (hz : pyAt o.Z ti = some z) (hr : reference o ti = some zr) (sb : Spread b) (sz : Spread zr) (a : Fin d) (r : ρ) :
    (variance (b a) ≠ variance (zr a) → ∀ K : ℝ, ∃ R : ℝ, ∀ x : Mat n d ℝ, ∃ u, calculateU env o x ti r = .ok (u, r) ∧
      ∀ j, R ≤ |x j a| → K ≤ |u a j|) ∧
    (variance (b a) = variance (zr a) → ∀ x : Mat n d ℝ, ∃ u, calculateU env o x ti r = .ok (u, r) ∧
      ∀ j, u a j = (avg (b a) - avg (zr a)) / variance (b a)) := by
  have hv : ∀ v : Fin N → ℝ, sdev v ≠ 0 → variance v ≠ 0 := by
    intro v h hv
    exact h (by rw [sdev, hv, Real.sqrt_zero])
  have hvb := hv _ (sb a)
  have hvz := hv _ (sz a)
  constructor
  · intro hne K
    set β : ℝ := 1 / variance (zr a) - 1 / variance (b a) with hβ
    set α : ℝ := avg (b a) / variance (b a) - avg (zr a) / variance (zr a) with hα
    have hβ0 : 0 < |β| := by
      refine abs_pos.2 fun h => hne ?_
      have := sub_eq_zero.1 h
      rw [one_div, one_div] at this
      exact (inv_injective this).symm
    refine ⟨(K + |α|) / |β|, fun x => ?_⟩
    obtain ⟨u, h1, h2⟩ := C36_edge_control_formula env o hN x ti he b z zr hb hz hr sb sz r
    refine ⟨u, h1, fun j hj => ?_⟩
    have e : u a j = α + β * x j a := by
      rw [h2, hα, hβ]; field_simp; ring
    rw [div_le_iff₀ hβ0] at hj
    have h3 : |β * x j a| ≤ |u a j| + |α| := by
      have : β * x j a = u a j - α := by rw [e]; ring
      rw [this]; exact abs_sub _ _
    rw [abs_mul] at h3
    linarith [mul_comm |β| |x j a|]
  · intro heq x
    obtain ⟨u, h1, h2⟩ := C36_edge_control_formula env o hN x ti he b z zr hb hz hr sb sz r
    refine ⟨u, h1, fun j => ?_⟩
    rw [h2, ← heq]; field_simp; ring

/-- **C113** (edge times, torch). The same for the torch class. -/
theorem C113_torch_edge_unbounded (env : Env ρ ℝ) (o : Obj d N M ℝ) (hN : 2 ≤ N) (ti : Int)
    (he : Edge o.timegrid.length ti) (b z zr : Mat d N ℝ) (hb : pyAt o.B ti = some b)
    (hz : pyAt o.Z ti = some z) (hr : reference o ti = some zr) (sb : Spread b) (sz : Spread zr) (a : Fin d) (r : ρ) :
    (variance (b a) ≠ variance (zr a) → ∀ K : ℝ, ∃ R : ℝ, ∀ x : Mat n d ℝ, ∃ u : Mat d n ℝ,
      torchCalculateU env o x ti r = .ok (⟨d, n, u⟩, r) ∧ ∀ j, R ≤ |x j a| → K ≤ |u a j|) ∧
    (variance (b a) = variance (zr a) → ∀ x : Mat n d ℝ, ∃ u : Mat d n ℝ,
      torchCalculateU env o x ti r = .ok (⟨d, n, u⟩, r) ∧
      ∀ j, u a j = (N - 1) / N * ((avg (b a) - avg (zr a)) / variance (b a))) := by
  obtain ⟨h1, h2⟩ := C113_edge_unbounded (n := n) env o (by omega) ti he b z zr hb hz hr sb sz a r
  have hq : (0 : ℝ) < (N - 1) / N := by
    have : (2 : ℝ) ≤ N := by exact_mod_cast hN
    exact div_pos (by linarith) (by linarith)
  constructor
  · intro hne K
    obtain ⟨R, hR⟩ := h1 hne (K / ((N - 1) / N))
    refine ⟨R, fun x => ?_⟩
    obtain ⟨v, e1, e2⟩ := hR x
    obtain ⟨u, ut, f1, f2, f3⟩ := C44_edge_factor env o hN x ti he b z zr hb hz hr sb sz r
    rw [e1] at f1
    obtain rfl : v = u := by injection f1 with f1; exact congrArg Prod.fst f1
    refine ⟨ut, f2, fun j hj => ?_⟩
    rw [f3, abs_mul, abs_of_pos hq, mul_comm]
    exact (div_le_iff₀ hq).1 (e2 j hj)
  · intro heq x
    obtain ⟨v, e1, e2⟩ := h2 heq x
    obtain ⟨u, ut, f1, f2, f3⟩ := C44_edge_factor env o hN x ti he b z zr hb hz hr sb sz r
    rw [e1] at f1
    obtain rfl : v = u := by injection f1 with f1; exact congrArg Prod.fst f1
    exact ⟨ut, f2, fun j => by rw [f3, e2]⟩

/-- **C113** (estimators). The function returned by the numpy score estimator fades in the same way: if `x` is at least
`R` away from all inducing points in coordinate `e`, the estimate of coordinate `j` there is at most
`1000 M^2 N exp(-R^2/(2 l_e^2)) / (|l_j| (C+1e-3))`. -/
theorem C113_score_fades (X : Mat N d ℝ) (Z : Mat M d ℝ) (l : LS d ℝ) (hl : ∀ k, l.at k ≠ 0) (C : ℝ)
    (hC : -1/1000 < C) (j : Fin d) (x : Mat n d ℝ) :
    ∃ w, scoreSepFn X Z C "RBF" l (j.val + 1) x = .ok w ∧
      ∀ i e R, 0 ≤ R → (∀ m, R ≤ |x i e - Z m e|) →
        |w i| ≤ 1000 * M ^ 2 * N * Real.exp (-(R ^ 2 / (2 * l.at e ^ 2))) / (|l.at j| * (C + 1/1000)) := by
  refine ⟨_, scoreSepFn_real hC X Z l _ j (which_dim_ok j) x, fun i e R hR h => ?_⟩
  refine (score_far hC hl X Z j e (x i) hR h).trans (le_of_eq ?_)
  have : |l.at j| ≠ 0 := abs_ne_zero.2 (hl j)
  have h2 : C + 1/1000 ≠ 0 := by linarith
  field_simp

/-- The hypotheses are met by the example object: at the interior index 10 the point (1000, 1000) is 900 away from both
clouds, for numpy and torch; at the edge index 3 the two clouds have different variances. -/
example (bb : Bool) :
    (∃ u r', calculateU exEnv (exObj false bb) (fun (_ : Fin 1) (_ : Fin 2) => 1000) 10 0 = .ok (u, r') ∧
      ∀ a, |u a 0| ≤ 250000 * (3:ℕ)^2 * (2:ℕ) * (Real.exp (-(900 ^ 2 / (8 * (1/2) ^ 2))) / (1/2)
        + Real.exp (-(900 ^ 2 / (8 * 1 ^ 2))) / 1)) ∧
    (∃ u r', torchCalculateU exEnv (exObj false bb) (fun (_ : Fin 1) (_ : Fin 2) => 1000) 10 0 = .ok (⟨2, 1, u⟩, r')) ∧
    (∀ K : ℝ, ∃ R : ℝ, ∀ x : Mat 1 2 ℝ, ∃ u, calculateU exEnv (exObj false bb) x 3 0 = .ok (u, 0) ∧
      ∀ j, R ≤ |x j 0| → K ≤ |u 0 j|) ∧
    ∀ K : ℝ, ∃ R : ℝ, ∀ x : Mat 1 2 ℝ, ∃ u, torchCalculateU exEnv (exObj false bb) x 3 0 = .ok (⟨2, 1, u⟩, 0) ∧
      ∀ j, R ≤ |x j 0| → K ≤ |u 0 j| := by
  have hl : ∀ rw bb, (exObj rw bb).timegrid.length = 20 := fun _ _ => by simp [exObj]
  have h10 := fun rw bb => exObj_slices rw bb 10 (by norm_num) (by norm_num)
  have h3 := fun rw bb => exObj_slices rw bb 3 (by norm_num) (by norm_num)
  have e1 : ∀ q : ℝ, variance (fun n : Fin 2 => q + n.val) = (1/2) ^ 2 := fun q => by
    rw [variance]
    simp only [avg, Fin.sum_univ_two]
    norm_num; ring
  have e2 : ∀ q : ℝ, variance (fun n : Fin 2 => q + 2 * n.val) = 1 ^ 2 := fun q => by
    rw [variance]
    simp only [avg, Fin.sum_univ_two]
    norm_num; ring
  have vb : ∀ a : Fin 2, variance (((fun a n => (a.val : ℝ) + n.val + 1) : Mat 2 2 ℝ) a) = (1/2) ^ 2 := fun a => by
    rw [← e1 (a.val + 1)]; congr 1; funext n; ring
  have vz : ∀ a : Fin 2, variance (((fun a n => (a.val : ℝ) + 2 * n.val) : Mat 2 2 ℝ) a) = 1 ^ 2 := fun a => e2 _
  have b1 : ∀ a : Fin 2, sdev (((fun a n => (a.val : ℝ) + n.val + 1) : Mat 2 2 ℝ) a) = 1/2 := fun a => by
    rw [sdev, vb]; exact Real.sqrt_sq (by norm_num)
  have z1 : ∀ a : Fin 2, sdev (((fun a n => (a.val : ℝ) + 2 * n.val) : Mat 2 2 ℝ) a) = 1 := fun a => by
    rw [sdev, vz]; exact Real.sqrt_sq (by norm_num)
  have sb := exObj_spread.1
  have sz := exObj_spread.2
  have hr : ∀ ti : Int, 0 ≤ ti → ti < 20 → reference (exObj false bb) ti = some fun a n => (a.val : ℝ) + 2 * n.val := by
    intro ti h0 h1
    simp only [reference, exObj, exCfg]
    exact (exObj_slices false bb ti h0 h1).2
  have hfar : FarFrom (fun (a n : Fin 2) => ((a.val : ℝ) + 2 * n.val)) (fun (a n : Fin 2) => ((a.val : ℝ) + n.val + 1)) 0
      900 1000 := by
    refine Or.inr ?_
    have : hullHigh (fun (a n : Fin 2) => ((a.val : ℝ) + 2 * n.val)) (fun (a n : Fin 2) => ((a.val : ℝ) + n.val + 1)) 0
        ≤ 100 := by
      refine max_le (ciSup_le fun n => ?_) (ciSup_le fun n => ?_) <;> fin_cases n <;> norm_num
    linarith
  obtain ⟨u, r', h, hu⟩ := C113_control_fades exEnv exEnv_unit (exObj false bb) (by norm_num) (.inl rfl) rfl 10
    (by rw [hl]; unfold Edge; norm_num) _ _ (h10 _ _).1 (h10 _ _).2 sb sz (fun (_ : Fin 1) (_ : Fin 2) => 1000) 0
  obtain ⟨w, q', m, _⟩ := C113_torch_control_fades exEnv exEnv_unit (exObj false bb) (by norm_num) (le_refl 2) (.inl rfl) 10
    (by rw [hl]; unfold Edge; norm_num) _ _ _ (h10 _ _).1 (h10 _ _).2 (hr 10 (by norm_num) (by norm_num)) sb sz
    (fun (_ : Fin 1) (_ : Fin 2) => 1000) 0
  refine ⟨⟨u, r', h, fun a => ?_⟩, ⟨w, q', m⟩, ?_, ?_⟩
  · have := hu 0 0 900 (by norm_num) hfar a
    rwa [b1, b1, z1, z1] at this
  · refine (C113_edge_unbounded exEnv (exObj false bb) (by norm_num) 3 (by rw [hl]; unfold Edge; norm_num) _ _ _
      (h3 _ _).1 (h3 _ _).2 (hr 3 (by norm_num) (by norm_num)) sb sz 0 0).1 ?_
    rw [vb, vz]; norm_num
  · refine (C113_torch_edge_unbounded exEnv (exObj false bb) (le_refl 2) 3 (by rw [hl]; unfold Edge; norm_num) _ _ _
      (h3 _ _).1 (h3 _ _).2 (hr 3 (by norm_num) (by norm_num)) sb sz 0 0).1 ?_
    rw [vb, vz]; norm_num

end DPFC
