import Verif.Lib.Control2
import Verif.Lib.Examples
import Verif.Model.Session

/-!
# Properties of `calculate_u` (C35, C36, C38-C41, C44)

All theorems hold for every object, i.e. for arbitrary contents of the flows, in particular for every
object returned by a construction.
-/

namespace DPFC
open Spec
variable {ρ : Type} {N M d n c : ℕ}

/-- An object with 20 time points and two particles in two dimensions, used in the examples. -/
noncomputable def exObj (rw bb : Bool) : Obj 2 2 3 ℝ where
  cfg := exCfg 2 2 3 19 true rw bb
  timegrid := List.replicate 20 0
  Z := List.replicate 20 fun a n => (a.val : ℝ) + 2 * n.val
  B := List.replicate 20 fun a n => (a.val : ℝ) + n.val + 1
  Ztr := some (List.replicate 20 fun a n => 3 * (a.val : ℝ) + n.val - 5)

theorem exObj_slices (rw bb : Bool) (ti : Int) (h0 : 0 ≤ ti) (h1 : ti < 20) :
    pyAt (exObj rw bb).B ti = some (fun a n => (a.val : ℝ) + n.val + 1) ∧
    pyAt (exObj rw bb).Z ti = some (fun a n => (a.val : ℝ) + 2 * n.val) := by
  unfold pyAt
  rw [if_pos h0, if_pos h0]
  have : ti.toNat < 20 := by omega
  constructor <;> simp only [exObj, List.getElem?_replicate, if_pos this]

theorem exObj_spread : Spread (fun (a n : Fin 2) => ((a.val : ℝ) + n.val + 1)) ∧
    Spread (fun (a n : Fin 2) => ((a.val : ℝ) + 2 * n.val)) :=
  ⟨fun a => sdev_ne_zero (i := 0) (j := 1) (by simp),
    fun a => sdev_ne_zero (i := 0) (j := 1) (by simp)⟩

/-! ### C36, C39, C35: what the control is -/

/-- **C36**. At the edge time indices the control is, per coordinate, the derivative of the log of the
normal density fitted to the backward particles minus that of the one fitted to the reference
particles (forward flow; true-drift flow in reweighted Brownian-bridge mode). No random numbers are
drawn. -/
theorem C36_edge_control (env : Env ρ ℝ) (o : Obj d N M ℝ) (hN : 0 < N) (x : Mat n d ℝ) (ti : Int)
    (he : Edge o.timegrid.length ti) (b z zr : Mat d N ℝ) (hb : pyAt o.B ti = some b)
    (hz : pyAt o.Z ti = some z) (hr : reference o ti = some zr) (sb : Spread b) (sz : Spread zr)
    (r : ρ) :
    ∃ u : Mat d n ℝ, calculateU env o x ti r = .ok (u, r) ∧
      ∀ a j, u a j = gaussScore (b a) (x j a) - gaussScore (zr a) (x j a) := by
  rw [calculateU_edge env o x ti b z zr _ hb hz hr (interBox_real hN zr b) he,
    edgeU_ok npStd b zr x (le_refl d)]
  refine ⟨_, rfl, fun a j => ?_⟩
  rw [dif_pos a.2]
  exact gaussU_real _ _ (sb a) (sz a) _

/-- **C36** in closed form: mean and variance of the particles. -/
theorem C36_edge_control_formula (env : Env ρ ℝ) (o : Obj d N M ℝ) (hN : 0 < N) (x : Mat n d ℝ)
    (ti : Int) (he : Edge o.timegrid.length ti) (b z zr : Mat d N ℝ) (hb : pyAt o.B ti = some b)
    (hz : pyAt o.Z ti = some z) (hr : reference o ti = some zr) (sb : Spread b) (sz : Spread zr)
    (r : ρ) :
    ∃ u : Mat d n ℝ, calculateU env o x ti r = .ok (u, r) ∧
      ∀ a j, u a j = (avg (b a) - x j a) / variance (b a) - (avg (zr a) - x j a) / variance (zr a) := by
  obtain ⟨u, h, hu⟩ := C36_edge_control env o hN x ti he b z zr hb hz hr sb sz r
  refine ⟨u, h, fun a j => ?_⟩
  have hv : ∀ v : Fin N → ℝ, sdev v ^ 2 = variance v := fun v =>
    Real.sq_sqrt (div_nonneg (Finset.sum_nonneg fun _ _ => sq_nonneg _) (Nat.cast_nonneg _))
  rw [hu, gaussScore_eq _ (sb a), gaussScore_eq _ (sz a), hv, hv]
  ring

/-- **C39**. At interior time indices, outside reweighted Brownian-bridge mode, the control is the
score estimate of the backward particles minus that of the forward particles, with the same inducing
points, both evaluated at the given points. `M*d` uniforms are drawn. -/
theorem C39_interior_control (env : Env ρ ℝ) (o : Obj d N M ℝ) (hN : 0 < N)
    (hk : o.cfg.kern = "RBF" ∨ o.cfg.kern = "periodic")
    (hm : (o.cfg.reweight && o.cfg.brownBridge) = false) (x : Mat n d ℝ) (ti : Int)
    (he : ¬ Edge o.timegrid.length ti) (b z : Mat d N ℝ) (hb : pyAt o.B ti = some b)
    (hz : pyAt o.Z ti = some z) (r : ρ) :
    calculateU env o x ti r = .ok
      (fun a j => pointScore b (inducing (ibLow z b) (ibHigh z b) (unifs env d M r)) x a j
        - pointScore z (inducing (ibLow z b) (ibHigh z b) (unifs env d M r)) x a j,
       unifsNext env d M r) := by
  have hr : reference o ti = some z := by unfold reference; rw [hm]; exact hz
  rw [calculateU_inner env o x ti b z z _ hb hz hr (interBox_real hN z b) he, hm,
    effKern_rbf hk, RandM.bind_app, npInducing_gen]
  simp only [Bool.false_eq_true, if_false, kernelU_real]
  rfl

/-- **C39** (coinciding flows). Where backward and reference particles coincide the control is zero, in
both branches. -/
theorem C39_zero_if_equal (env : Env ρ ℝ) (o : Obj d N M ℝ) (hN : 0 < N)
    (hk : o.cfg.kern = "RBF" ∨ o.cfg.kern = "periodic")
    (hm : (o.cfg.reweight && o.cfg.brownBridge) = false) (x : Mat n d ℝ) (ti : Int)
    (b : Mat d N ℝ) (hb : pyAt o.B ti = some b) (hz : pyAt o.Z ti = some b) (_ : Spread b) (r : ρ) :
    ∃ r', calculateU env o x ti r = .ok (fun _ _ => 0, r') := by
  by_cases he : Edge o.timegrid.length ti
  · have hr : reference o ti = some b := by unfold reference; rw [hm]; exact hz
    refine ⟨r, ?_⟩
    rw [calculateU_edge env o x ti b b b _ hb hz hr (interBox_real hN b b) he,
      edgeU_ok npStd b b x (le_refl d), RandM.liftM_ok, RandM.pure_app]
    congr 2
    funext a j
    rw [dif_pos a.2, gaussU, sub_self]
  · refine ⟨unifsNext env d M r, ?_⟩
    rw [C39_interior_control env o hN hk hm x ti he b b hb hz r]
    congr 2
    funext a j
    rw [sub_self]

/-- **C35** (dispatch). The Gaussian formula is used exactly for `ti <= 5` or `ti >= k-5`, kernel scores
with freshly drawn inducing points otherwise. -/
theorem C35_dispatch (env : Env ρ ℝ) (o : Obj d N M ℝ) (hN : 0 < N)
    (hk : o.cfg.kern = "RBF" ∨ o.cfg.kern = "periodic")
    (hm : (o.cfg.reweight && o.cfg.brownBridge) = false) (x : Mat n d ℝ) (ti : Int)
    (b z : Mat d N ℝ) (hb : pyAt o.B ti = some b) (hz : pyAt o.Z ti = some z) (sb : Spread b)
    (sz : Spread z) (r : ρ) :
    ∃ u r', calculateU env o x ti r = .ok (u, r') ∧
      (ti ≤ 5 ∨ (o.timegrid.length : Int) - 5 ≤ ti →
        r' = r ∧ ∀ a j, u a j = gaussScore (b a) (x j a) - gaussScore (z a) (x j a)) ∧
      (5 < ti ∧ ti < (o.timegrid.length : Int) - 5 →
        r' = unifsNext env d M r ∧ ∃ P, P = inducing (ibLow z b) (ibHigh z b) (unifs env d M r) ∧
          ∀ a j, u a j = pointScore b P x a j - pointScore z P x a j) := by
  have hr : reference o ti = some z := by unfold reference; rw [hm]; exact hz
  by_cases he : Edge o.timegrid.length ti
  · obtain ⟨u, h, hu⟩ := C36_edge_control env o hN x ti he b z z hb hz hr sb sz r
    refine ⟨u, r, h, fun _ => ⟨rfl, hu⟩, fun h => ?_⟩
    unfold Edge at he; omega
  · refine ⟨_, _, C39_interior_control env o hN hk hm x ti he b z hb hz r, fun h => absurd h he,
      fun _ => ⟨rfl, _, rfl, fun _ _ => rfl⟩⟩

/-- **C35** (short horizons). With at most 11 grid points every index is an edge index, with 12 or more
points index 6 is not; negative indices always are. Hence for `k <= 11` and for negative indices no
random numbers are drawn and the Gaussian formula applies. -/
theorem C35_edge_indices (k : ℕ) :
    (k ≤ 11 → ∀ ti : Int, Edge k ti) ∧ (12 ≤ k → ¬ Edge k 6) ∧ (∀ ti : Int, ti < 0 → Edge k ti) := by
  unfold Edge
  refine ⟨fun h ti => by omega, fun h => by omega, fun ti h => by omega⟩

/-- **C35** (negative indices). For an interior index `ti`, `calculate_u(x, ti)` and
`calculate_u(x, ti-k)` refer to the same slices, but if the particles of the two flows have different
mean or variance in some coordinate, there are query points at which the two results differ, whatever
the random state. -/
theorem C35_negative_index_differs (env : Env ρ ℝ) (o : Obj d N M ℝ) (hN : 0 < N)
    (hk : o.cfg.kern = "RBF" ∨ o.cfg.kern = "periodic")
    (hm : (o.cfg.reweight && o.cfg.brownBridge) = false) (ti : Int)
    (hB : o.B.length = o.timegrid.length) (hZ : o.Z.length = o.timegrid.length)
    (he : ¬ Edge o.timegrid.length ti)
    (b z : Mat d N ℝ) (hb : pyAt o.B ti = some b) (hz : pyAt o.Z ti = some z) (sb : Spread b)
    (sz : Spread z) (a : Fin d) (hd : avg (b a) ≠ avg (z a) ∨ variance (b a) ≠ variance (z a)) (r : ρ) :
    ∃ (x : Mat 1 d ℝ) (u u' : Mat d 1 ℝ) (r1 r2 : ρ), calculateU env o x ti r = .ok (u, r1) ∧
      calculateU env o x (ti - o.timegrid.length) r = .ok (u', r2) ∧ u a 0 ≠ u' a 0 := by
  have hti : 0 ≤ ti ∧ ti < o.timegrid.length := by unfold Edge at he; omega
  have hb' : pyAt o.B (ti - o.timegrid.length) = some b := by
    rw [← hB, pyAt_sub_length hti.1 (by rw [hB]; exact hti.2), hb]
  have hz' : pyAt o.Z (ti - o.timegrid.length) = some z := by
    rw [← hZ, pyAt_sub_length hti.1 (by rw [hZ]; exact hti.2), hz]
  have he' : Edge o.timegrid.length (ti - o.timegrid.length) := by unfold Edge; omega
  have hr' : reference o (ti - o.timegrid.length) = some z := by
    unfold reference; rw [hm]; exact hz'
  set P := inducing (ibLow z b) (ibHigh z b) (unifs env d M r) with hP
  let xs : ℝ → Mat 1 d ℝ := fun s _ => Function.update (fun _ => 0) a s
  have hker : Filter.Tendsto (fun s => pointScore b P (xs s) a 0 - pointScore z P (xs s) a 0)
      Filter.atTop (nhds (0 - 0)) :=
    Filter.Tendsto.sub
      (score_tendsto _ _ _ a a (mul_ne_zero two_ne_zero (sb a)) _)
      (score_tendsto _ _ _ a a (mul_ne_zero two_ne_zero (sz a)) _)
  rw [sub_zero] at hker
  by_contra hcon
  push Not at hcon
  have heq : ∀ s, pointScore b P (xs s) a 0 - pointScore z P (xs s) a 0
      = (avg (b a) - s) / variance (b a) - (avg (z a) - s) / variance (z a) := by
    intro s
    obtain ⟨u', h', hu'⟩ := C36_edge_control_formula env o hN (xs s) _ he' b z z hb' hz' hr' sb sz r
    have := hcon (xs s) _ u' _ _ (C39_interior_control env o hN hk hm (xs s) ti he b z hb hz r) h'
    rw [this, hu']
    simp [xs]
  have hv : ∀ v : Fin N → ℝ, sdev v ^ 2 = variance v := fun v =>
    Real.sq_sqrt (div_nonneg (Finset.sum_nonneg fun _ _ => sq_nonneg _) (Nat.cast_nonneg _))
  have vb : variance (b a) ≠ 0 := by rw [← hv]; exact pow_ne_zero 2 (sb a)
  have vz : variance (z a) ≠ 0 := by rw [← hv]; exact pow_ne_zero 2 (sz a)
  -- the affine function `p + q s` tends to zero, so `p = q = 0`
  have haff : ∀ p q : ℝ, Filter.Tendsto (fun s : ℝ => p + q * s) Filter.atTop (nhds 0) → q = 0 ∧ p = 0 := by
    intro p q h
    have hq : q = 0 := by
      have h1 := h.comp (Filter.tendsto_atTop_add_const_right Filter.atTop (1:ℝ) Filter.tendsto_id)
      have h2 := h1.sub h
      have h3 : (fun s : ℝ => ((fun s : ℝ => p + q * s) ∘ fun s => id s + 1) s - (p + q * s))
          = fun _ => q := by funext s; simp only [Function.comp, id]; ring
      rw [h3, sub_zero] at h2
      exact tendsto_nhds_unique tendsto_const_nhds h2
    subst hq
    simp only [zero_mul, add_zero] at h
    exact ⟨rfl, tendsto_nhds_unique tendsto_const_nhds h⟩
  obtain ⟨hq, hp⟩ := haff (avg (b a) / variance (b a) - avg (z a) / variance (z a))
    (1 / variance (z a) - 1 / variance (b a)) (by
      refine hker.congr fun s => ?_
      rw [heq s]; ring)
  have hvv : variance (b a) = variance (z a) := by
    have := sub_eq_zero.1 hq
    field_simp at this
    linarith
  rcases hd with hd | hd
  · rw [hvv, ← sub_div, div_eq_zero_iff] at hp
    rcases hp with hp | hp
    · exact hd (sub_eq_zero.1 hp)
    · exact vz hp
  · exact hd hvv

/-- The hypotheses of C35, C36 and C39 are met: edge index 3 and interior index 10. -/
example (x : Mat 4 2 ℝ) : (∃ u, calculateU exEnv (exObj false false) x 3 0 = .ok (u, 0)) ∧
    ∃ x' : Mat 1 2 ℝ, ∃ u u' r1 r2, calculateU exEnv (exObj false false) x' 10 0 = .ok (u, r1) ∧
      calculateU exEnv (exObj false false) x' (10 - 20) 0 = .ok (u', r2) ∧ u 0 0 ≠ u' 0 0 := by
  constructor
  · obtain ⟨u, h, _⟩ := C36_edge_control exEnv (exObj false false) (by norm_num) x 3 (.inl (by norm_num))
      _ _ _ (exObj_slices _ _ 3 (by norm_num) (by norm_num)).1
      (exObj_slices _ _ 3 (by norm_num) (by norm_num)).2
      (exObj_slices _ _ 3 (by norm_num) (by norm_num)).2 exObj_spread.1 exObj_spread.2 0
    exact ⟨u, h⟩
  · have hl : (exObj false false).timegrid.length = 20 := by simp [exObj]
    obtain ⟨x', u, u', r1, r2, h1, h2, h3⟩ := C35_negative_index_differs exEnv (exObj false false)
      (by norm_num) (.inl rfl) rfl 10 (by simp [exObj]) (by simp [exObj])
      (by rw [hl]; unfold Edge; norm_num)
      _ _ (exObj_slices _ _ 10 (by norm_num) (by norm_num)).1
      (exObj_slices _ _ 10 (by norm_num) (by norm_num)).2 exObj_spread.1 exObj_spread.2 0
      (.inr (by
        have e1 : variance (fun n : Fin 2 => (((0 : Fin 2).val : ℝ) + n.val + 1)) = 1/4 := by
          simp [variance, avg, Fin.sum_univ_two]; norm_num
        have e2 : variance (fun n : Fin 2 => (((0 : Fin 2).val : ℝ) + 2 * n.val)) = 1 := by
          simp [variance, avg, Fin.sum_univ_two]; norm_num
        rw [e1, e2]; norm_num)) 0
    rw [hl] at h2
    exact ⟨x', u, u', r1, r2, h1, h2, h3⟩

/-! ### C38: layout -/

/-- **C38** (Gaussian branch). `n` points with `c` columns: fewer than `dim` columns raise IndexError;
otherwise the result is `c x n`, its rows beyond `dim` are zero and the others do not depend on the
extra columns. -/
theorem C38_edge_layout (env : Env ρ ℝ) (o : Obj d N M ℝ) (hN : 0 < N) (x : Mat n c ℝ) (ti : Int)
    (he : Edge o.timegrid.length ti) (b z zr : Mat d N ℝ) (hb : pyAt o.B ti = some b)
    (hz : pyAt o.Z ti = some z) (hr : reference o ti = some zr) (sb : Spread b) (sz : Spread zr)
    (r : ρ) :
    (c < d → calculateU env o x ti r = .error .indexError) ∧
    (d ≤ c → ∃ u : Mat c n ℝ, calculateU env o x ti r = .ok (u, r) ∧
      (∀ a j, d ≤ a.val → u a j = 0) ∧
      ∀ a j (h : a.val < d), u a j
        = gaussScore (b ⟨a, h⟩) (x j a) - gaussScore (zr ⟨a, h⟩) (x j a)) := by
  rw [calculateU_edge env o x ti b z zr _ hb hz hr (interBox_real hN zr b) he]
  constructor
  · intro h
    rw [edgeU_err npStd b zr x h]; rfl
  · intro h
    rw [edgeU_ok npStd b zr x h]
    refine ⟨_, rfl, fun a j ha => ?_, fun a j ha => ?_⟩
    · rw [dif_neg (by omega)]; simp
    · rw [dif_pos ha]
      exact gaussU_real _ _ (sb _) (sz _) _

/-- **C38** (kernel branch, outside Brownian-bridge mode). A column count other than `dim` raises:
TypeError for no column, IndexError otherwise. -/
theorem C38_interior_layout (env : Env ρ ℝ) (o : Obj d N M ℝ) (hN : 0 < N) (hd : 0 < d)
    (hk : o.cfg.kern = "RBF" ∨ o.cfg.kern = "periodic")
    (hm : (o.cfg.reweight && o.cfg.brownBridge) = false) (x : Mat n c ℝ) (ti : Int)
    (he : ¬ Edge o.timegrid.length ti) (b z : Mat d N ℝ) (hb : pyAt o.B ti = some b)
    (hz : pyAt o.Z ti = some z) (r : ρ) (hc : c ≠ d) :
    calculateU env o x ti r = .error (if c = 0 then .typeError else .indexError) := by
  have hr : reference o ti = some z := by unfold reference; rw [hm]; exact hz
  rw [calculateU_inner env o x ti b z z _ hb hz hr (interBox_real hN z b) he, hm,
    effKern_rbf hk, RandM.bind_app, npInducing_gen]
  simp only [Bool.false_eq_true, if_false]
  have key : ∀ Sxx : Mat d M ℝ, kernelU "RBF" Sxx b z none x
      = .error (if c = 0 then .typeError else .indexError) := by
    intro Sxx
    unfold kernelU
    by_cases h0 : c = 0
    · subst h0
      rw [if_pos rfl]
      obtain ⟨d, rfl⟩ : ∃ e, d = e + 1 := ⟨d - 1, by omega⟩
      rw [forFin, scoreSepFn_zero]
      rfl
    · rw [if_neg h0]
      by_cases hlt : c < d
      · refine forFin_error_index _ (fun i s e hh => ?_) ⟨c, hlt⟩ (fun s => ?_)
        · obtain ⟨v, hv⟩ := scoreSepFn_lt (tr b) (tr Sxx) (lengthScales b) i x (by omega) hlt.le
          obtain ⟨w, hw⟩ := scoreSepFn_lt (tr z) (tr Sxx) (lengthScales z) i x (by omega) hlt.le
          simp only [hv, hw, Except.ok_bind', setOut] at hh
          split at hh
          · cases hh
          · injection hh with hh; exact hh.symm
        · obtain ⟨v, hv⟩ := scoreSepFn_lt (tr b) (tr Sxx) (lengthScales b) ⟨c, hlt⟩ x (by omega) hlt.le
          obtain ⟨w, hw⟩ := scoreSepFn_lt (tr z) (tr Sxx) (lengthScales z) ⟨c, hlt⟩ x (by omega) hlt.le
          simp only [hv, hw, Except.ok_bind', setOut, lt_irrefl, if_false]
      · obtain ⟨d, rfl⟩ : ∃ e, d = e + 1 := ⟨d - 1, by omega⟩
        rw [forFin, scoreSepFn_gt (tr b) (tr Sxx) (lengthScales b) 0 x (by omega)]
        rfl
  rw [key]
  rfl

example (x : Mat 5 3 ℝ) (y : Mat 2 1 ℝ) :
    (∃ u : Mat 3 5 ℝ, calculateU exEnv (exObj false false) x 3 0 = .ok (u, 0) ∧ ∀ j, u 2 j = 0) ∧
    calculateU exEnv (exObj false false) y 3 0 = .error .indexError ∧
    calculateU exEnv (exObj false false) x 10 0 = .error .indexError := by
  have hl : (exObj false false).timegrid.length = 20 := by simp [exObj]
  have h3 := exObj_slices false false 3 (by norm_num) (by norm_num)
  have h10 := exObj_slices false false 10 (by norm_num) (by norm_num)
  refine ⟨?_, ?_, ?_⟩
  · obtain ⟨u, h, hz, _⟩ := (C38_edge_layout exEnv (exObj false false) (by norm_num) x 3
      (.inl (by norm_num)) _ _ _ h3.1 h3.2 h3.2 exObj_spread.1 exObj_spread.2 0).2 (by norm_num)
    exact ⟨u, h, fun j => hz 2 j (le_refl _)⟩
  · exact (C38_edge_layout exEnv (exObj false false) (by norm_num) y 3
      (.inl (by norm_num)) _ _ _ h3.1 h3.2 h3.2 exObj_spread.1 exObj_spread.2 0).1 (by norm_num)
  · exact C38_interior_layout exEnv (exObj false false) (by norm_num) (by norm_num) (.inl rfl) rfl x 10
      (by rw [hl]; unfold Edge; norm_num) _ _ h10.1 h10.2 0 (by norm_num)

/-! ### C41: query histories -/

/-- A query whose answer involves no random numbers: coverage, or control at an edge index. -/
def Settled {K : Type} (k : ℕ) : Query K → Prop
  | .control _ _ _ ti => Edge k ti
  | .covered _ _ _ => True

section
variable {K : Type} [Add K] [Sub K] [Mul K] [Div K] [Neg K] [NumOps K]

/-- **C41** (any arithmetic). In every session on one object, with arbitrary queries and arbitrary use of
the random generator in between, the same coverage query or edge control query always has the same
answer (value or exception). -/
theorem C41_repeated_queries (env : Env ρ K) (o : Obj d N M K) (h : List (Query K × ρ)) (i j : ℕ)
    (q : Query K) (ri rj : ρ) (hi : h[i]? = some (q, ri)) (hj : h[j]? = some (q, rj))
    (hq : Settled o.timegrid.length q) :
    (session (ask env o) h)[i]? = (session (ask env o) h)[j]? := by
  have key : ∀ r r' : ρ, ask env o q r = ask env o q r' := by
    intro r r'
    cases q with
    | covered c X ti => rfl
    | control n c x ti =>
      have hs : NoDraw (calculateU (ρ := ρ) env o x ti) := by
        unfold calculateU
        simp only [if_pos (show ti ≤ 5 ∨ (o.timegrid.length : Int) - 5 ≤ ti from hq)]
        repeat' first | exact noDraw_pure _ | exact noDraw_liftM _ | refine noDraw_bind ?_ fun _ => ?_
      obtain ⟨e, he⟩ := hs
      simp only [ask, he]
      cases e <;> rfl
  simp only [session, List.getElem?_map, hi, hj, Option.map_some, key ri rj]

/-- **C41** (torch). -/
theorem C41_torch_repeated_queries (env : Env ρ K) (o : Obj d N M K) (h : List (Query K × ρ)) (i j : ℕ)
    (q : Query K) (ri rj : ρ) (hi : h[i]? = some (q, ri)) (hj : h[j]? = some (q, rj))
    (hq : Settled o.timegrid.length q) :
    (session (torchAsk env o) h)[i]? = (session (torchAsk env o) h)[j]? := by
  have key : ∀ r r' : ρ, torchAsk env o q r = torchAsk env o q r' := by
    intro r r'
    cases q with
    | covered c X ti => rfl
    | control n c x ti =>
      have hs : NoDraw (torchCalculateU (ρ := ρ) env o x ti) := by
        unfold torchCalculateU
        simp only [if_pos (show ti ≤ 5 ∨ (o.timegrid.length : Int) - 5 ≤ ti from hq)]
        repeat' first | exact noDraw_pure _ | exact noDraw_liftM _ | refine noDraw_bind ?_ fun _ => ?_
      obtain ⟨e, he⟩ := hs
      simp only [torchAsk, he]
      cases e <;> rfl
  simp only [session, List.getElem?_map, hi, hj, Option.map_some, key ri rj]
end

/-- The hypotheses of C41 are met by a session with an interior query in between, and the answer is a
value. -/
example (x : Mat 4 2 ℝ) :
    let q : Query ℝ := .control 4 2 x 3
    let h : List (Query ℝ × ℕ) := [(q, 0), (.control 4 2 x 10, 0), (q, 57)]
    (session (ask exEnv (exObj false false)) h)[0]? = (session (ask exEnv (exObj false false)) h)[2]? ∧
      ∃ u, (session (ask exEnv (exObj false false)) h)[0]? = some (.control u) := by
  intro q h
  refine ⟨C41_repeated_queries exEnv (exObj false false) h 0 2 q 0 57 rfl rfl (.inl (by norm_num)), ?_⟩
  have h3 := exObj_slices false false 3 (by norm_num) (by norm_num)
  obtain ⟨u, hu, _⟩ := C36_edge_control exEnv (exObj false false) (by norm_num) x 3 (.inl (by norm_num))
      _ _ _ h3.1 h3.2 h3.2 exObj_spread.1 exObj_spread.2 0
  refine ⟨⟨2, 4, u⟩, ?_⟩
  simp only [session, h, q, List.map_cons, List.getElem?_cons_zero, ask, hu]

/-! ### C44: torch against numpy -/

/-- **C44**. On identical flows the torch edge control is `(N-1)/N` times the numpy one. -/
theorem C44_edge_factor (env : Env ρ ℝ) (o : Obj d N M ℝ) (hN : 2 ≤ N) (x : Mat n d ℝ) (ti : Int)
    (he : Edge o.timegrid.length ti) (b z zr : Mat d N ℝ) (hb : pyAt o.B ti = some b)
    (hz : pyAt o.Z ti = some z) (hr : reference o ti = some zr) (_ : Spread b) (_ : Spread zr) (r : ρ) :
    ∃ u ut : Mat d n ℝ, calculateU env o x ti r = .ok (u, r) ∧
      torchCalculateU env o x ti r = .ok (⟨d, n, ut⟩, r) ∧
      ∀ a j, ut a j = (N - 1) / N * u a j := by
  have hN0 : 0 < N := by omega
  rw [calculateU_edge env o x ti b z zr _ hb hz hr (interBox_real hN0 zr b) he,
    edgeU_ok npStd b zr x (le_refl d)]
  refine ⟨_, fun a j => gaussU torchStd (b a) (zr a) (x j a), rfl, ?_, fun a j => ?_⟩
  · unfold torchCalculateU
    unfold reference at hr
    rw [pyGet_of_pyAt hb, pyGet_of_pyAt hz]
    simp only [RandM.liftM_ok, pure_bind,
      if_pos (show ti ≤ 5 ∨ (o.timegrid.length : Int) - 5 ≤ ti from he)]
    have hfin : ∀ w : Mat d N ℝ, w = zr → ((liftM (hullBox w b) : RandM ρ (Fin d → ℝ × ℝ)) >>= fun _ =>
        (liftM (edgeU torchStd b w x) : RandM ρ (Mat d n ℝ)) >>= fun u => pure (⟨d, n, u⟩ : Dyn2 ℝ)) r
        = .ok (⟨d, n, fun a j => gaussU torchStd (b a) (zr a) (x j a)⟩, r) := by
      rintro w rfl
      rw [hullBox_real hN0, edgeU_ok torchStd b w x (le_refl d)]
      simp only [RandM.liftM_ok, pure_bind, RandM.pure_app]
      congr 3
      funext a j
      rw [dif_pos a.2]
    cases hm : (o.cfg.reweight && o.cfg.brownBridge) with
    | false =>
      rw [hm] at hr
      simp only [Bool.false_eq_true, if_false] at hr
      simp only [RandM.liftM_ok, pure_bind, Option.getD_none]
      refine hfin z ?_
      rw [hr] at hz; exact (Option.some.inj hz).symm
    | true =>
      rw [hm] at hr
      simp only [if_true] at hr
      cases hT : o.Ztr with
      | none => rw [hT] at hr; cases hr
      | some T =>
        rw [hT] at hr
        simp only [Option.bind_some] at hr
        simp only [pyGet_of_pyAt hr, Except.ok_bind', RandM.liftM_ok, pure_bind, Option.getD_some]
        exact hfin zr rfl
  · rw [dif_pos a.2]
    exact gaussU_torch hN _ _ _

/-- **C44** (lengthscales). The lengthscales of the torch class are `sqrt(N/(N-1))` times those of the
numpy class. -/
theorem C44_lengthscales (hN : 2 ≤ N) (x : Mat d N ℝ) (a : Fin d) :
    torchLengthScales x a = Real.sqrt (N / (N - 1)) * lengthScales x a ∧
      lengthScales x a = 2 * sdev (x a) := by
  rw [torchLengthScales_real, lengthScales_real]
  refine ⟨?_, rfl⟩
  show 2 * sampleSdev (x a) = _ * (2 * sdev (x a))
  rw [sampleSdev_eq hN]
  ring

example (x : Mat 4 2 ℝ) : ∃ u ut : Mat 2 4 ℝ,
    calculateU exEnv (exObj false false) x 3 0 = .ok (u, 0) ∧
    torchCalculateU exEnv (exObj false false) x 3 0 = .ok (⟨2, 4, ut⟩, 0) ∧
    ∀ a j, ut a j = (((2:ℕ) : ℝ) - 1) / ((2:ℕ) : ℝ) * u a j := by
  have h3 := exObj_slices false false 3 (by norm_num) (by norm_num)
  exact C44_edge_factor exEnv (exObj false false) (by norm_num) x 3 (.inl (by norm_num))
      _ _ _ h3.1 h3.2 h3.2 exObj_spread.1 exObj_spread.2 0

end DPFC
