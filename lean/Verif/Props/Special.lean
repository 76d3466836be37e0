import Verif.Lib.NanFlow
import Verif.Props.Pins
import Verif.Lib.XRRuns

/-!
# C37, C48, C56, C57: NaN, infinities and clouds without spread

`K` is any arithmetic that obeys the rules of IEEE 754 about special values (`Spec.Ieee`): `I.nan`, `I.fin`
recognise NaN and the finite numbers. `linalg.inv` may do anything on the matrices that occur.
-/

namespace DPFC
open Spec

variable {K ρ : Type} [Add K] [Sub K] [Mul K] [Div K] [Neg K] [NumOps K]
variable {d N M n : ℕ}

/-! ### C37 -/

private theorem slices_at (env : Env ρ K) (c : Cfg d N M K) (hd : 0 < d) (r r' : ρ) (o : Obj d N M K)
    (h : construct env c r = .ok (o, r') ∨ torchConstruct env c r = .ok (o, r')) (i : ℕ) (ti : Int)
    (hi : i < o.timegrid.length)
    (hp : ∀ l : Traj d N K, l.length = o.timegrid.length → pyAt l ti = l[i]?) :
    ∃ b z zr, pyAt o.B ti = some b ∧ o.B[i]? = some b ∧ pyAt o.Z ti = some z ∧ o.Z[i]? = some z ∧
      reference o ti = some zr ∧
      (if c.reweight && c.brownBridge then ∃ T, o.Ztr = some T ∧ T[i]? = some zr else zr = z) := by
  obtain ⟨hZ, hB, hs, hT⟩ := C08_storage_sizes env c hd r r' o h
  have hc : o.cfg = c := h.elim (fun h => (construct_fields h).1) (fun h => (torchConstruct_fields h).1)
  obtain ⟨b, hb⟩ := get_of_lt (l := o.B) (i := i) (by omega)
  obtain ⟨z, hz⟩ := get_of_lt (l := o.Z) (i := i) (by omega)
  have hb' := (hp o.B hB).trans hb
  have hz' := (hp o.Z hZ).trans hz
  unfold reference
  rw [hc]
  by_cases hm : (c.reweight && c.brownBridge) = true
  · rw [hm] at hs
    obtain ⟨T, hT'⟩ := Option.isSome_iff_exists.1 hs
    obtain ⟨zr, hzr⟩ := get_of_lt (l := T) (i := i) (by rw [hT T hT']; omega)
    refine ⟨b, z, zr, hb', hb, hz', hz, ?_, ?_⟩
    · rw [if_pos hm, hT', Option.bind_some, hp T (hT T hT'), hzr]
    · rw [if_pos hm]; exact ⟨T, hT', hzr⟩
  · refine ⟨b, z, z, hb', hb, hz', hz, ?_, ?_⟩
    · rw [if_neg hm, hz']
    · rw [if_neg hm]

private theorem std_point (I : Ieee K) {y : K} (hN : 0 < N) (hy : I.fin y ∧ ExactMean N y) :
    (I.zero (npStd fun _ : Fin N => y) ∨ I.nan (npStd fun _ : Fin N => y)) ∧
    (I.zero (torchStd fun _ : Fin N => y) ∨ I.nan (torchStd fun _ : Fin N => y)) :=
  ⟨Or.inl (zero_npStd I hy.1 hN hy.2), zero_or_nan_torchStd I hy.1 hN hy.2⟩

/-- **C37** (start). In deterministic mode with at least two grid points, `calculate_u` at time index 0
(also written `-timegrid.size`) returns NaN in every coordinate at every query point, without raising,
numpy and torch. -/
theorem C37_control_at_start_is_nan (I : Ieee K) (env : Env ρ K) (c : Cfg d N M K) (hd : 0 < d) (hN : 0 < N)
    (hdet : c.deterministic = true) (hy : ∀ a, I.fin (c.y1 a) ∧ ExactMean N (c.y1 a)) (r r' : ρ)
    (o : Obj d N M K) (hk : 2 ≤ o.timegrid.length) (x : Mat n d K) (ti : Int)
    (hti : ti = 0 ∨ ti = -(o.timegrid.length : Int)) (s : ρ) :
    (construct env c r = .ok (o, r') →
      ∃ u : Mat d n K, calculateU env o x ti s = .ok (u, s) ∧ ∀ a j, I.nan (u a j)) ∧
    (torchConstruct env c r = .ok (o, r') →
      ∃ u : Mat d n K, torchCalculateU env o x ti s = .ok (⟨d, n, u⟩, s) ∧ ∀ a j, I.nan (u a j)) := by
  have key : (construct env c r = .ok (o, r') ∨ torchConstruct env c r = .ok (o, r')) →
      ∃ b z zr, pyAt o.B ti = some b ∧ pyAt o.Z ti = some z ∧ reference o ti = some zr ∧
        (∀ a, b a = fun _ => c.y1 a) ∧ (∀ a, zr a = fun _ => c.y1 a) := by
    intro h
    obtain ⟨b, z, zr, hb, hb0, hz, hz0, hr, hzr⟩ := slices_at env c hd r r' o h 0 ti (by omega)
      (fun l hl => pyAt_first (by omega) (by rw [hl]; exact hti))
    obtain ⟨S, hS, hSv⟩ := C03_backward_flow_starts_at_y1 env c hd r r' o h
    obtain ⟨h5, h5'⟩ := C05_forward_flows_start_at_y1 env c hd hdet r r' o h
    obtain ⟨S2, hS2, hS2v⟩ := h5 (Or.inl hk)
    rw [hb0] at hS; cases hS
    rw [hz0] at hS2; cases hS2
    refine ⟨b, z, zr, hb, hz, hr, fun a => funext fun p => hSv a p, fun a => funext fun p => ?_⟩
    split at hzr
    · obtain ⟨T, hT, hT0⟩ := hzr
      obtain ⟨S3, hS3, hS3v⟩ := h5' T hT
      rw [hT0] at hS3; cases hS3
      exact hS3v a p
    · subst hzr; exact hS2v a p
  have he : Edge o.timegrid.length ti := by left; omega
  constructor
  · intro h
    obtain ⟨b, z, zr, hb, hz, hr, hbv, hzv⟩ := key (Or.inl h)
    refine ⟨_, (edge_queries env o x ti b z zr hN hb hz hr he s).1, fun a j => ?_⟩
    rw [hbv, hzv]
    exact gaussU_same_nan I _ _ _ (std_point I hN (hy a)).1
  · intro h
    obtain ⟨b, z, zr, hb, hz, hr, hbv, hzv⟩ := key (Or.inr h)
    refine ⟨_, (edge_queries env o x ti b z zr hN hb hz hr he s).2, fun a j => ?_⟩
    rw [hbv, hzv]
    exact gaussU_same_nan I _ _ _ (std_point I hN (hy a)).2

/-- **C37** (end). With at least two grid points, `calculate_u` at the last time index (also written `-1`)
returns no finite number at all, without raising, numpy and torch, in every mode. -/
theorem C37_control_at_end_is_not_finite (I : Ieee K) (env : Env ρ K) (c : Cfg d N M K) (hd : 0 < d)
    (hN : 0 < N) (hy : ∀ a, I.fin (c.y2 a) ∧ ExactMean N (c.y2 a)) (r r' : ρ) (o : Obj d N M K)
    (hk : 2 ≤ o.timegrid.length) (x : Mat n d K) (ti : Int)
    (hti : ti = (o.timegrid.length : Int) - 1 ∨ ti = -1) (s : ρ) :
    (construct env c r = .ok (o, r') →
      ∃ u : Mat d n K, calculateU env o x ti s = .ok (u, s) ∧ ∀ a j, ¬ I.fin (u a j)) ∧
    (torchConstruct env c r = .ok (o, r') →
      ∃ u : Mat d n K, torchCalculateU env o x ti s = .ok (⟨d, n, u⟩, s) ∧ ∀ a j, ¬ I.fin (u a j)) := by
  have key : (construct env c r = .ok (o, r') ∨ torchConstruct env c r = .ok (o, r')) →
      ∃ b z zr, pyAt o.B ti = some b ∧ pyAt o.Z ti = some z ∧ reference o ti = some zr ∧
        (∀ a, b a = fun _ => c.y2 a) := by
    intro h
    obtain ⟨b, z, zr, hb, hb0, hz, hz0, hr, _⟩ := slices_at env c hd r r' o h (o.timegrid.length - 1) ti
      (by omega) (fun l hl => by rw [pyAt_last (by omega) (by rw [hl]; exact hti), hl])
    obtain ⟨S, hS, hSv⟩ := C04_backward_flow_ends_at_y2 env c hd r r' o h hk
    rw [hb0] at hS; cases hS
    exact ⟨b, z, zr, hb, hz, hr, fun a => funext fun p => hSv a p⟩
  have he : Edge o.timegrid.length ti := by
    rcases hti with h | h
    · right; omega
    · left; omega
  constructor
  · intro h
    obtain ⟨b, z, zr, hb, hz, hr, hbv⟩ := key (Or.inl h)
    refine ⟨_, (edge_queries env o x ti b z zr hN hb hz hr he s).1, fun a j => ?_⟩
    rw [hbv]
    exact gaussU_not_fin I _ _ _ _ (std_point I hN (hy a)).1
  · intro h
    obtain ⟨b, z, zr, hb, hz, hr, hbv⟩ := key (Or.inr h)
    refine ⟨_, (edge_queries env o x ti b z zr hN hb hz hr he s).2, fun a j => ?_⟩
    rw [hbv]
    exact gaussU_not_fin I _ _ _ _ (std_point I hN (hy a)).2

section
open XR
attribute [local instance] exOps

/-- Non-vacuity: in arithmetic with special values, two-dimensional, two particles that drift apart, target
(1, 1), `steps ≥ 1` grid steps: the control at the first time index is NaN and at the last one not finite. -/
example (steps : ℕ) (hs : 1 ≤ steps) : ∃ (o : Obj 2 2 1 XR) (r' : ℕ),
    construct xrEnv (xrFan 2 2 1 steps fun _ => .fin 1) 0 = .ok (o, r') ∧ o.timegrid.length = steps + 1 ∧
    ∀ x : Mat 3 2 XR,
      (∃ u : Mat 2 3 XR, calculateU xrEnv o x 0 0 = .ok (u, 0) ∧ ∀ a j, u a j = .nan) ∧
      (∃ u : Mat 2 3 XR, calculateU xrEnv o x (-1) 0 = .ok (u, 0) ∧ ∀ a j, ¬ ∃ w, u a j = .fin w) := by
  obtain ⟨o, r', h, hl⟩ := xrFan_constructs (d := 2) (N := 2) (M := 1) (le_refl 2) (by decide) steps hs
    (fun _ => .fin 1) (.inl fun _ => ⟨1, rfl⟩) 0
  refine ⟨o, r', h, hl, fun x => ⟨?_, ?_⟩⟩
  · exact (C37_control_at_start_is_nan exIeee xrEnv _ (by decide) (by decide) rfl
      (fun a => ⟨⟨0, rfl⟩, exactMean exInv 2 (by decide) 0⟩) 0 r' o (by omega) x 0 (.inl rfl) 0).1 h
  · exact (C37_control_at_end_is_not_finite exIeee xrEnv _ (by decide) (by decide)
      (fun a => ⟨⟨1, rfl⟩, exactMean exInv 2 (by decide) 1⟩) 0 r' o (by omega) x (-1) (.inr rfl) 0).1 h

end

/-! ### C56 -/

/-- **C56.** If the constructor returns (at least three grid points), the forward flow contains no NaN:
in deterministic mode no time slice, in stochastic mode no slice from index 2 on. Numpy and torch. -/
theorem C56_forward_flow_has_no_nan (I : Ieee K) (env : Env ρ K) (c : Cfg d N M K) (r r' : ρ)
    (o : Obj d N M K)
    (h : construct env c r = .ok (o, r') ∨ torchConstruct env c r = .ok (o, r'))
    (hk : 3 ≤ o.timegrid.length) (i : ℕ) (hi : c.deterministic = true ∨ 2 ≤ i) (x : Mat d N K)
    (hx : o.Z[i]? = some x) (a : Fin d) (p : Fin N) : ¬ I.nan (x a p) := by
  by_cases h2 : 2 ≤ i
  · rcases h with h | h
    · obtain ⟨hZ, _, _, rs, _, hs⟩ := construct_back_steps h (by omega)
      have hil : i < o.Z.length := by
        by_contra hc
        rw [List.getElem?_eq_none (by omega)] at hx; cases hx
      obtain ⟨z, tj, b, y, hz, _, _, _, hst⟩ := hs (i - 1) (by omega) (by omega)
      rw [show i - 1 + 1 = i by omega, hx] at hz
      cases hz
      simp only [npBack, backStep] at hst
      obtain ⟨gr, r1, h3, _⟩ := RandM.bind_ok.1 hst
      exact densityAt_no_nan I h3 a p
    · obtain ⟨hZ, _, _, rs, _, hs⟩ := torchConstruct_back_steps h (by omega)
      have hil : i < o.Z.length := by
        by_contra hc
        rw [List.getElem?_eq_none (by omega)] at hx; cases hx
      obtain ⟨z, tj, b, y, hz, _, _, _, hst⟩ := hs (i - 1) (by omega) (by omega)
      rw [show i - 1 + 1 = i by omega, hx] at hz
      cases hz
      simp only [torchBack, backStep] at hst
      obtain ⟨gr, r1, h3, _⟩ := RandM.bind_ok.1 hst
      exact torchDensityAt_no_nan I h3 a p
  · have hdet : c.deterministic = true := hi.resolve_right h2
    rcases h with h | h
    · have hg := (construct_fields h).2
      obtain ⟨ys, r1, zt, r2, bs, h1, _, _, ho⟩ :=
        (construct_det_iff env c hdet (by rw [← hg]; omega) r r' o).1 h
      rw [ho] at hx
      exact chain_start_no_nan I h1 (by rw [← hg, List.length_tail]; omega) a p
        (fun t x y r r' h hn => nan_ottoSlice_one I h a p hn)
        (fun t x y r r' h => ottoSlice_no_nan I (by omega) h a p) i (by omega) x hx
    · have hg := (torchConstruct_fields h).2.1
      obtain ⟨ys, r1, zt, r2, bs, h1, _, _, ho⟩ :=
        (torchConstruct_det_iff env c hdet _ hg (by omega) r r' o).1 h
      have hx' : (pt N c.y1 :: ys)[i]? = some x := by rw [ho] at hx; exact hx
      exact chain_start_no_nan I h1 (by rw [List.length_tail]; omega) a p
        (fun t x y r r' h hn => nan_torchOttoSlice_one I h a p hn)
        (fun t x y r r' h => torchOttoSlice_no_nan I (by omega) h a p) i (by omega) x hx'

/-- **C56** (ranges, any arithmetic). In a returned deterministic numpy object the range
`max - min` of every coordinate of every forward slice strictly between the first and the last is finite. -/
theorem C56_forward_ranges_finite (env : Env ρ K) (c : Cfg d N M K) (hdet : c.deterministic = true)
    (r r' : ρ) (o : Obj d N M K) (h : construct env c r = .ok (o, r')) (i : ℕ) (h1 : 1 ≤ i)
    (h2 : i + 2 ≤ o.timegrid.length) (x : Mat d N K) (hx : o.Z[i]? = some x) (a : Fin d) :
    ∃ lo hi, npMin (x a) = .ok lo ∧ npMax (x a) = .ok hi ∧ NumOps.isFinite (hi - lo) = true := by
  have hg := (construct_fields h).2
  obtain ⟨ys, r1, zt, r2, bs, hc, _, _, ho⟩ :=
    (construct_det_iff env c hdet (by rw [← hg]; omega) r r' o).1 h
  have hx' : (pt N c.y1 :: ys)[i]? = some x := by rw [ho] at hx; exact hx
  obtain ⟨hl, rs, _, _, hs⟩ := chain_ok_iff.1 hc
  rw [← hg] at hl
  obtain ⟨t, ht⟩ := get_of_lt (l := o.timegrid.tail) (i := i) (by simp; omega)
  obtain ⟨y, hy⟩ := get_of_lt (l := pt N c.y1 :: ys) (i := i+1) (by simp at hl ⊢; omega)
  rw [hg] at ht
  exact ottoSlice_range (by omega) (hs i t x y ht hx' hy) a

/-- **C56** (what happens instead). The drift with score correction refuses a cloud with a NaN, from any
random state: numpy raises OverflowError (in one dimension `f_seperate` raises IndexError before, because it tries
to plot the second coordinate of the exploding flow), torch raises ValueError. `plot = true` is `f_seperate`,
`plot = false` is `f_seperate_true`. -/
theorem C56_nan_cloud_raises (I : Ieee K) (plot : Bool) (env : Env ρ K) (kern : String) (g : K) (f : Drift d N K)
    (x : Mat d N K) (t : K) (a : Fin d) (p : Fin N) (h : I.nan (x a p)) (r : ρ) :
    fSeperate plot env M kern g f x t r
      = .error (if plot = true ∧ d < 2 then .indexError else .overflowError) ∧
    torchFSeperate env M g f x t r = .error .valueError :=
  ⟨fSeperate_nan I plot env kern g f x t a p h r, torchFSeperate_nan I env g f x t a p h r⟩

section
open XR
attribute [local instance] exOps

/-- Non-vacuity: returned objects with at least three grid points exist in both modes, and then all
forward slices (from index 2 on) are free of NaN. -/
example (steps : ℕ) (hs : 2 ≤ steps) :
    (∃ (o : Obj 2 2 1 XR) (r' : ℕ), construct xrEnv (xrFan 2 2 1 steps fun _ => .fin 1) 0 = .ok (o, r') ∧
      3 ≤ o.timegrid.length ∧ ∀ (i : ℕ) (x : Mat 2 2 XR), o.Z[i]? = some x → ∀ a p, x a p ≠ .nan) ∧
    (∃ (o : Obj 2 2 1 XR) (r' : ℕ), construct xrEnv (xrStoch 2 2 1 steps fun _ => .fin 1) 0 = .ok (o, r') ∧
      3 ≤ o.timegrid.length ∧ ∀ (i : ℕ) (x : Mat 2 2 XR), 2 ≤ i → o.Z[i]? = some x →
        ∀ a p, x a p ≠ .nan) := by
  constructor
  · obtain ⟨o, r', h, hl⟩ := xrFan_constructs (d := 2) (N := 2) (M := 1) (le_refl 2) (by decide) steps
      (by omega) (fun _ => .fin 1) (.inl fun _ => ⟨1, rfl⟩) 0
    exact ⟨o, r', h, by omega, fun i x hx a p =>
      C56_forward_flow_has_no_nan exIeee xrEnv _ 0 r' o (.inl h) (by omega) i (.inl rfl) x hx a p⟩
  · obtain ⟨o, r', h, hl⟩ := xrStoch_constructs (d := 2) (N := 2) (M := 1) (le_refl 2) (by decide)
      (by decide) steps (by omega) (fun _ => .fin 1) (fun _ => ⟨1, rfl⟩) 0
    exact ⟨o, r', h, by omega, fun i x hi hx a p =>
      C56_forward_flow_has_no_nan exIeee xrEnv _ 0 r' o (.inl h) (by omega) i (.inr hi) x hx a p⟩

/-- Non-vacuity: a cloud with one NaN among finite numbers makes the drift raise OverflowError. -/
example (r : ℕ) (f : Drift 2 3 XR) (t g : XR) : fSeperate true xrEnv 5 "RBF" g f
    (fun a p => if a = 1 ∧ p = 2 then .nan else .fin p.val) t r = .error .overflowError := by
  refine (C56_nan_cloud_raises exIeee true xrEnv "RBF" g f _ t 1 2 ?_ r).1
  exact if_pos ⟨rfl, rfl⟩

/-- The same in one dimension. -/
example (r : ℕ) (f : Drift 1 3 XR) (t g : XR) :
    fSeperate true xrEnv 5 "RBF" g f (fun _ p => if p = 2 then .nan else .fin p.val) t r
      = .error .indexError ∧
    fSeperate false xrEnv 5 "RBF" g f (fun _ p => if p = 2 then .nan else .fin p.val) t r
      = .error .overflowError :=
  ⟨(C56_nan_cloud_raises exIeee true xrEnv "RBF" g f _ t 0 2 (by exact if_pos rfl) r).1,
   (C56_nan_cloud_raises exIeee false xrEnv "RBF" g f _ t 0 2 (by exact if_pos rfl) r).1⟩

end

/-! ### C57 -/

/-- **C57.** A particle of the backward flow that has a NaN coordinate at some time index `i ≥ 1` has only
NaN coordinates at all earlier time indices but the first, and no exception is raised. Numpy and torch, both
modes. -/
theorem C57_nan_particle_stays_nan (I : Ieee K) (env : Env ρ K) (c : Cfg d N M K) (hM : 0 < M) (r r' : ρ)
    (o : Obj d N M K)
    (h : construct env c r = .ok (o, r') ∨ torchConstruct env c r = .ok (o, r'))
    (i j : ℕ) (hj : 1 ≤ j) (hji : j < i) (b y : Mat d N K) (hb : o.B[i]? = some b) (hy : o.B[j]? = some y)
    (a a' : Fin d) (p : Fin N) (hn : I.nan (b a p)) : I.nan (y a' p) := by
  have hd : 0 < d := by have := a.2; omega
  have hBl := (C08_storage_sizes env c hd r r' o h).2.1
  have hil : i < o.B.length := by
    by_contra hc
    rw [List.getElem?_eq_none (by omega)] at hb; cases hb
  have step : ∀ j b y, 1 ≤ j → j + 2 ≤ o.timegrid.length → o.B[j+1]? = some b → o.B[j]? = some y →
      ∀ a a', I.nan (b a p) → I.nan (y a' p) := by
    intro j b y h1 h2 hb hy a a' hn
    rcases h with h | h
    · obtain ⟨_, _, _, rs, _, hs⟩ := construct_back_steps h (by omega)
      obtain ⟨z, tj, b', y', hz, _, hb', hy', hst⟩ := hs j h1 h2
      rw [hb] at hb'; cases hb'
      rw [hy] at hy'; cases hy'
      exact nan_backStep I (fun v r r' hv =>
        nan_densityAt I hM (effKern_ne_periodic _) hv p a hn a') hst
    · obtain ⟨_, _, _, rs, _, hs⟩ := torchConstruct_back_steps h (by omega)
      obtain ⟨z, tj, b', y', hz, _, hb', hy', hst⟩ := hs j h1 h2
      rw [hb] at hb'; cases hb'
      rw [hy] at hy'; cases hy'
      exact nan_backStep I (fun v r r' hv => nan_torchDensityAt I hM hv p a hn a') hst
  -- downward induction from `i`
  obtain ⟨m, hm⟩ : ∃ m, i = j + (m + 1) := ⟨i - j - 1, by omega⟩
  induction m generalizing j y a' with
  | zero => exact step j b y hj (by omega) (by rw [← hb, hm]) hy a a' hn
  | succ m ih =>
    obtain ⟨w, hw⟩ := get_of_lt (l := o.B) (i := j+1) (by omega)
    have := ih (j+1) (by omega) (by omega) w hw a (by omega)
    exact step j w y hj (by omega) hw hy a a' this

/-- **C57** (deterministic mode). One NaN anywhere in the backward flow at time index `i ≥ 1` makes the
whole backward flow NaN at all earlier time indices but the first. -/
theorem C57_nan_poisons_all_particles (I : Ieee K) (env : Env ρ K) (c : Cfg d N M K) (hM : 0 < M)
    (hdet : c.deterministic = true) (r r' : ρ) (o : Obj d N M K)
    (h : construct env c r = .ok (o, r') ∨ torchConstruct env c r = .ok (o, r'))
    (i j : ℕ) (hj : 1 ≤ j) (hji : j < i) (b y : Mat d N K) (hb : o.B[i]? = some b) (hy : o.B[j]? = some y)
    (a a' : Fin d) (p p' : Fin N) (hn : I.nan (b a p)) : I.nan (y a' p') := by
  have hd : 0 < d := by have := a.2; omega
  have hBl := (C08_storage_sizes env c hd r r' o h).2.1
  have hil : i < o.B.length := by
    by_contra hc
    rw [List.getElem?_eq_none (by omega)] at hb; cases hb
  -- it suffices to reach some slice at or after `j` where particle `p'` has a NaN
  by_cases hlast : i + 1 = o.timegrid.length
  · obtain ⟨S, hS, hSv⟩ := C04_backward_flow_ends_at_y2 env c hd r r' o h (by omega)
    rw [show o.timegrid.length - 1 = i by omega, hb] at hS
    cases hS
    refine C57_nan_particle_stays_nan I env c hM r r' o h i j hj hji b y hb hy a a' p' ?_
    rw [hSv a p', ← hSv a p]
    exact hn
  · have first : ∀ w, o.B[i-1]? = some w → ∀ a', I.nan (w a' p') := by
      intro w hw a'
      rcases h with h | h
      · obtain ⟨_, _, _, rs, _, hs⟩ := construct_back_steps h (by omega)
        obtain ⟨z, tj, b', y', hz, _, hb', hy', hst⟩ := hs (i-1) (by omega) (by omega)
        rw [show i - 1 + 1 = i by omega, hb] at hb'; cases hb'
        rw [hw] at hy'; cases hy'
        rw [npBack, hdet] at hst
        exact nan_backStep_bw I (by omega) (fun v r r' hv =>
          nan_bwDensityAt I hM (effKern_ne_periodic _) hv p a hn a' p') hst
      · obtain ⟨_, _, _, rs, _, hs⟩ := torchConstruct_back_steps h (by omega)
        obtain ⟨z, tj, b', y', hz, _, hb', hy', hst⟩ := hs (i-1) (by omega) (by omega)
        rw [show i - 1 + 1 = i by omega, hb] at hb'; cases hb'
        rw [hw] at hy'; cases hy'
        rw [torchBack, hdet] at hst
        exact nan_backStep_bw I (by omega) (fun v r r' hv =>
          nan_torchBwDensityAt I hM hv p a hn a' p') hst
    by_cases he : j = i - 1
    · subst he; exact first y hy a'
    · obtain ⟨w, hw⟩ := get_of_lt (l := o.B) (i := i-1) (by omega)
      exact C57_nan_particle_stays_nan I env c hM r r' o h (i-1) j hj (by omega) w y hw hy a' a' p'
        (first w hw a')

section
open XR
attribute [local instance] exOps

/-- Non-vacuity: a deterministic run with a NaN target returns, and then the whole backward flow except its
first slice is NaN. -/
example (steps : ℕ) (hs : 2 ≤ steps) : ∃ (o : Obj 2 2 1 XR) (r' : ℕ),
    construct xrEnv (xrFan 2 2 1 steps fun _ => .nan) 0 = .ok (o, r') ∧ o.timegrid.length = steps + 1 ∧
    ∀ (j : ℕ) (y : Mat 2 2 XR), 1 ≤ j → j < steps → o.B[j]? = some y → ∀ a p, y a p = .nan := by
  obtain ⟨o, r', h, hl⟩ := xrFan_constructs (d := 2) (N := 2) (M := 1) (le_refl 2) (by decide) steps
    (by omega) (fun _ => .nan) (.inr fun _ => rfl) 0
  refine ⟨o, r', h, hl, fun j y h1 h2 hy a p => ?_⟩
  obtain ⟨S, hS, hSv⟩ := C04_backward_flow_ends_at_y2 xrEnv _ (by decide) 0 r' o (.inl h) (by omega)
  rw [show o.timegrid.length - 1 = steps by omega] at hS
  have hn : S 0 0 = .nan := hSv 0 0
  exact C57_nan_poisons_all_particles exIeee xrEnv _ (by decide) rfl 0 r' o (.inl h) steps j h1 h2 S y hS hy
    0 a 0 p hn

end

/-! ### C48 -/

/-- **C48.** In stochastic mode (numpy) a returned object has a backward flow that is NaN in every
coordinate of every particle at every time index strictly between the first and the last: the first
backward step estimates the score of a cloud concentrated in `y2`. -/
theorem C48_stochastic_backward_flow_is_nan (I : Ieee K) (env : Env ρ K) (c : Cfg d N M K) (hM : 0 < M)
    (hdet : c.deterministic = false) (hy : ∀ a, I.fin (c.y2 a) ∧ ExactMean N (c.y2 a))
    (hu : ∀ r, I.fin (env.uniform r).1) (r r' : ρ) (o : Obj d N M K)
    (h : construct env c r = .ok (o, r')) (i : ℕ) (h1 : 1 ≤ i) (h2 : i + 2 ≤ o.timegrid.length)
    (y : Mat d N K) (hyi : o.B[i]? = some y) (a : Fin d) (p : Fin N) : I.nan (y a p) := by
  have hd : 0 < d := by have := a.2; omega
  obtain ⟨_, hBl, hBlast, rs, _, hs⟩ := construct_back_steps h (by omega)
  have last : ∀ w, o.B[o.timegrid.length - 2]? = some w → ∀ a, I.nan (w a p) := by
    intro w hw a
    obtain ⟨z, tj, b, y', hz, _, hb, hy', hst⟩ := hs (o.timegrid.length - 2) (by omega) (by omega)
    rw [show o.timegrid.length - 2 + 1 = o.timegrid.length - 1 by omega] at hz hb
    rw [hBlast] at hb; cases hb
    rw [hw] at hy'; cases hy'
    obtain ⟨S, hS, hSv⟩ := C06_stochastic_end env c hdet r r' o h (by omega)
    rw [hz] at hS; cases hS
    have hz' : z = pt N c.y2 := funext fun a => funext fun p => hSv a p
    subst hz'
    exact nan_backStep I (fun v r r' hv =>
      densityAt_point_nan I hM hd (effKern_ne_periodic _) hy hu hv a p) hst
  by_cases he : i = o.timegrid.length - 2
  · subst he; exact last y hyi a
  · obtain ⟨w, hw⟩ := get_of_lt (l := o.B) (i := o.timegrid.length - 2) (by omega)
    exact C57_nan_particle_stays_nan I env c hM r r' o (Or.inl h) (o.timegrid.length - 2) i h1 (by omega)
      w y hw hyi a a p (last w hw a)

/-- **C48** (queries). Consequently every control query at an index `1 ≤ ti ≤ 5` or
`timegrid.size - 5 ≤ ti ≤ timegrid.size - 2` of such an object returns NaN only. -/
theorem C48_stochastic_edge_control_is_nan (I : Ieee K) (env : Env ρ K) (c : Cfg d N M K) (hM : 0 < M)
    (hN : 0 < N) (hd : 0 < d)
    (hdet : c.deterministic = false) (hy : ∀ a, I.fin (c.y2 a) ∧ ExactMean N (c.y2 a))
    (hu : ∀ r, I.fin (env.uniform r).1) (r r' : ρ) (o : Obj d N M K)
    (h : construct env c r = .ok (o, r')) (x : Mat n d K) (i : ℕ) (h1 : 1 ≤ i)
    (h2 : i + 2 ≤ o.timegrid.length) (he : Edge o.timegrid.length i) (s : ρ) :
    ∃ u : Mat d n K, calculateU env o x i s = .ok (u, s) ∧ ∀ a j, I.nan (u a j) := by
  obtain ⟨b, z, zr, hb, hb0, hz, hz0, hr, _⟩ := slices_at env c hd r r' o (Or.inl h) i i (by omega)
    (fun l hl => by unfold pyAt; rw [if_pos (by omega)]; rfl)
  refine ⟨_, (edge_queries env o x i b z zr hN hb hz hr he s).1, fun a j => ?_⟩
  exact nan_gaussU_b I _ _ _ _ ⟨0, hN⟩
    (C48_stochastic_backward_flow_is_nan I env c hM hdet hy hu r r' o h i h1 h2 b hb0 a ⟨0, hN⟩)

section
open XR
attribute [local instance] exOps

/-- Non-vacuity: the stochastic class returns an object in arithmetic with special values; its backward
flow between the end points is NaN, and so is the control at time index 1. This is also a run with NaN
slices for `C57_nan_particle_stays_nan` in stochastic mode. -/
example (steps : ℕ) (hs : 2 ≤ steps) : ∃ (o : Obj 2 2 1 XR) (r' : ℕ),
    construct xrEnv (xrStoch 2 2 1 steps fun _ => .fin 1) 0 = .ok (o, r') ∧ o.timegrid.length = steps + 1 ∧
    (∀ (i : ℕ) (y : Mat 2 2 XR), 1 ≤ i → i < steps → o.B[i]? = some y → ∀ a p, y a p = .nan) ∧
    ∀ x : Mat 3 2 XR, ∃ u : Mat 2 3 XR, calculateU xrEnv o x (1 : ℕ) 0 = .ok (u, 0) ∧ ∀ a j, u a j = .nan := by
  obtain ⟨o, r', h, hl⟩ := xrStoch_constructs (d := 2) (N := 2) (M := 1) (le_refl 2) (by decide)
    (by decide) steps (by omega) (fun _ => .fin 1) (fun _ => ⟨1, rfl⟩) 0
  have hy : ∀ a, exIeee.fin ((xrStoch 2 2 1 steps fun _ => .fin 1).y2 a) ∧
      ExactMean 2 ((xrStoch 2 2 1 steps fun _ => .fin 1).y2 a) :=
    fun a => ⟨⟨1, rfl⟩, exactMean exInv 2 (by decide) 1⟩
  refine ⟨o, r', h, hl, fun i y h1 h2 hi a p => ?_, fun x => ?_⟩
  · exact C48_stochastic_backward_flow_is_nan exIeee xrEnv _ (by decide) rfl hy xrEnv_F 0 r' o h i h1
      (by omega) y hi a p
  · exact C48_stochastic_edge_control_is_nan exIeee xrEnv _ (by decide) (by decide) (by decide) rfl hy
      xrEnv_F 0 r' o h x 1 (le_refl 1) (by omega) (.inl (by norm_num)) 0

end

end DPFC
