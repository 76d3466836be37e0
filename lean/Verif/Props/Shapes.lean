import Verif.Lib.ShapeRec
import Verif.Lib.Examples

/-!
# C53: array-valued diffusion coefficients

`npConstructG env g c`, `torchConstructG env g c` are the constructors with `g` an array of any shape
(`Verif.Model.Shape`); shapes are listed from the last axis to the first, so a `(dim, N)` array has
`rshape = [N, dim]`. `BroadcastsTo`, `coeff`, `coeff1` and the recurrences are in `Verif.Spec.Arrays`.
-/

namespace DPFC
open NArr Spec

theorem fits_iff : ∀ (s t : List ℕ), fits s t = true ↔ BroadcastsTo s t
  | [], t => by simp [fits, BroadcastsTo]
  | x :: s, [] => by
    simp only [fits, Bool.and_eq_true, decide_eq_true_eq, fits_iff s []]
    constructor
    · rintro ⟨h1, h2⟩ j y hj
      cases j with
      | zero => simp at hj; left; omega
      | succ j => exact h2 j y (by simpa using hj)
    · intro h
      refine ⟨?_, fun j y hj => ?_⟩
      · simpa using h 0 x rfl
      · exact h (j+1) y (by simpa using hj)
  | x :: s, t :: ts => by
    simp only [fits, Bool.and_eq_true, Bool.or_eq_true, decide_eq_true_eq, fits_iff s ts]
    constructor
    · rintro ⟨h1, h2⟩ j y hj
      cases j with
      | zero => simp at hj ⊢; subst hj; rcases h1 with h | h <;> simp [h]
      | succ j => simpa using h2 j y (by simpa using hj)
    · intro h
      refine ⟨?_, fun j y hj => ?_⟩
      · simpa [eq_comm] using h 0 x rfl
      · simpa using h (j+1) y (by simpa using hj)

theorem not_fits {s t : List ℕ} (h : ¬ BroadcastsTo s t) : fits s t = false := by
  rw [← fits_iff] at h; simpa using h

theorem clip_eq : ∀ (s idx : List ℕ),
    clip s idx = s.mapIdx fun j x => if x = 1 then 0 else idx.getD j 0
  | [], _ => by simp [clip]
  | x :: s, [] => by
    rw [clip, clip_eq s [], List.mapIdx_cons]
    simp
  | x :: s, i :: is => by
    rw [clip, clip_eq s is, List.mapIdx_cons]
    simp

section
variable {K ρ : Type} [Add K] [Sub K] [Mul K] [Div K] [Neg K] [NumOps K]
variable {d N M : ℕ}

theorem isMat_coeff {g : NArr K} (h : BroadcastsTo g.rshape [N, d]) : IsMat d N g (coeff g d N) :=
  ⟨(fits_iff _ _).2 h, fun i n => by rw [clip_eq]; rfl⟩

theorem isVec_coeff {g : NArr K} (h : BroadcastsTo g.rshape [d]) : IsVec d g (coeff1 g d) :=
  ⟨(fits_iff _ _).2 h, fun i => by rw [clip_eq]; rfl⟩

/-- **C53** (scalars). A scalar or 0-d array gives the constructor for a number, for every input. -/
theorem C53_scalar (env : Env ρ K) (c : Cfg d N M K) : npConstructG env (scal c.g) c = construct env c := by
  rw [npConstructG, arrayLines_fit (isMat_scal c.g) (isVec_scal c.g), npConstructL_scalar]

theorem C53_torch_scalar (env : Env ρ K) (c : Cfg d N M K) :
    torchConstructG env (scal c.g) c = torchConstruct env c := by
  rw [torchConstructG, arrayLines_fit (isMat_scal c.g) (isVec_scal c.g), torchConstructL_scalar]

/-- **C53** (numpy, deterministic, bad shapes). If `g` does not broadcast to `dim x N`, every construction
on a grid of at least two points raises ValueError. -/
theorem C53_bad_shape_raises (env : Env ρ K) (g : NArr K) (c : Cfg d N M K)
    (hdet : c.deterministic = true) (hk : 2 ≤ (mkGrid c.t1 c.t2).length)
    (hg : ¬ BroadcastsTo g.rshape [N, d]) (r : ρ) : npConstructG env g c r = .error .valueError :=
  npConstructG_bad env g c hdet hk (not_fits hg) r

/-- **C53** (torch, bad shapes). RuntimeError; in stochastic mode for `dim >= 2` (for `dim <= 1` the
initialisation raises first, see C11). -/
theorem C53_torch_bad_shape_raises (env : Env ρ K) (g : NArr K) (c : Cfg d N M K) (grid : List K)
    (hgrid : torchGrid c.t1 c.t2 = .ok grid) (hk : 2 ≤ grid.length)
    (hd : c.deterministic = true ∨ 2 ≤ d) (hg : ¬ BroadcastsTo g.rshape [N, d]) (r : ρ) :
    torchConstructG env g c r = .error .runtimeError :=
  torchConstructG_bad env g c grid hgrid hk hd (not_fits hg) r

/-- **C53** (only the coefficients matter, numpy). Two arrays of whatever shapes that broadcast to the
same coefficients give the same constructor; in stochastic mode they must also broadcast to the same
coefficients of a single particle. -/
theorem C53_only_coefficients_matter (env : Env ρ K) (g g' : NArr K) (c : Cfg d N M K)
    (hg : BroadcastsTo g.rshape [N, d]) (hg' : BroadcastsTo g'.rshape [N, d])
    (hG : coeff g d N = coeff g' d N)
    (hs : c.deterministic = false → BroadcastsTo g.rshape [d] ∧ BroadcastsTo g'.rshape [d] ∧
      coeff1 g d = coeff1 g' d) : npConstructG env g c = npConstructG env g' c := by
  cases hdet : c.deterministic with
  | true =>
    rw [npConstructG_det_lines env (isMat_coeff hg) c hdet (fun _ => c.g),
      npConstructG_det_lines env (isMat_coeff hg') c hdet (fun _ => c.g), hG]
  | false =>
    obtain ⟨h1, h2, h3⟩ := hs hdet
    rw [npConstructG, npConstructG, arrayLines_fit (isMat_coeff hg) (isVec_coeff h1),
      arrayLines_fit (isMat_coeff hg') (isVec_coeff h2), hG, h3]

/-- **C53** (only the coefficients matter, torch, both modes). -/
theorem C53_torch_only_coefficients_matter (env : Env ρ K) (g g' : NArr K) (c : Cfg d N M K)
    (hg : BroadcastsTo g.rshape [N, d]) (hg' : BroadcastsTo g'.rshape [N, d])
    (hG : coeff g d N = coeff g' d N) : torchConstructG env g c = torchConstructG env g' c := by
  rw [torchConstructG_lines env (isMat_coeff hg) c (fun _ => c.g),
    torchConstructG_lines env (isMat_coeff hg') c (fun _ => c.g), hG]

/-- A constant array of a shape that broadcasts is as good as the number. -/
theorem C53_constant_array (env : Env ρ K) (s : List ℕ) (c : Cfg d N M K) (hs : BroadcastsTo s [N, d]) :
    (c.deterministic = true → npConstructG env ⟨s, fun _ => c.g⟩ c = construct env c) ∧
    torchConstructG env ⟨s, fun _ => c.g⟩ c = torchConstruct env c := by
  have h0 : BroadcastsTo ([] : List ℕ) [N, d] := fun j x h => by simp at h
  refine ⟨fun hdet => ?_, ?_⟩
  · rw [← C53_scalar]
    exact C53_only_coefficients_matter env _ (scal c.g) c hs h0 rfl (fun h => by rw [hdet] at h; cases h)
  · rw [← C53_torch_scalar]
    exact C53_torch_only_coefficients_matter env _ (scal c.g) c hs h0 rfl

/-- **C53** (the README's diffusion matrix). A `dim x dim` array broadcasts exactly if `dim = 1` or
`N = dim`. -/
theorem C53_square_matrix_iff (d N : ℕ) : BroadcastsTo [d, d] [N, d] ↔ d = 1 ∨ N = d := by
  rw [← fits_iff, fits_pair]
  constructor
  · rintro ⟨h | h, _⟩
    · exact .inl h
    · exact .inr h.symm
  · rintro (h | h)
    · exact ⟨.inl h, .inr rfl⟩
    · exact ⟨.inr h.symm, .inr rfl⟩

/-- **C53** (the README's diffusion matrix). With `dim >= 2` and a number of particles other than `dim`, a
`dim x dim` matrix makes the deterministic constructors of both classes raise. -/
theorem C53_square_matrix_raises (env : Env ρ K) (g : NArr K) (c : Cfg d N M K) (hsh : g.rshape = [d, d])
    (hd : 2 ≤ d) (hN : N ≠ d) (hdet : c.deterministic = true) (r : ρ) :
    (2 ≤ (mkGrid c.t1 c.t2).length → npConstructG env g c r = .error .valueError) ∧
    (∀ grid, torchGrid c.t1 c.t2 = .ok grid → 2 ≤ grid.length →
      torchConstructG env g c r = .error .runtimeError) := by
  have hg : ¬ BroadcastsTo g.rshape [N, d] := by
    rw [hsh, C53_square_matrix_iff]; omega
  exact ⟨fun hk => C53_bad_shape_raises env g c hdet hk hg r,
    fun grid h1 h2 => C53_torch_bad_shape_raises env g c grid h1 h2 (.inl hdet) hg r⟩

/-- Where a `dim x dim` matrix is accepted (`N = dim >= 2`), its entry `[a, n]` is the coefficient of
coordinate `a` of particle `n`: it is not multiplied as a matrix. -/
theorem C53_square_matrix_elementwise (g : NArr K) (hsh : g.rshape = [d, d]) (hd : 2 ≤ d) (a n : Fin d) :
    coeff g d d a n = g.val [n.val, a.val] := by
  have h : d ≠ 1 := by omega
  simp [coeff, entryAt, hsh, h]

/-- **C53** (numpy, stochastic). The sampler moves one particle at a time, so `g` must broadcast to
`(dim,)`. -/
theorem C53_stochastic_bad_shape_raises (env : Env ρ K) (g : NArr K) (c : Cfg d N M K)
    (hdet : c.deterministic = false) (hd : 2 ≤ d) (hN : 0 < N) (f1 : (Fin d → K) → Fin d → K)
    (hf : c.f.call1 = some f1) (hk : 2 ≤ (mkGrid c.t1 c.t2).length)
    (hg : ¬ BroadcastsTo g.rshape [d]) (r : ρ) : npConstructG env g c r = .error .valueError :=
  npConstructG_stoch_bad env g c hdet hd hN f1 hf hk (not_fits hg) r

/-- The backward simulation moves whole slices in both modes: on a grid of at least three points no
array that does not broadcast to `dim x N` is ever accepted. -/
theorem C53_backward_needs_slice_shape (env : Env ρ K) (g : NArr K) (c : Cfg d N M K)
    (hk : 3 ≤ (mkGrid c.t1 c.t2).length) (hg : ¬ BroadcastsTo g.rshape [N, d]) (r : ρ)
    (o : Obj d N M K) (r' : ρ) : npConstructG env g c r ≠ .ok (o, r') :=
  npConstructG_back_bad env g c hk (not_fits hg) r (o, r')

/-- **C53** (numpy, stochastic). With `dim >= 2`, `N ≠ dim` and at least three grid points only arrays with
a single entry are accepted: there is no array for coefficients that differ between coordinates. -/
theorem C53_stochastic_single_entry (env : Env ρ K) (g : NArr K) (c : Cfg d N M K)
    (hdet : c.deterministic = false) (hd : 2 ≤ d) (hN : 0 < N) (hNd : N ≠ d)
    (hk : 3 ≤ (mkGrid c.t1 c.t2).length) (r r' : ρ) (o : Obj d N M K)
    (h : npConstructG env g c r = .ok (o, r')) (hf : c.f.call1 ≠ none) : ∀ x ∈ g.rshape, x = 1 := by
  obtain ⟨f1, hf⟩ : ∃ f1, c.f.call1 = some f1 := by
    cases h : c.f.call1 with
    | none => exact absurd h hf
    | some f1 => exact ⟨f1, rfl⟩
  have h1 : BroadcastsTo g.rshape [N, d] := by
    by_contra hg
    exact C53_backward_needs_slice_shape env g c hk hg r o r' h
  have h2 : BroadcastsTo g.rshape [d] := by
    by_contra hg
    rw [C53_stochastic_bad_shape_raises env g c hdet hd hN f1 hf (by omega) hg r] at h
    cases h
  intro x hx
  obtain ⟨j, hj⟩ := List.mem_iff_getElem?.1 hx
  have a1 := h1 j x hj
  have a2 := h2 j x hj
  cases j with
  | zero =>
    simp at a1 a2
    omega
  | succ j =>
    simp at a2
    exact a2

end

section
variable {ρ : Type} {d N M : ℕ}

/-- **C53** (numpy, deterministic, good shapes). If `g` broadcasts to `dim x N`, construction never fails for
reasons of shape (without reweighting: never) ... -/
theorem C53_good_shape_constructs (env : Env ρ ℝ) (g : NArr ℝ) (c : Cfg d N M ℝ) (hN : 0 < N)
    (hdet : c.deterministic = true) (hk : c.kern = "RBF" ∨ c.kern = "periodic")
    (hr : c.reweight = false) (hg : BroadcastsTo g.rshape [N, d])
    (h2 : 2 ≤ (mkGrid c.t1 c.t2).length) (r : ρ) : ∃ o r', npConstructG env g c r = .ok (o, r') := by
  rw [npConstructG_det_lines env (isMat_coeff hg) c hdet (fun _ => 0)]
  exact npConstructA_total env _ _ c hN hdet h2 (effKern_rbf hk) (fun h => by rw [hr] at h; cases h)
    (fun h => by rw [hr] at h; cases h) r

/-- ... and the run follows the recurrences of C09, C10, C12 with the coefficient of each coordinate of
each particle read off by broadcasting. -/
theorem C53_good_shape_full_run (env : Env ρ ℝ) (g : NArr ℝ) (c : Cfg d N M ℝ) (hN : 0 < N)
    (hdet : c.deterministic = true) (hk : c.kern = "RBF" ∨ c.kern = "periodic")
    (hg : BroadcastsTo g.rshape [N, d]) (h2 : 2 ≤ (mkGrid c.t1 c.t2).length) (r r' : ρ)
    (o : Obj d N M ℝ) (h : npConstructG env g c r = .ok (o, r')) :
    o.timegrid = mkGrid c.t1 c.t2 ∧ o.Z.length = o.timegrid.length ∧ o.B.length = o.timegrid.length ∧
    ∃ rsF rsT rsB : ℕ → ρ,
      rsF 0 = r ∧
      ForwardRecA env c (coeff g d N) (fun i => o.Z[i]?) (fun i => o.timegrid[i]?) rsF ∧
      rsT 0 = rsF (o.timegrid.length - 1) ∧
      (∀ T, o.Ztr = some T → TrueRecA env c (coeff g d N) (fun i => T[i]?) (fun i => o.timegrid[i]?) rsT) ∧
      (o.Ztr = none → rsT (o.timegrid.length - 1) = rsT 0) ∧
      rsB (o.timegrid.length - 2) = rsT (o.timegrid.length - 1) ∧
      BackwardRecA env c (coeff g d N) o.timegrid.length (fun i => o.Z[i]?) (fun i => o.B[i]?)
        (fun i => o.timegrid[i]?) rsB ∧
      rsB 0 = r' := by
  have hk := effKern_rbf hk
  rw [npConstructG_det_lines env (isMat_coeff hg) c hdet (fun _ => 0)] at h
  obtain ⟨ys, r1, zt, r2, bs, h1, hz, h3, rfl⟩ := (npConstructA_det env _ _ c hdet h2 r r' o).1 h
  obtain ⟨rsF, f0, f1, hF⟩ := ottoChainA_spec env _ c hN hk ys r r1 h2 h1
  have hZl : (pt N c.y1 :: ys).length = (mkGrid c.t1 c.t2).length := by
    have := chain_length h1
    rw [List.length_tail] at this
    rw [List.length_cons]; omega
  have hBl : bs.length = (mkGrid c.t1 c.t2).length - 2 := by
    rw [chain_length h3, visits_length hZl]
  obtain ⟨rsB, b0, b1, hB⟩ :=
    backChainA_spec env _ c hN hdet hk (pt N c.y1 :: ys) bs _ r2 r' h2 hZl h3
  have hT : ∃ rsT : ℕ → ρ, rsT 0 = r1 ∧ rsT ((mkGrid c.t1 c.t2).length - 1) = r2 ∧
      (∀ T, zt = some T →
        TrueRecA env c (coeff g d N) (fun i => T[i]?) (fun i => (mkGrid c.t1 c.t2)[i]?) rsT) ∧
      (zt = none → r2 = r1) := by
    unfold trueFlowA at hz
    split at hz
    · obtain ⟨us, ru, hu, hp⟩ := RandM.bind_ok.1 hz
      obtain ⟨rfl, rfl⟩ := RandM.pure_ok.1 hp
      obtain ⟨rsT, t0, t1, hT⟩ := trueChainA_spec env _ c hN hk us r1 ru h2 hu
      refine ⟨rsT, t0, t1, ?_, by intro h; cases h⟩
      rintro T hh; cases hh; exact hT
    · obtain ⟨hz1, hz2⟩ := RandM.pure_ok.1 hz
      refine ⟨fun _ => r1, rfl, hz2, ?_, fun _ => hz2.symm⟩
      intro T hh; rw [← hz1] at hh; cases hh
  obtain ⟨rsT, t0, t1, hT1, hT2⟩ := hT
  refine ⟨rfl, hZl, by simp [hBl]; omega, rsF, rsT, rsB, f0, hF, by rw [t0]; exact f1.symm, hT1, ?_, ?_,
    hB, b1⟩
  · intro hn
    rw [t0]
    exact t1.trans (hT2 hn)
  · exact b0.trans t1.symm

/-- Non-vacuity: a `(2, 1)` array (one coefficient per coordinate) with 5 particles in dimension 2
constructs and follows the recurrences; its coefficients are the entries. -/
example (r : ℕ) :
    let g : NArr ℝ := ⟨[1, 2], fun i => if i = [0, 0] then 3 else 4⟩
    (∀ n, coeff g 2 5 0 n = 3 ∧ coeff g 2 5 1 n = 4) ∧
    ∃ o r', npConstructG exEnv g (exCfg 2 5 3 10 true false false) r = .ok (o, r') ∧
      ∃ rs, ForwardRecA exEnv (exCfg 2 5 3 10 true false false) (coeff g 2 5) (fun i => o.Z[i]?)
        (fun i => o.timegrid[i]?) rs := by
  intro g
  have hg : BroadcastsTo g.rshape [5, 2] := (fits_iff _ _).1 rfl
  have h2 : 2 ≤ (mkGrid (exCfg 2 5 3 10 true false false).t1
      (exCfg 2 5 3 10 true false false).t2).length := by rw [exCfg_grid]; omega
  refine ⟨fun n => ⟨by simp [coeff, entryAt, g], by simp [coeff, entryAt, g]⟩, ?_⟩
  obtain ⟨o, r', h⟩ := C53_good_shape_constructs exEnv g (exCfg 2 5 3 10 true false false) (by omega) rfl
    (.inl rfl) rfl hg h2 r
  obtain ⟨_, _, _, rs, _, _, _, hF, _⟩ := C53_good_shape_full_run exEnv g _ (by omega) rfl (.inl rfl) hg h2
    r r' o h
  exact ⟨o, r', h, rs, hF⟩

/-- Non-vacuity: a 2 x 2 diffusion matrix with 5 particles. -/
example (r : ℕ) : npConstructG exEnv ⟨[2, 2], fun _ => 1⟩ (exCfg 2 5 3 10 true false false) r
    = .error .valueError :=
  (C53_square_matrix_raises exEnv _ _ rfl (by omega) (by omega) rfl r).1 (by rw [exCfg_grid]; omega)

/-- Non-vacuity: in stochastic mode one coefficient per coordinate is rejected in both shapes, `(2,)` by the
backward simulation and `(2, 1)` by the sampler, a number is accepted. -/
example (r : ℕ) :
    (∀ o r', npConstructG exEnv ⟨[2], fun _ => 1⟩ (exCfg 2 5 3 10 false false false) r ≠ .ok (o, r')) ∧
    npConstructG exEnv ⟨[1, 2], fun _ => 1⟩ (exCfg 2 5 3 10 false false false) r = .error .valueError ∧
    ∃ o r', npConstructG exEnv (scal (exCfg 2 5 3 10 false false false).g)
      (exCfg 2 5 3 10 false false false) r = .ok (o, r') := by
  refine ⟨fun o r' => ?_, ?_, ?_⟩
  · refine C53_backward_needs_slice_shape exEnv _ _ (by rw [exCfg_grid]; omega) ?_ r o r'
    rw [← fits_iff]; decide
  · refine C53_stochastic_bad_shape_raises exEnv _ _ rfl (by omega) (by omega) _ rfl
      (by rw [exCfg_grid]; omega) ?_ r
    rw [← fits_iff]; decide
  · rw [C53_scalar]
    obtain ⟨o, r', h, _⟩ := ex_stoch 2 5 3 10 false (by omega) (by omega) (by omega) r
    exact ⟨o, r', h⟩

/-- Non-vacuity (torch): a `(2,)` array with 5 particles in dimension 2, both modes. -/
example (r : ℕ) (det : Bool) :
    torchConstructG exEnv ⟨[2], fun _ => 1⟩ (exCfg 2 5 3 10 det false false) r = .error .runtimeError := by
  refine C53_torch_bad_shape_raises exEnv _ _ _ (exCfg_torchGrid 2 5 3 10 det false false)
    (by rw [exCfg_grid]; omega) (.inr (by omega)) ?_ r
  rw [← fits_iff]; decide

/-- Non-vacuity (torch): the fan example constructs with a constant `(2, 1)` array. -/
example (r : ℕ) : ∃ o r', torchConstructG exEnv ⟨[1, 2], fun _ => (exFan 2 5 3 10).g⟩ (exFan 2 5 3 10) r
    = .ok (o, r') := by
  rw [(C53_constant_array exEnv [1, 2] (exFan 2 5 3 10) ((fits_iff _ _).1 rfl)).2]
  obtain ⟨o, r', h, _⟩ := ex_torch 2 5 3 10 (by omega) (by omega) (by omega) r
  exact ⟨o, r', h⟩

end
end DPFC
