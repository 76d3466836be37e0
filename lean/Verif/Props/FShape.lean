import Verif.Lib.FShape
import Verif.Lib.Examples

/-!
# C107: shapes of the values of drift and constraint functions

`npConstructF env g F c`, `torchConstructF env g F c` are the constructors with user functions `F.f`, `F.fTrue`, `F.U` that may
return arrays of any shape (`Verif.Model.FShape`). Shapes are listed from the last axis to the first: `(dim, N)` is `[N, dim]`.
`readCfg c F` (`Verif.Spec.FShape`) is the configuration whose functions return, for every coordinate of every particle, the
entry that broadcasting assigns to it.
-/

namespace DPFC
open NArr Spec

set_option linter.unusedSectionVars false

section
variable {K ρ : Type} [Add K] [Sub K] [Mul K] [Div K] [Neg K] [NumOps K]
variable {N M d : Nat}

/-- **C107** (numpy, shapes that broadcast). The run is the one of the functions that return the broadcast values; the object
differs from it only in the functions it stores. In stochastic mode the values at single particles must broadcast too. -/
theorem C107_good_shapes (env : Env ρ K) (g : NArr K) (F : AFns d N K) (c : Cfg d N M K)
    (hg : BroadcastsTo g.rshape [N, d]) (hF : GoodShapes F)
    (hs : c.deterministic = false → BroadcastsTo g.rshape [d] ∧
      ∀ f1, F.f.call1 = some f1 → ∀ x, BroadcastsTo (f1 x).rshape [d]) :
    npConstructF env g F c = (fun o => { o with cfg := c }) <$> npConstructG env g (readCfg c F) :=
  npConstructAL_eq env hg hF c hs

/-- **C107** (torch, shapes that broadcast). -/
theorem C107_torch_good_shapes (env : Env ρ K) (g : NArr K) (F : AFns d N K) (c : Cfg d N M K)
    (hg : BroadcastsTo g.rshape [N, d]) (hF : GoodShapes F) :
    torchConstructF env g F c = (fun o => { o with cfg := c }) <$> torchConstructG env g (readCfg c F) :=
  torchConstructAL_eq env hg hF c

/-- **C107** (a number `g`). With functions whose values broadcast, the flows are those of the constructors of C01-C52 for the
broadcast functions. -/
theorem C107_scalar_g (env : Env ρ K) (F : AFns d N K) (c : Cfg d N M K) (hF : GoodShapes F)
    (hs : c.deterministic = false → ∀ f1, F.f.call1 = some f1 → ∀ x, BroadcastsTo (f1 x).rshape [d]) :
    npConstructF env (scal c.g) F c = (fun o => { o with cfg := c }) <$> construct env (readCfg c F) ∧
    torchConstructF env (scal c.g) F c = (fun o => { o with cfg := c }) <$> torchConstruct env (readCfg c F) := by
  have h0 : ∀ t, BroadcastsTo ([] : List ℕ) t := fun t j x h => by simp at h
  refine ⟨?_, ?_⟩
  · rw [C107_good_shapes env _ F c (h0 _) hF (fun h => ⟨h0 _, hs h⟩)]
    exact congrArg _ (C53_scalar env (readCfg c F))
  · rw [C107_torch_good_shapes env _ F c (h0 _) hF]
    exact congrArg _ (C53_torch_scalar env (readCfg c F))

/-- **C107** (drift of a bad shape). If no value of `f` broadcasts, the construction raises ValueError (numpy), RuntimeError
(torch) on every grid of at least two points; `U`, `f_true` and the shape of `g` do not matter. -/
theorem C107_bad_drift (env : Env ρ K) (g : NArr K) (F : AFns d N K) (c : Cfg d N M K) (r : ρ) :
    (c.deterministic = true → 2 ≤ (mkGrid c.t1 c.t2).length →
      (∀ x t, ¬ BroadcastsTo (F.f.call2 x t).rshape [N, d]) → npConstructF env g F c r = .error .valueError) ∧
    (∀ f1, c.deterministic = false → 2 ≤ (mkGrid c.t1 c.t2).length → 2 ≤ d → 0 < N → F.f.call1 = some f1 →
      (∀ x, ¬ BroadcastsTo (f1 x).rshape [d]) → npConstructF env g F c r = .error .valueError) ∧
    (∀ grid, torchGrid c.t1 c.t2 = .ok grid → 2 ≤ grid.length → c.deterministic = true ∨ 2 ≤ d →
      (∀ x t, ¬ BroadcastsTo (F.f.call2 x t).rshape [N, d]) → torchConstructF env g F c r = .error .runtimeError) :=
  ⟨fun h1 h2 h3 => npConstructF_bad env g F c h1 h2 (fun x t => not_fits (h3 x t)) r,
   fun f1 h1 h2 h3 h4 h5 h6 => npConstructF_stoch_bad env g F c h1 h3 h4 f1 h5 h2 (fun x => not_fits (h6 x)) r,
   fun grid h1 h2 h3 h4 => torchConstructF_bad env g F c grid h1 h2 h3 (fun x t => not_fits (h4 x t)) r⟩

/-- **C107** (constraint of a bad shape). With reweighting, `U` values that do not broadcast to one number per particle raise
ValueError (numpy), RuntimeError (torch); the numpy stochastic run never constructs. -/
theorem C107_bad_constraint (env : Env ρ K) (g : NArr K) (F : AFns d N K) (c : Cfg d N M K) (r : ρ)
    (hr : c.reweight = true) (U : AConstraint d N K) (hU : F.U = some U)
    (hg : BroadcastsTo g.rshape [N, d]) (hf : ∀ x t, BroadcastsTo (F.f.call2 x t).rshape [N, d]) :
    (c.deterministic = true → 2 ≤ (mkGrid c.t1 c.t2).length →
      (∀ x t, ¬ BroadcastsTo (U.call2 x t).rshape [N]) → npConstructF env g F c r = .error .valueError) ∧
    (∀ u, c.deterministic = false → 2 ≤ (mkGrid c.t1 c.t2).length → U.call1 = some u →
      (∀ x, ¬ BroadcastsTo (u x).rshape [N]) → ∀ o r', npConstructF env g F c r ≠ .ok (o, r')) ∧
    (∀ grid, torchGrid c.t1 c.t2 = .ok grid → 2 ≤ grid.length → c.deterministic = true →
      (∀ x t, ¬ BroadcastsTo (U.call2 x t).rshape [N]) → torchConstructF env g F c r = .error .runtimeError) ∧
    (∀ grid u, torchGrid c.t1 c.t2 = .ok grid → 2 ≤ grid.length → c.deterministic = false → 2 ≤ d → U.call1 = some u →
      (∀ x, ¬ BroadcastsTo (u x).rshape [N]) → torchConstructF env g F c r = .error .runtimeError) :=
  ⟨fun h1 h2 h3 => npConstructF_badU env c h1 hg hf hr U hU h2 (fun x t => not_fits (h3 x t)) r,
   fun u h1 h2 h3 h4 o r' => npConstructF_stoch_badU env g F c h1 hr U hU u h3 h2 (fun x => not_fits (h4 x)) r (o, r'),
   fun grid h1 h2 h3 h4 => torchConstructF_badU env c grid h1 h2 hg hf hr U hU (.inl ⟨h3, fun x t => not_fits (h4 x t)⟩) r,
   fun grid u h1 h2 h3 h4 h5 h6 => torchConstructF_badU env c grid h1 h2 hg hf hr U hU
     (.inr ⟨h3, h4, u, h5, fun x => not_fits (h6 x)⟩) r⟩

/-- **C107** (functions that are not called). Without reweighting the shape of the values of `U` does not matter, and unless
reweighting, `brown_bridge` and the deterministic mode are all on, neither does that of `f_true`: any functions can be put in
their place. -/
theorem C107_unused_functions (env : Env ρ K) (g : NArr K) (F : AFns d N K) (c : Cfg d N M K)
    (U : Option (AConstraint d N K)) (ft : Option (ADrift d N K)) :
    (c.reweight = false → npConstructF env g { F with U := U, fTrue := ft } c = npConstructF env g F c ∧
      torchConstructF env g { F with U := U, fTrue := ft } c = torchConstructF env g F c) ∧
    (c.deterministic = false ∨ c.brownBridge = false →
      npConstructF env g { F with fTrue := ft } c = npConstructF env g F c ∧
      torchConstructF env g { F with fTrue := ft } c = torchConstructF env g F c) := by
  refine ⟨fun h => ?_, fun h => ?_⟩
  · have h1 : ∀ e, ottoBodyA env e g { F with U := U, fTrue := ft } c = ottoBodyA env e g F c := fun e => by
      funext ti tt Z; simp [ottoBodyA, h]
    have h2 : ∀ e, stochBodyA env e g { F with U := U, fTrue := ft } c = stochBodyA env e g F c := fun e => by
      funext ti tt Z; simp [stochBodyA, h]; rfl
    have h3 : ∀ e, torchOttoBodyA env e g { F with U := U, fTrue := ft } c = torchOttoBodyA env e g F c := fun e => by
      funext ti tt Z; simp [torchOttoBodyA, h]
    have h4 : ∀ e, torchStochBodyA env e g { F with U := U, fTrue := ft } c = torchStochBodyA env e g F c := fun e => by
      funext ti tt Z; simp [torchStochBodyA, h]
    constructor
    · simp only [npConstructF, npConstructAL, h, Bool.false_and, Bool.false_eq_true, if_false, h1, h2]; rfl
    · simp only [torchConstructF, torchConstructAL, h, Bool.false_and, Bool.false_eq_true, if_false, h3, h4]; rfl
  · rcases h with h | h
    · constructor
      · simp only [npConstructF, npConstructAL, h, Bool.false_eq_true, if_false]; rfl
      · simp only [torchConstructF, torchConstructAL, h, Bool.false_eq_true, if_false]; rfl
    · constructor
      · simp only [npConstructF, npConstructAL, h, Bool.and_false, Bool.false_eq_true, if_false]; rfl
      · simp only [torchConstructF, torchConstructAL, h, Bool.and_false, Bool.false_eq_true, if_false]; rfl

/-- **C107** (`f_true` of a bad shape). Deterministic reweighted bridge runs never construct. -/
theorem C107_bad_f_true (env : Env ρ K) (g : NArr K) (F : AFns d N K) (c : Cfg d N M K) (ft : ADrift d N K)
    (hft : F.fTrue = some ft) (hdet : c.deterministic = true) (hr : c.reweight = true) (hb : c.brownBridge = true)
    (hbad : ∀ x t, ¬ BroadcastsTo (ft.call2 x t).rshape [N, d]) (r : ρ) :
    (2 ≤ (mkGrid c.t1 c.t2).length → ∀ o r', npConstructF env g F c r ≠ .ok (o, r')) ∧
    (∀ grid, torchGrid c.t1 c.t2 = .ok grid → 2 ≤ grid.length → ∀ o r', torchConstructF env g F c r ≠ .ok (o, r')) := by
  have hn : ∀ e x t xi, noisyA e g x (ft.call2 x t) xi = .error e := fun e x t xi => noisyA_bad (not_fits (hbad x t)) e g x xi
  refine ⟨fun hk o r' => ?_, fun grid hgrid hk o r' => ?_⟩
  · unfold npConstructF npConstructAL
    generalize mkGrid c.t1 c.t2 = grid at hk ⊢
    obtain ⟨t0, t1, ts, rfl⟩ := two_points hk
    simp only [hdet, hr, hb, Bool.and_true, if_true, bind_assoc]
    refine bind_never (fun Z r p => ?_) r _
    refine never_bind (fun r p => ?_) r p
    rw [enumLoop]
    refine bind_never (fun Z r p => ?_) r p
    rw [enumLoop]
    refine never_bind (fun r p => ?_) r p
    unfold ottoTrueBodyA
    simp only [Nat.zero_add, one_ne_zero, if_false, if_true, hft, hn, bind_assoc]
    refine bind_never (fun x r p => ?_) r p
    refine bind_never (fun x r p => ?_) r p
    simp only [RandM.liftM_error, RandM.raise_bind, RandM.raise_app]
    intro h; cases h
  · unfold torchConstructF torchConstructAL
    rw [hgrid, RandM.liftM_ok, pure_bind]
    obtain ⟨t0, t1, ts, rfl⟩ := two_points hk
    simp only [hdet, hr, hb, Bool.and_true, if_true, bind_assoc]
    refine bind_never (fun Z r p => ?_) r _
    refine never_bind (fun r p => ?_) r p
    rw [enumLoop]
    refine bind_never (fun Z r p => ?_) r p
    rw [enumLoop]
    refine never_bind (fun r p => ?_) r p
    unfold torchTrueBodyA
    simp only [Nat.zero_add, one_ne_zero, if_false, if_true, hft, hn, bind_assoc]
    refine bind_never (fun x r p => ?_) r p
    refine bind_never (fun x r p => ?_) r p
    simp only [RandM.liftM_error, RandM.raise_bind, RandM.raise_app]
    intro h; cases h

/-- **C107** (a `(dim,)` drift). A function that returns one number per coordinate as a `(dim,)` array is accepted iff
`dim = 1` or `N = dim`, and then (`dim >= 2`) the numbers are taken along the wrong axis: entry `n` becomes the drift of all
coordinates of particle `n`. As a `(dim, 1)` array it is always accepted and read as intended. -/
theorem C107_vector_drift (v : NArr K) :
    (v.rshape = [d] → (BroadcastsTo v.rshape [N, d] ↔ d = 1 ∨ N = d)) ∧
    (v.rshape = [d] → 2 ≤ d → ∀ a n : Fin d, coeff v d d a n = v.val [n.val]) ∧
    (v.rshape = [1, d] → BroadcastsTo v.rshape [N, d] ∧ (2 ≤ d → ∀ a n, coeff v d N a n = v.val [0, a.val])) := by
  refine ⟨fun h => ?_, fun h hd a n => ?_, fun h => ⟨?_, fun hd a n => ?_⟩⟩
  · rw [h, ← fits_iff]
    simp only [fits, Bool.and_true, Bool.or_eq_true, decide_eq_true_eq]
    exact or_congr Iff.rfl eq_comm
  · have : d ≠ 1 := by omega
    simp [coeff, entryAt, h, this]
  · rw [h, ← fits_iff]; simp [fits]
  · have : d ≠ 1 := by omega
    simp [coeff, entryAt, h, this]

/-- **C107** (shapes of constraints). One number for all particles and `(1, N)` arrays are accepted; a column `(N, 1)` iff
`N = 1`; a `(dim, N)` array iff `dim = 1`. -/
theorem C107_constraint_shapes (N d : ℕ) :
    BroadcastsTo [] [N] ∧ BroadcastsTo [1] [N] ∧ BroadcastsTo [N] [N] ∧ BroadcastsTo [N, 1] [N] ∧
    (BroadcastsTo [1, N] [N] ↔ N = 1) ∧ (BroadcastsTo [N, d] [N] ↔ d = 1) := by
  simp [← fits_iff, fits]

/-- **C107** (a column `(dim, 1)` drift `v` that does not depend on the state: the whole run). It constructs exactly what the
drift with `v[a]` for coordinate `a` of every particle constructs. -/
theorem C107_column_drift (env : Env ρ K) (v : Fin d → K) (c : Cfg d N M K) (hd : 2 ≤ d)
    (hdet : c.deterministic = true) :
    let F : AFns d N K := ⟨⟨fun _ _ => ⟨[1, d], fun i => match i with
      | [_, a] => if h : a < d then v ⟨a, h⟩ else lit 0 1
      | _ => lit 0 1⟩, none⟩, none, none⟩
    npConstructF env (scal c.g) F c = (fun o => { o with cfg := c }) <$>
      construct env ({ c with f := ⟨fun _ _ a _ => v a, none⟩, fTrue := none, U := none } : Cfg d N M K) := by
  intro F
  have hF : GoodShapes F := by
    refine ⟨fun x t => ((C107_vector_drift (N := N) (F.f.call2 x t)).2.2 rfl).1, ?_, ?_⟩
    · intro ft h; cases h
    · intro U h; cases h
  rw [(C107_scalar_g env F c hF (fun h => by rw [hdet] at h; cases h)).1]
  have : readCfg c F = { c with f := ⟨fun _ _ a _ => v a, none⟩, fTrue := none, U := none } := by
    simp only [readCfg]
    congr 1
    simp only [readDrift, F, Option.map_none]
    congr 1
    funext x t a n
    rw [((C107_vector_drift (N := N) (F.f.call2 x t)).2.2 rfl).2 hd a n]
    simp [F]
  rw [this]

/-! ### Non-vacuity -/

/-- A drift that returns the constant `(2,)` array `(3, 4)`. -/
noncomputable def exVecDrift (N : ℕ) : ADrift 2 N ℝ :=
  ⟨fun _ _ => ⟨[2], fun i => if i = [0] then 3 else 4⟩, some fun _ => ⟨[2], fun i => if i = [0] then 3 else 4⟩⟩

/-- The `(2,)` drift with 5 particles: deterministic numpy runs raise ValueError, torch runs RuntimeError. -/
example (r : ℕ) (U : Option (AConstraint 2 5 ℝ)) :
    npConstructF exEnv (scal 1) ⟨exVecDrift 5, none, U⟩ (exCfg 2 5 3 10 true false false) r = .error .valueError ∧
    torchConstructF exEnv (scal 1) ⟨exVecDrift 5, none, U⟩ (exCfg 2 5 3 10 false false false) r = .error .runtimeError := by
  have hb : ∀ x t, ¬ BroadcastsTo (((exVecDrift 5).call2 x t).rshape) [5, 2] := fun x t => by
    rw [← fits_iff]; simp [exVecDrift, fits]
  obtain ⟨h1, _, h3⟩ := C107_bad_drift (M := 3) exEnv (scal 1) ⟨exVecDrift 5, none, U⟩ (exCfg 2 5 3 10 true false false) r
  obtain ⟨_, _, h4⟩ := C107_bad_drift (M := 3) exEnv (scal 1) ⟨exVecDrift 5, none, U⟩ (exCfg 2 5 3 10 false false false) r
  exact ⟨h1 rfl (by rw [exCfg_grid]; omega) hb,
    h4 _ (exCfg_torchGrid 2 5 3 10 false false false) (by rw [exCfg_grid]; omega) (.inr (by omega)) hb⟩

/-- With 2 particles the same drift is accepted: particle 0 has drift 3 and particle 1 drift 4 in both coordinates. -/
example (r : ℕ) :
    (∀ x t a, (readDrift (exVecDrift 2)).call2 x t a 0 = 3 ∧ (readDrift (exVecDrift 2)).call2 x t a 1 = 4) ∧
    ∃ o r', npConstructF exEnv (scal (exCfg 2 2 3 10 true false false).g) ⟨exVecDrift 2, none, none⟩
      (exCfg 2 2 3 10 true false false) r = .ok (o, r') := by
  have hb : ∀ x t, BroadcastsTo (((exVecDrift 2).call2 x t).rshape) [2, 2] := fun x t => by
    rw [← fits_iff]; simp [exVecDrift, fits]
  refine ⟨fun x t a => ?_, ?_⟩
  · constructor
    · exact ((C107_vector_drift (N := 2) ((exVecDrift 2).call2 x t)).2.1 rfl le_rfl a 0).trans (by simp [exVecDrift])
    · exact ((C107_vector_drift (N := 2) ((exVecDrift 2).call2 x t)).2.1 rfl le_rfl a 1).trans (by simp [exVecDrift])
  · have hF : GoodShapes (⟨exVecDrift 2, none, none⟩ : AFns 2 2 ℝ) :=
      ⟨hb, fun ft h => (by cases h), fun U h => (by cases h)⟩
    rw [(C107_scalar_g exEnv ⟨exVecDrift 2, none, none⟩ (exCfg 2 2 3 10 true false false) hF (fun h => by cases h)).1]
    have hk : 2 ≤ (mkGrid (exCfg 2 2 3 10 true false false).t1 (exCfg 2 2 3 10 true false false).t2).length := by
      rw [exCfg_grid]; omega
    obtain ⟨o, r', h⟩ := C53_good_shape_constructs exEnv (scal (exCfg 2 2 3 10 true false false).g)
      (readCfg (exCfg 2 2 3 10 true false false) ⟨exVecDrift 2, none, none⟩) (by omega) rfl (.inl rfl) rfl
      (fun j x h => by simp [scal] at h) hk r
    have h' := (C53_scalar exEnv (readCfg (exCfg 2 2 3 10 true false false) ⟨exVecDrift 2, none, none⟩)) ▸ h
    refine ⟨{ o with cfg := exCfg 2 2 3 10 true false false }, r', ?_⟩
    rw [map_eq_pure_bind, RandM.bind_ok]
    exact ⟨o, r', h', rfl⟩

/-- A constraint that returns a column `(5, 1)` in a reweighted run. -/
example (r : ℕ) :
    let U : AConstraint 2 5 ℝ := ⟨fun x _ => ⟨[1, 5], fun i => x 0 0⟩, none⟩
    npConstructF exEnv (scal 1) ⟨⟨fun x _ => ofMat x, none⟩, none, some U⟩
      (exCfg 2 5 3 10 true true false) r = .error .valueError := by
  intro U
  refine (C107_bad_constraint exEnv (scal 1) ⟨⟨fun x _ => ofMat x, none⟩, none, some U⟩
    (exCfg 2 5 3 10 true true false) r rfl U rfl (fun j x h => by simp [scal] at h)
    (fun x t => by rw [← fits_iff]; simp [ofMat, fits])).1 rfl ?_ (fun x t => ?_)
  · rw [exCfg_grid]; omega
  · rw [(C107_constraint_shapes 5 2).2.2.2.2.1]; omega

/-- A `(2,)` ground-truth drift in a reweighted bridge run with 5 particles. -/
example (r : ℕ) (U : AConstraint 2 5 ℝ) (o : Obj 2 5 3 ℝ) (r' : ℕ) :
    npConstructF exEnv (scal 1) ⟨⟨fun x _ => ofMat x, none⟩, some (exVecDrift 5), some U⟩
      (exCfg 2 5 3 10 true true true) r ≠ .ok (o, r') := by
  refine (C107_bad_f_true exEnv (scal 1) ⟨⟨fun x _ => ofMat x, none⟩, some (exVecDrift 5), some U⟩
    (exCfg 2 5 3 10 true true true) _ rfl rfl rfl rfl
    (fun x t => by rw [← fits_iff]; simp [exVecDrift, fits]) r).1 ?_ o r'
  rw [exCfg_grid]; omega

end
end DPFC
