import Verif.Lib.Shape
import Verif.Lib.RecReal2

/-! The constructors with array-valued `g`. -/

namespace DPFC
open NArr

set_option linter.unusedSectionVars false

section
variable {K ρ : Type} [Add K] [Sub K] [Mul K] [Div K] [Neg K] [NumOps K]
variable {N M d : Nat}

/-- Lines for a scalar. -/
abbrev sLines (g : K) : GLines d N K := elemLines (fun _ _ => g) fun _ => g

theorem ottoBodyG_scalar (env : Env ρ K) (c : Cfg d N M K) :
    ottoBodyG env (sLines c.g) c = ottoBody env c := by
  funext ti tt Z
  unfold ottoBodyG ottoBody
  simp only [sLines, elemLines, noisyStep, ottoStep, fSeperate, bind_assoc, pure_bind, RandM.liftM_ok]

theorem ottoTrueBodyG_scalar (env : Env ρ K) (c : Cfg d N M K) :
    ottoTrueBodyG env (sLines c.g) c = ottoTrueBody env c := by
  funext ti tt Z
  unfold ottoTrueBodyG ottoTrueBody
  cases c.fTrue with
  | none => rfl
  | some ft =>
    simp only [sLines, elemLines, noisyStep, ottoStep, fSeperate, bind_assoc, pure_bind, RandM.liftM_ok]

theorem stochBodyG_scalar (env : Env ρ K) (c : Cfg d N M K) :
    stochBodyG env (sLines c.g) c = stochBody env c := by
  funext ti tt Z
  unfold stochBodyG stochBody stochMoveG stochMove
  cases c.f.call1 with
  | none => rfl
  | some f1 => simp only [sLines, elemLines, pure_bind, RandM.liftM_ok]

theorem backwardSimG_scalar (env : Env ρ K) (c : Cfg d N M K) (grid : List K) (Z B : Traj d N K) :
    backwardSimG env (sLines c.g) c grid Z B = backwardSim env c grid Z B := by
  unfold backwardSimG backwardSim
  have : backwardBodyG env (fun i B => densityEst env M (effKern c.kern) Z B i)
      (fun i B => bwDensityEst env M (effKern c.kern) Z B i) (sLines c.g) c grid
      = backwardBody env c grid Z := by
    funext ti tt B
    unfold backwardBodyG backwardBody
    simp only [sLines, elemLines, pure_bind, RandM.liftM_ok]
  rw [this]

theorem npConstructL_scalar (env : Env ρ K) (c : Cfg d N M K) :
    npConstructL env (sLines c.g) c = construct env c := by
  unfold npConstructL construct forwardOtto forwardOttoTrue forwardStoch
  simp only [ottoBodyG_scalar, ottoTrueBodyG_scalar, stochBodyG_scalar, backwardSimG_scalar]
  simp only [bind_assoc]
  rfl

theorem torchOttoBodyG_scalar (env : Env ρ K) (c : Cfg d N M K) :
    torchOttoBodyG env (sLines c.g) c = torchOttoBody env c := by
  funext ti tt Z
  unfold torchOttoBodyG torchOttoBody
  simp only [sLines, elemLines, noisyStep, torchOttoStep, torchFSeperate, bind_assoc, pure_bind,
    RandM.liftM_ok]
  rfl

theorem torchTrueBodyG_scalar (env : Env ρ K) (c : Cfg d N M K) :
    torchTrueBodyG env (sLines c.g) c = torchTrueBody env c := by
  funext ti tt Z
  unfold torchTrueBodyG torchTrueBody
  cases c.fTrue with
  | none => rfl
  | some ft =>
    simp only [sLines, elemLines, noisyStep, torchTrueStep, torchFSeperateTrue, bind_assoc, pure_bind, RandM.liftM_ok]

theorem torchStochBodyG_scalar (env : Env ρ K) (c : Cfg d N M K) :
    torchStochBodyG env (sLines c.g) c = torchStochBody env c := by
  funext ti tt Z
  unfold torchStochBodyG torchStochBody
  simp only [sLines, elemLines, noisyStep, bind_assoc, pure_bind, RandM.liftM_ok]
  rfl

theorem torchBackwardSimG_scalar (env : Env ρ K) (c : Cfg d N M K) (grid : List K) (Z B : Traj d N K) :
    torchBackwardSimG env (sLines c.g) c grid Z B = torchBackwardSim env c grid Z B := by
  unfold torchBackwardSimG torchBackwardSim
  have : backwardBodyG env (fun i B => torchDensityEst env M (effKern c.kern) Z B i)
      (fun i B => torchBwDensityEst env M (effKern c.kern) Z B i) (sLines c.g) c grid
      = torchBackwardBody env c grid Z := by
    funext ti tt B
    unfold backwardBodyG torchBackwardBody
    simp only [sLines, elemLines, pure_bind, RandM.liftM_ok]
  rw [this]

theorem torchConstructL_scalar (env : Env ρ K) (c : Cfg d N M K) :
    torchConstructL env (sLines c.g) c = torchConstruct env c := by
  unfold torchConstructL torchConstruct torchForwardOtto torchForwardOttoTrue torchForwardStoch
  simp only [torchOttoBodyG_scalar, torchTrueBodyG_scalar, torchStochBodyG_scalar,
    torchBackwardSimG_scalar]
  rfl

/-! ### Bad shapes -/

theorem ottoBodyG_zero (env : Env ρ K) (L : GLines d N K) (c : Cfg d N M K) (tt : K) (Z : Traj d N K) :
    ottoBodyG env L c 0 tt Z = ottoBody env c 0 tt Z := rfl

theorem torchOttoBodyG_zero (env : Env ρ K) (L : GLines d N K) (c : Cfg d N M K) (tt : K)
    (Z : Traj d N K) : torchOttoBodyG env L c 0 tt Z = torchOttoBody env c 0 tt Z := rfl

theorem bind_total_error {α β : Type} {x : RandM ρ α} (hx : Total x) {f : α → RandM ρ β} {e : PyErr}
    (hf : ∀ a r, f a r = .error e) (r : ρ) : (x >>= f) r = .error e := by
  obtain ⟨a, r', hp⟩ := hx r
  rw [RandM.bind_app, hp]
  exact hf _ _

theorem bind_error {α β : Type} {x : RandM ρ α} {r : ρ} {e : PyErr} (h : x r = .error e)
    (f : α → RandM ρ β) : (x >>= f) r = .error e := by rw [RandM.bind_app, h]

theorem normalMat_total (env : Env ρ K) (s : K) (d n : ℕ) : Total (normalMat env s d n) :=
  fun r => ⟨_, _, rfl⟩

/-- Second iteration of the deterministic forward loop when the noisy line raises. -/
theorem ottoBodyG_one_bad (env : Env ρ K) (L : GLines d N K) (c : Cfg d N M K) {e : PyErr}
    (hL : ∀ x fx xi, L.noisy x fx xi = .error e) (tt : K) (Z : Traj d N K) (hl : 1 < Z.length) (r : ρ) :
    ottoBodyG env L c 1 tt Z r = .error e := by
  unfold ottoBodyG
  rw [if_neg (by omega), if_pos rfl]
  rw [show ((1 : Nat) : Int) - 1 = ((0 : Nat) : Int) from rfl, pyGet_nat _ (by omega), RandM.liftM_ok]
  simp only [pure_bind, bind_assoc]
  refine bind_total_error (normalMat_total env _ d N) (fun a r => ?_) r
  simp only [hL, RandM.liftM_error, RandM.raise_bind, RandM.raise_app]

theorem torchOttoBodyG_one_bad (env : Env ρ K) (L : GLines d N K) (c : Cfg d N M K) {e : PyErr}
    (hL : ∀ x fx xi, L.noisy x fx xi = .error e) (tt : K) (Z : Traj d N K) (hl : 1 < Z.length) (r : ρ) :
    torchOttoBodyG env L c 1 tt Z r = .error e := by
  unfold torchOttoBodyG
  rw [if_neg (by omega), if_pos rfl]
  rw [show ((1 : Nat) : Int) - 1 = ((0 : Nat) : Int) from rfl, pyGet_nat _ (by omega), RandM.liftM_ok]
  simp only [pure_bind, bind_assoc]
  refine bind_total_error (normalMat_total env _ d N) (fun a r => ?_) r
  simp only [hL, RandM.liftM_error, RandM.raise_bind, RandM.raise_app]

theorem torchStochBodyG_one_bad (env : Env ρ K) (L : GLines d N K) (c : Cfg d N M K) {e : PyErr}
    (hL : ∀ x fx xi, L.noisy x fx xi = .error e) (tt : K) (Z : Traj d N K) (hl : 1 < Z.length) (r : ρ) :
    torchStochBodyG env L c 1 tt Z r = .error e := by
  unfold torchStochBodyG
  rw [if_neg (by omega)]
  rw [show ((1 : Nat) : Int) - 1 = ((0 : Nat) : Int) from rfl, pyGet_nat _ (by omega), RandM.liftM_ok]
  simp only [pure_bind, bind_assoc]
  refine bind_total_error (normalMat_total env _ d N) (fun a r => ?_) r
  simp only [hL, RandM.liftM_error, RandM.raise_bind, RandM.raise_app]

theorem npConstructG_bad (env : Env ρ K) (g : NArr K) (c : Cfg d N M K) (hdet : c.deterministic = true)
    (hk : 2 ≤ (mkGrid c.t1 c.t2).length) (hg : fits g.rshape [N, d] = false) (r : ρ) :
    npConstructG env g c r = .error .valueError := by
  unfold npConstructG npConstructL
  generalize mkGrid c.t1 c.t2 = grid at hk ⊢
  obtain ⟨t0, t1, ts, rfl⟩ : ∃ t0 t1 ts, grid = t0 :: t1 :: ts := by
    match grid, hk with
    | a :: b :: l, _ => exact ⟨a, b, l, rfl⟩
  simp only [if_pos hdet]
  apply bind_error
  rw [enumLoop, ottoBodyG_zero, ottoBody_zero _ _ _ _ (by simp [zerosT_length]), pure_bind, enumLoop]
  apply bind_error
  exact ottoBodyG_one_bad _ _ _ (fun x fx xi => noisyG_bad hg _ x fx xi) _ _
    (by split <;> simp [zerosT_length]) _

theorem torchConstructG_bad (env : Env ρ K) (g : NArr K) (c : Cfg d N M K) (grid : List K)
    (hgrid : torchGrid c.t1 c.t2 = .ok grid) (hk : 2 ≤ grid.length) (hd : c.deterministic = true ∨ 2 ≤ d)
    (hg : fits g.rshape [N, d] = false) (r : ρ) :
    torchConstructG env g c r = .error .runtimeError := by
  unfold torchConstructG torchConstructL
  rw [hgrid, RandM.liftM_ok, pure_bind]
  obtain ⟨t0, t1, ts, rfl⟩ : ∃ t0 t1 ts, grid = t0 :: t1 :: ts := by
    match grid, hk with
    | a :: b :: l, _ => exact ⟨a, b, l, rfl⟩
  by_cases hdet : c.deterministic = true
  · simp only [if_pos hdet]
    apply bind_error
    rw [enumLoop, torchOttoBodyG_zero, torchOttoBody_zero _ _ _ _ (by simp [zerosT_length]), pure_bind,
      enumLoop]
    apply bind_error
    exact torchOttoBodyG_one_bad _ _ _ (fun x fx xi => noisyG_bad hg _ x fx xi) _ _
      (by split <;> simp [zerosT_length]) _
  · simp only [if_neg hdet]
    apply bind_error
    have hd2 : 2 ≤ d := hd.resolve_left hdet
    rw [enumLoop]
    have hz : torchStochBodyG env (arrayLines PyErr.runtimeError g) c 0 t0
        (zerosT d N (t0 :: t1 :: ts).length)
        = pure ((zerosT d N ((t1 :: ts).length + 1)).set 0 (stochInit N c.y1)) :=
      stochBody_zero env c t0 _ hd2
    rw [hz, pure_bind, enumLoop]
    apply bind_error
    exact torchStochBodyG_one_bad _ _ _ (fun x fx xi => noisyG_bad hg _ x fx xi) _ _
      (by simp [zerosT_length]) _

/-- Stochastic numpy sampler, array that does not broadcast to a single particle. -/
theorem npConstructG_stoch_bad (env : Env ρ K) (g : NArr K) (c : Cfg d N M K)
    (hdet : c.deterministic = false) (hd : 2 ≤ d) (hN : 0 < N) (f1 : (Fin d → K) → Fin d → K)
    (hf : c.f.call1 = some f1)
    (hk : 2 ≤ (mkGrid c.t1 c.t2).length) (hg : fits g.rshape [d] = false) (r : ρ) :
    npConstructG env g c r = .error .valueError := by
  unfold npConstructG npConstructL
  generalize mkGrid c.t1 c.t2 = grid at hk ⊢
  obtain ⟨t0, t1, ts, rfl⟩ : ∃ t0 t1 ts, grid = t0 :: t1 :: ts := by
    match grid, hk with
    | a :: b :: l, _ => exact ⟨a, b, l, rfl⟩
  simp only [hdet, Bool.false_eq_true, if_false]
  apply bind_error
  rw [enumLoop]
  have hz : stochBodyG env (arrayLines PyErr.valueError g) c 0 t0
      (zerosT d N (t0 :: t1 :: ts).length)
      = pure ((zerosT d N ((t1 :: ts).length + 1)).set 0 (stochInit N c.y1)) :=
    stochBody_zero env c t0 _ hd
  rw [hz, pure_bind, enumLoop]
  apply bind_error
  unfold stochBodyG
  rw [if_neg (by omega)]
  apply bind_error
  unfold stochMoveG
  obtain ⟨n, rfl⟩ : ∃ n, N = n + 1 := ⟨N - 1, by omega⟩
  rw [forFin]
  apply bind_error
  rw [show ((1 : Nat) : Int) - 1 = ((0 : Nat) : Int) from rfl, pyGet_nat _ (by simp [zerosT_length]),
    RandM.liftM_ok, pure_bind]
  simp only [hf]
  refine bind_total_error (normalVec_total env _ d) (fun a r => ?_) r
  simp only [arrayLines, stochG_bad hg, RandM.liftM_error, RandM.raise_bind, RandM.raise_app]

theorem bind_never {α β : Type} {x : RandM ρ α} {f : α → RandM ρ β}
    (hf : ∀ a r p, f a r ≠ .ok p) (r : ρ) (p : β × ρ) : (x >>= f) r ≠ .ok p := by
  intro h
  obtain ⟨a, r1, _, h2⟩ := RandM.bind_ok.1 (show (x >>= f) r = .ok (p.1, p.2) from h)
  exact hf _ _ _ h2

theorem never_bind {α β : Type} {x : RandM ρ α} {f : α → RandM ρ β}
    (hf : ∀ r p, x r ≠ .ok p) (r : ρ) (p : β × ρ) : (x >>= f) r ≠ .ok p := by
  intro h
  obtain ⟨a, r1, h1, _⟩ := RandM.bind_ok.1 (show (x >>= f) r = .ok (p.1, p.2) from h)
  exact hf _ _ h1

/-- A backward simulation of at least one step whose noisy line raises never succeeds. -/
theorem backwardBodyG_bad (env : Env ρ K) (dens bw : Int → Traj d N K → RandM ρ (Mat d N K))
    (L : GLines d N K) (c : Cfg d N M K) {e : PyErr}
    (hL : ∀ b fb gro xi, L.backNoisy b fb gro xi = .error e)
    (t0 t1 t2 : K) (ts : List K) (B : Traj d N K) (r : ρ) (p : Traj d N K × ρ) :
    enumLoop (backwardBodyG env dens bw L c (t0 :: t1 :: t2 :: ts)) 0
      (t0 :: t1 :: t2 :: ts).dropLast B r ≠ .ok p := by
  rw [List.dropLast_cons_cons, List.dropLast_cons_cons, enumLoop]
  refine bind_never (fun B r p => ?_) r p
  rw [enumLoop]
  refine never_bind (fun r p => ?_) r p
  unfold backwardBodyG
  rw [if_neg (by omega)]
  refine bind_never (fun gro r p => ?_) r p
  rw [if_pos (by cases c.deterministic <;> simp)]
  refine bind_never (fun b r p => ?_) r p
  refine bind_never (fun t r p => ?_) r p
  refine bind_never (fun xi r p => ?_) r p
  simp only [hL, RandM.liftM_error, RandM.raise_bind, RandM.raise_app]
  exact fun h => by cases h

theorem npConstructG_back_bad (env : Env ρ K) (g : NArr K) (c : Cfg d N M K)
    (hk : 3 ≤ (mkGrid c.t1 c.t2).length) (hg : fits g.rshape [N, d] = false) (r : ρ)
    (p : Obj d N M K × ρ) : npConstructG env g c r ≠ .ok p := by
  by_cases hdet : c.deterministic = true
  · rw [npConstructG_bad env g c hdet (by omega) hg]
    exact fun h => by cases h
  · unfold npConstructG npConstructL
    generalize mkGrid c.t1 c.t2 = grid at hk ⊢
    obtain ⟨t0, t1, t2, ts, rfl⟩ : ∃ t0 t1 t2 ts, grid = t0 :: t1 :: t2 :: ts := by
      match grid, hk with
      | a :: b :: b' :: l, _ => exact ⟨a, b, b', l, rfl⟩
    simp only [if_neg hdet]
    refine bind_never (fun Z r p => ?_) r p
    refine bind_never (fun Z r p => ?_) r p
    refine never_bind (fun r p => ?_) r p
    refine never_bind (fun r p => ?_) r p
    exact backwardBodyG_bad env _ _ _ c (fun b fb gro xi => backNoisyG_bad hg _ b fb gro xi) _ _ _ _ _ r p

end
end DPFC
