import Verif.Spec.Effects

/-!
# Vocabulary for drifts that write into the array they are handed
-/

namespace DPFC.Spec

variable {K ρ : Type} [Add K] [Sub K] [Mul K] [Div K] [Neg K] [NumOps K]
variable {d N M : Nat}

/-- Forward step number `i` (0 is the first) at time `t` with a drift that has found the contents `x` and left `x'`;
`y` is the result. The first step: call, then normals, `y = x' + dt*v + g*ξ`. Later steps: the score is estimated from
`x` before the call, `y = x' + dt*(v - g²/2 * score)`. -/
def ForwardCall (env : Env ρ K) (score : Mat d N K → RandM ρ (Mat d N K)) (g : K) (f : EDrift d N ρ K)
    (i : Nat) (t : K) (x x' y : Mat d N K) : Prop :=
  ∃ s s1 s' v,
    (i = 0 ∧ f.call2 x t s = .ok ((v, x'), s1) ∧ ∃ ξ, normalMat env (NumOps.sqrt dtc) d N s1 = .ok (ξ, s') ∧
      y = fun a n => x' a n + dtc * v a n + g * ξ a n) ∨
    (0 < i ∧ ∃ gpsi, score x s = .ok (gpsi, s1) ∧ f.call2 x t s1 = .ok ((v, x'), s') ∧
      y = fun a n => x' a n + dtc * (v a n - lit 1 2 * sq g * gpsi a n))

/-- A forward sweep: `xs` are the contents of the slices when the drift is called on them, `Z` is what is stored in
the end. Slice `i` of `Z` is what the drift has left of `xs_i`; the next slice is computed from it; the last slice is
never handed to the drift. -/
def ForwardSweep (env : Env ρ K) (score : Mat d N K → RandM ρ (Mat d N K)) (weigh : Mat d N K → K → RandM ρ (Mat d N K))
    (g : K) (f : EDrift d N ρ K) (reweight : Bool) (grid : List K) (xs Z : Traj d N K) : Prop :=
  xs.length = grid.length ∧ Z.length = grid.length ∧
  (∀ i, i + 1 < grid.length → ∃ t x x' y w, grid[i + 1]? = some t ∧ xs[i]? = some x ∧ Z[i]? = some x' ∧
    xs[i + 1]? = some y ∧ ForwardCall env score g f i (t - dtc) x x' w ∧
    (if reweight then ∃ s s', weigh w t s = .ok (y, s') else y = w)) ∧
  Z[grid.length - 1]? = xs[grid.length - 1]?

/-- Backward step at time `t` with a drift that has found the contents `b` and left `b'`; `z` is the forward slice.
`first` is the noisy first step. Both scores are estimated from `b`, before the call. -/
def BackwardCall (env : Env ρ K) (dens bw : Mat d N K → Mat d N K → RandM ρ (Mat d N K)) (g : K)
    (f : EDrift d N ρ K) (noisy : Bool) (z : Mat d N K) (t : K) (b b' y : Mat d N K) : Prop :=
  ∃ s s1 s2 s' v gro, dens z b s = .ok (gro, s1) ∧
    (noisy = true ∧ f.call2 b t s1 = .ok ((v, b'), s2) ∧
        (∃ ξ, normalMat env (NumOps.sqrt dtc) d N s2 = .ok (ξ, s') ∧
          y = fun a n => b' a n - v a n * dtc + dtc * sq g * gro a n + g * ξ a n) ∨
      noisy = false ∧ ∃ grb, bw z b s1 = .ok (grb, s2) ∧ f.call2 b t s2 = .ok ((v, b'), s') ∧
        y = fun a n => b' a n - (v a n - sq g * gro a n + lit 1 2 * sq g * grb a n) * dtc)

/-- A backward sweep over the forward flow `Z`: `bs_j` are the contents of slice `j` when the drift is called on it
(`j = k-1, ..., 2`), `B` is what is stored in the end. Slice `j ≥ 2` of `B` is what the drift has left of `bs_j`,
slice 1 is never handed to the drift. -/
def BackwardSweep (env : Env ρ K) (dens bw : Mat d N K → Mat d N K → RandM ρ (Mat d N K)) (g : K)
    (f : EDrift d N ρ K) (det : Bool) (grid : List K) (Z : Traj d N K) (bs : Nat → Mat d N K) (B : Traj d N K) : Prop :=
  B.length = grid.length ∧
  (∀ j, 2 ≤ j → j < grid.length → ∃ z t b', Z[j]? = some z ∧ grid[j]? = some t ∧ B[j]? = some b' ∧
    BackwardCall env dens bw g f (!det || j + 1 == grid.length) z t (bs j) b' (bs (j - 1))) ∧
  (2 ≤ grid.length → B[1]? = some (bs 1))

/-- The score estimate of the torch class at the particles (F.py:1020-1052). -/
def torchScoreAt (env : Env ρ K) (M : Nat) (x : Mat d N K) : RandM ρ (Mat d N K) := do
  let bnds ← (torchBox x : Except PyErr (Fin d → K × K))
  let Sxx ← torchInducing env bnds M
  let gpsi ← (torchScore (tr x) Sxx (.tensor (torchLengthScales x)) (lit 1 1000) "RBF" :
    Except PyErr (Mat N d K))
  pure (fun i n => gpsi n i)

/-- The score estimate of the true flow of the torch class at the particles (F.py:947-993). -/
def torchTrueScoreAt (env : Env ρ K) (M : Nat) (x : Mat d N K) : RandM ρ (Mat d N K) := do
  let bnds ← (torchBox x : Except PyErr (Fin d → K × K))
  let Sxx ← torchInducing env bnds M
  (torchTrueScore x Sxx : Except PyErr (Mat d N K))

end DPFC.Spec
