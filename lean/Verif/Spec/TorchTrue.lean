import Verif.Spec.Verdict

/-!
# Specification of the true-drift flow of the torch class
-/

namespace DPFC.Spec
variable {ρ : Type} {d N M : ℕ}

/-- `w` is the number that the torch class subtracts, times `g^2/2`, from the true drift of particle `n` in
coordinate `a`: the score estimate of the cloud `x` with coordinates and particles exchanged. The inducing points
enter transposed: point `j` has the entries `P 0 j, P 1 j, ...`; the estimate is taken at particle `a`, for coordinate
`n`. Axes of length 1 are broadcast. -/
def SwappedScore (x : Fin d → Fin N → ℝ) (P : Fin M → Fin d → ℝ) (a : Fin d) (n : Fin N) (w : ℝ) : Prop :=
  ∃ (a' : Fin d) (n' : Fin N) (P' : Fin d → Fin d → ℝ),
    a'.val = (if M = 1 then 0 else n.val) ∧ n'.val = (if N = 1 then 0 else a.val) ∧
    (∀ j k (m : Fin M), m.val = (if M = 1 then 0 else k.val) → P' j k = P m j) ∧
    w = tcloudScore x P' x a' n'

/-- One step of the true-drift flow of the torch class. -/
def TorchTrueStep (env : Env ρ ℝ) (M : ℕ) (f : Drift d N ℝ) (g : ℝ) (i : ℕ) (t : ℝ)
    (x y : Fin d → Fin N → ℝ) (r r' : ρ) : Prop :=
  (i = 0 → y = noisy f g x t (normals env d N r) ∧ r' = normalsNext env d N r) ∧
  (i ≠ 0 → (∀ a, lo (x a) < hi (x a)) ∧ r' = tunifsNext env d M r ∧
    ∀ a n, ∃ w, SwappedScore x
        (tinducing (fun a => lo (x a)) (fun a => hi (x a)) (tunifs env d M r)) a n w ∧
      y a n = x a n + 1/1000 * (f.call2 x t a n - g^2/2 * w))

/-- The recurrence of the true-drift flow of the torch class: no reweighting. -/
def TorchTrueRec (env : Env ρ ℝ) (c : Cfg d N M ℝ) (Z : ℕ → Option (Fin d → Fin N → ℝ))
    (t : ℕ → Option ℝ) (rs : ℕ → ρ) : Prop :=
  ∃ f, c.fTrue = some f ∧ ∀ i x y ti, Z i = some x → Z (i+1) = some y → t i = some ti →
    TorchTrueStep env M f c.g i ti x y (rs i) (rs (i+1))

/-- Some initial part of the true-drift flow, started at `y1` with the random state left by a complete forward flow,
ends after at least one step in a cloud that has no spread in some coordinate. -/
def LosesSpreadTrue (env : Env ρ ℝ) (c : Cfg d N M ℝ) (grid : List ℝ) (r : ρ) : Prop :=
  ∃ (i : ℕ) (Z T : ℕ → Option (Fin d → Fin N → ℝ)) (rs rsT : ℕ → ρ), 1 ≤ i ∧ i < grid.length ∧
    Z 0 = some (fun a _ => c.y1 a) ∧ rs 0 = r ∧ (∀ j < grid.length, ∃ x, Z j = some x) ∧
    TorchForwardRec env c Z (fun j => grid[j]?) rs ∧
    T 0 = some (fun a _ => c.y1 a) ∧ rsT 0 = rs (grid.length - 1) ∧ (∀ j ≤ i, ∃ x, T j = some x) ∧
    TorchTrueRec env c T (fun j => grid[j]?) rsT ∧
    ∃ x a, T i = some x ∧ ∀ n n', x a n = x a n'

end DPFC.Spec
