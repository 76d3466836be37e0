import Verif.Spec.Recurrence
import Verif.Model.Shape

/-!
# Array-valued diffusion coefficients: broadcasting, and the deterministic numpy run

`G a n` is the coefficient of coordinate `a` of particle `n`. Compare `Verif.Spec.Recurrence`, where the
coefficient is a number.
-/

namespace DPFC.Spec

variable {ρ : Type} {d N M : ℕ}

/-- The broadcasting rule: an array of shape `s` can be used for a slice of shape `t` iff every axis,
counted from the last one, has length 1 or the length of the same axis of the slice (`s`, `t` are listed
from the last axis to the first). -/
def BroadcastsTo (s t : List ℕ) : Prop := ∀ (j x : ℕ), s[j]? = some x → x = 1 ∨ t[j]? = some x

/-- The entry of `g` that belongs to the entry with multi-index `idx` (last axis first) of the slice: axes of
length 1 are read at 0. -/
def entryAt {K : Type} (g : NArr K) (idx : List ℕ) : K :=
  g.val (g.rshape.mapIdx fun j x => if x = 1 then 0 else idx.getD j 0)

/-- The coefficients of a `(d, N)` slice. -/
def coeff {K : Type} (g : NArr K) (d N : ℕ) (a : Fin d) (n : Fin N) : K := entryAt g [n.val, a.val]

/-- The coefficients of a single particle, a `(d,)` slice. -/
def coeff1 {K : Type} (g : NArr K) (d : ℕ) (a : Fin d) : K := entryAt g [a.val]

/-- One deterministic forward step with coefficients `G`, before reweighting. -/
def ForwardStepA (env : Env ρ ℝ) (M : ℕ) (f : Drift d N ℝ) (G : Fin d → Fin N → ℝ) (i : ℕ) (t : ℝ)
    (x y : Fin d → Fin N → ℝ) (r r' : ρ) : Prop :=
  (i = 0 → (∀ a n, y a n = x a n + 1/1000 * f.call2 x t a n
      + G a n * (Real.sqrt (1/1000) * normals env d N r a n)) ∧ r' = normalsNext env d N r) ∧
  (i ≠ 0 → (Spread x → ∀ a n, y a n = x a n + 1/1000 * (f.call2 x t a n - (G a n)^2/2 *
      cloudScore x (inducing (fun a => lo (x a)) (fun a => hi (x a)) (unifs env d M r)) x a n)) ∧
    r' = unifsNext env d M r)

/-- The forward recurrence with coefficients `G`. -/
def ForwardRecA (env : Env ρ ℝ) (c : Cfg d N M ℝ) (G : Fin d → Fin N → ℝ)
    (Z : ℕ → Option (Fin d → Fin N → ℝ)) (t : ℕ → Option ℝ) (rs : ℕ → ρ) : Prop :=
  ∀ i x y ti, Z i = some x → Z (i+1) = some y → t i = some ti →
    ∃ raw, ForwardStepA env M c.f G i ti x raw (rs i) (rs (i+1)) ∧
      (c.reweight = false → y = raw) ∧
      (c.reweight = true → ∃ U, c.U = some U ∧
        TransportedTo env (fun n => U.call2 raw (ti + 1/1000) n * (1/1000)) raw y)

/-- The recurrence of the true-drift flow with coefficients `G`. -/
def TrueRecA (env : Env ρ ℝ) (c : Cfg d N M ℝ) (G : Fin d → Fin N → ℝ)
    (Z : ℕ → Option (Fin d → Fin N → ℝ)) (t : ℕ → Option ℝ) (rs : ℕ → ρ) : Prop :=
  ∃ f, c.fTrue = some f ∧ ∀ i x y ti, Z i = some x → Z (i+1) = some y → t i = some ti →
    ForwardStepA env M f G i ti x y (rs i) (rs (i+1))

/-- The backward recurrence of the deterministic mode with coefficients `G`. -/
def BackwardRecA (env : Env ρ ℝ) (c : Cfg d N M ℝ) (G : Fin d → Fin N → ℝ) (k : ℕ)
    (Z B : ℕ → Option (Fin d → Fin N → ℝ)) (t : ℕ → Option ℝ) (rs : ℕ → ρ) : Prop :=
  ∀ j z b y tj, 1 ≤ j → j + 2 ≤ k → Z (j+1) = some z → B (j+1) = some b → B j = some y →
    t (j+1) = some tj →
    (j + 2 = k →
      (Spread z → ∀ a n, y a n = b a n - c.f.call2 b tj a n * (1/1000)
        + 1/1000 * (G a n)^2 * scoreRho z b (unifs env d M (rs j)) a n
        + G a n * (Real.sqrt (1/1000) * normals env d N (unifsNext env d M (rs j)) a n)) ∧
      rs (j-1) = normalsNext env d N (unifsNext env d M (rs j))) ∧
    (j + 2 ≠ k →
      (Spread z → Spread b → ∀ a n, y a n = b a n - 1/1000 * (c.f.call2 b tj a n
        - (G a n)^2 * scoreRho z b (unifs env d M (rs j)) a n
        + (G a n)^2/2 * scoreB z b (unifs env d M (unifsNext env d M (rs j))) a n)) ∧
      rs (j-1) = unifsNext env d M (unifsNext env d M (rs j)))

end DPFC.Spec
