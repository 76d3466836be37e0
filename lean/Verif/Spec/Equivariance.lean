import Verif.Spec.Transport
import Verif.Model.TorchDPFC

/-! Changes of coordinates and of the time origin, as transformations of the constructor arguments. -/

namespace DPFC.Spec
variable {ρ : Type} {d N M : ℕ}

/-- Both constructions raise the same exception, or both succeed with the same final random state and
objects in relation `R`. -/
def OutcomeRel (R : Obj d N M ℝ → Obj d N M ℝ → Prop) (x y : Except PyErr (Obj d N M ℝ × ρ)) : Prop :=
  match x, y with
  | .error e, .error e' => e = e'
  | .ok (o, r), .ok (o', r') => R o o' ∧ r = r'
  | _, _ => False

/-- The flows of `o'` are those of `o` transformed by `A`, its times transformed by `τ`. (In stochastic
mode the true-drift flow is a constant array of zeros, see C49, and is not compared.) -/
def FlowsMapped (A : (Fin d → Fin N → ℝ) → Fin d → Fin N → ℝ) (τ : ℝ → ℝ) (o o' : Obj d N M ℝ) : Prop :=
  o'.timegrid = o.timegrid.map τ ∧ o'.Z = o.Z.map A ∧ o'.B = o.B.map A ∧
    (o.cfg.deterministic = true → o'.Ztr = o.Ztr.map (List.map A))

/-- The drift whose clock is late by `h`. -/
def Drift.delay (h : ℝ) (f : Drift d N ℝ) : Drift d N ℝ := ⟨fun x t => f.call2 x (t - h), f.call1⟩

/-- The constraint whose clock is late by `h`. -/
def Constraint.delay (h : ℝ) (U : Constraint d N ℝ) : Constraint d N ℝ :=
  ⟨fun x t => U.call2 x (t - h), U.call1⟩

/-- The problem posed `h` later. -/
def delay (h : ℝ) (c : Cfg d N M ℝ) : Cfg d N M ℝ :=
  { c with t1 := c.t1 + h, t2 := c.t2 + h, f := Drift.delay h c.f,
           U := c.U.map (Constraint.delay h), fTrue := c.fTrue.map (Drift.delay h) }

/-- A cloud in the coordinates `s x + v`. -/
def moved (s : ℝ) (v : Fin d → ℝ) (x : Fin d → Fin N → ℝ) : Fin d → Fin N → ℝ :=
  fun a n => s * x a n + v a

/-- A cloud given in the coordinates `s x + v`, converted back. -/
noncomputable def unmoved (s : ℝ) (v : Fin d → ℝ) (x : Fin d → Fin N → ℝ) : Fin d → Fin N → ℝ :=
  fun a n => (x a n - v a) / s

/-- The drift in the coordinates `s x + v`. -/
noncomputable def Drift.move (s : ℝ) (v : Fin d → ℝ) (f : Drift d N ℝ) : Drift d N ℝ :=
  ⟨fun x t a n => s * f.call2 (unmoved s v x) t a n,
   f.call1.map fun f1 p a => s * f1 (fun a => (p a - v a) / s) a⟩

/-- The constraint in the coordinates `s x + v`. -/
noncomputable def Constraint.move (s : ℝ) (v : Fin d → ℝ) (U : Constraint d N ℝ) :
    Constraint d N ℝ :=
  ⟨fun x t n => U.call2 (unmoved s v x) t n, U.call1.map fun u x n => u (unmoved s v x) n⟩

/-- The problem in the coordinates `s x + v`: start, end point, drift, noise strength and constraint
converted. -/
noncomputable def move (s : ℝ) (v : Fin d → ℝ) (c : Cfg d N M ℝ) : Cfg d N M ℝ :=
  { c with y1 := fun a => s * c.y1 a + v a, y2 := fun a => s * c.y2 a + v a,
           f := Drift.move s v c.f, g := s * c.g, U := c.U.map (Constraint.move s v),
           fTrue := c.fTrue.map (Drift.move s v) }

/-- The transport plan does not depend on the unit in which costs are measured. -/
def SolverScaleFree (env : Env ρ ℝ) : Prop :=
  ∀ (n : ℕ) (a b : Fin n → ℝ) (C : Fin n → Fin n → ℝ) (s : ℝ), 0 < s →
    env.emd a b (fun i j => s * C i j) = env.emd a b C

/-- The control results `p` and `q` (outcome of a query and random state after it) agree up to the factor
`1/s`: same exception, or both succeed with the same random state and `q = p / s`. -/
def ScaledResult (s : ℝ) {n : ℕ} (p q : Except PyErr (Mat d n ℝ × ρ)) : Prop :=
  match p, q with
  | .error e, .error e' => e = e'
  | .ok (u, r), .ok (u', r') => (∀ a j, u' a j = u a j / s) ∧ r' = r
  | _, _ => False

/-- The same for results of dynamic shape (torch): the shapes agree. -/
def ScaledDyn (s : ℝ) (p q : Except PyErr (Dyn2 ℝ × ρ)) : Prop :=
  match p, q with
  | .error e, .error e' => e = e'
  | .ok (⟨n, m, u⟩, r), .ok (⟨n', m', u'⟩, r') => r' = r ∧ ∃ (hn : n' = n) (hm : m' = m),
      ∀ a j, u' a j = u (Fin.cast hn a) (Fin.cast hm j) / s
  | _, _ => False

/-- `U'` is `U` plus a term that is the same for all particles (it may depend on time and on the cloud as a
whole). -/
def SameUpToConstant (U U' : Constraint d N ℝ) : Prop :=
  (∀ x t, ∃ β : ℝ, ∀ n, U'.call2 x t n = U.call2 x t n + β) ∧
  match U.call1, U'.call1 with
  | none, none => True
  | some u, some u' => ∀ x, ∃ β : ℝ, ∀ n, u' x n = u x n + β
  | _, _ => False

end DPFC.Spec
