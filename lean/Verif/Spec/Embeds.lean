import Verif.Model.DPFC
import Verif.Inst.Real
import Verif.Spec.Ieee
import Verif.Spec.Recurrence

/-!
# Exact arithmetic inside a larger number system

`Embeds em` says that a scalar type `K` (for instance the reals with infinities and NaN, `Verif.Inst.XR`) computes
with the numbers `em x` as exact real arithmetic does, as long as no denominator is zero and no argument of a
square root is negative. What `K` does in these two cases, and with its other elements, is left open.
-/

namespace DPFC.Spec

section
variable {K : Type} [Add K] [Sub K] [Mul K] [Div K] [Neg K] [NumOps K]

structure Embeds (em : ℝ → K) : Prop where
  lit : ∀ (p : ℤ) (q : ℕ), (lit p q : K) = em ((p : ℝ) / (q : ℝ))
  add : ∀ a b, em a + em b = em (a + b)
  sub : ∀ a b, em a - em b = em (a - b)
  mul : ∀ a b, em a * em b = em (a * b)
  neg : ∀ a, -em a = em (-a)
  div : ∀ a b, b ≠ 0 → em a / em b = em (a / b)
  exp : ∀ a, NumOps.exp (em a) = em (Real.exp a)
  sqrt : ∀ a, 0 ≤ a → NumOps.sqrt (em a) = em (Real.sqrt a)
  sin : ∀ a, NumOps.sin (em a) = em (Real.sin a)
  cos : ∀ a, NumOps.cos (em a) = em (Real.cos a)
  abs : ∀ a, NumOps.abs (em a) = em |a|
  ltB : ∀ a b, (NumOps.ltB (em a) (em b) = true ↔ a < b)
  leB : ∀ a b, (NumOps.leB (em a) (em b) = true ↔ a ≤ b)
  eqB : ∀ a b, (NumOps.eqB (em a) (em b) = true ↔ a = b)
  isFinite : ∀ a, NumOps.isFinite (em a) = true
  ceilNat : ∀ a, NumOps.ceilNat (em a) = ⌈a⌉₊
  sum : ∀ {n : ℕ} (v : Fin n → ℝ), NumOps.sum (fun i => em (v i)) = em (∑ i, v i)
  amin : ∀ {n : ℕ} (v : Fin (n+1) → ℝ),
    NumOps.amin (fun i => em (v i)) = em (Finset.univ.inf' Finset.univ_nonempty v)
  amax : ∀ {n : ℕ} (v : Fin (n+1) → ℝ),
    NumOps.amax (fun i => em (v i)) = em (Finset.univ.sup' Finset.univ_nonempty v)
  /-- `linalg.inv` of a matrix of numbers: the inverse, or LinAlgError if there is none -/
  inv : ∀ {m : ℕ} (A : Mat m m ℝ), NumOps.inv (fun i j => em (A i j))
    = (NumOps.inv A).map fun B i j => em (B i j)

end

section
variable {K ρ : Type} [Add K] [Sub K] [Mul K] [Div K] [Neg K] [NumOps K]

/-- `linalg.inv` returns something on a matrix with only NaN entries (LAPACK finds no zero pivot). -/
def InvOfNan (I : Ieee K) : Prop :=
  ∀ (m : ℕ) (A : Mat m m K), (∀ i j, I.nan (A i j)) → ∃ B, NumOps.inv A = .ok B

/-- The transport solver always returns a plan. -/
def SolverReturns (env : Env ρ K) : Prop :=
  ∀ (n : ℕ) (a b : Fin n → K) (D : Mat n n K), ∃ T, env.emd a b D = .ok T

end

section
variable {K ρ : Type} {d N M : ℕ}

/-- a vector of numbers -/
def emV (em : ℝ → K) {n : ℕ} (v : Fin n → ℝ) : Fin n → K := fun i => em (v i)

/-- an array of numbers -/
def emM (em : ℝ → K) {n m : ℕ} (A : Mat n m ℝ) : Mat n m K := fun i j => em (A i j)

/-- The generators return the same numbers, and the transport solver does the same on arrays of numbers. -/
structure SameEnv (em : ℝ → K) (env : Env ρ ℝ) (env' : Env ρ K) : Prop where
  normal : ∀ r, env'.normal r = (em (env.normal r).1, (env.normal r).2)
  uniform : ∀ r, env'.uniform r = (em (env.uniform r).1, (env.uniform r).2)
  emd : ∀ {n : ℕ} (a b : Fin n → ℝ) (C : Mat n n ℝ),
    env'.emd (emV em a) (emV em b) (emM em C) = (env.emd a b C).map (emM em)

/-- The drift does the same on arrays of numbers (nothing is said about NaN and infinities). -/
structure SameDrift (em : ℝ → K) (f : Drift d N ℝ) (f' : Drift d N K) : Prop where
  call2 : ∀ x t, f'.call2 (emM em x) (em t) = emM em (f.call2 x t)
  isNone : f'.call1.isNone = f.call1.isNone
  call1 : ∀ u u', f.call1 = some u → f'.call1 = some u' → ∀ x, u' (emV em x) = emV em (u x)

/-- The constraint does the same on arrays of numbers. -/
structure SameConstraint (em : ℝ → K) (U : Constraint d N ℝ) (U' : Constraint d N K) : Prop where
  call2 : ∀ x t, U'.call2 (emM em x) (em t) = emV em (U.call2 x t)
  isNone : U'.call1.isNone = U.call1.isNone
  call1 : ∀ u u', U.call1 = some u → U'.call1 = some u' → ∀ x, u' (emM em x) = emV em (u x)

/-- Both arguments are missing, or both are present and related. -/
def SameOpt {α β : Type} (R : α → β → Prop) : Option α → Option β → Prop
  | none, none => True
  | some a, some b => R a b
  | _, _ => False

/-- The same problem. -/
structure SameCfg (em : ℝ → K) (c : Cfg d N M ℝ) (c' : Cfg d N M K) : Prop where
  t1 : c'.t1 = em c.t1
  t2 : c'.t2 = em c.t2
  y1 : c'.y1 = emV em c.y1
  y2 : c'.y2 = emV em c.y2
  f : SameDrift em c.f c'.f
  g : c'.g = em c.g
  reweight : c'.reweight = c.reweight
  U : SameOpt (SameConstraint em) c.U c'.U
  kern : c'.kern = c.kern
  fTrue : SameOpt (SameDrift em) c.fTrue c'.fTrue
  brownBridge : c'.brownBridge = c.brownBridge
  deterministic : c'.deterministic = c.deterministic

/-- All flows of `o'` are those of `o`. -/
structure SameObj (em : ℝ → K) (o : Obj d N M ℝ) (o' : Obj d N M K) : Prop where
  timegrid : o'.timegrid = o.timegrid.map em
  Z : o'.Z = o.Z.map (emM em)
  B : o'.B = o.B.map (emM em)
  Ztr : o'.Ztr = o.Ztr.map (List.map (emM em))


/-- The flow `T` has a slice after the first and at least `n` indices before its end (`i + n ≤ k`) in which the
cloud has no spread in some coordinate. -/
def FlatIn (n : ℕ) (T : Traj d N ℝ) : Prop :=
  ∃ i z, 1 ≤ i ∧ i + n ≤ T.length ∧ T[i]? = some z ∧ ¬ Spread z

end
end DPFC.Spec
