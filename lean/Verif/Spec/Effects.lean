import Verif.Model.Effects

/-!
# Vocabulary for callables with side effects

Worlds in which calls can be observed: a plain function as a callable without side effects, a callable that is
interrupted after a number of calls, a callable that keeps a log of its calls.
-/

namespace DPFC.Spec

variable {K ρ : Type} {d N M : Nat}

/-- A plain function as a callable: no side effects, the argument is left alone. -/
def quietDrift (f : Drift d N K) : EDrift d N ρ K where
  call2 x t := pure (f.call2 x t, x)
  call1 x := match f.call1 with
    | none => RandM.raise .typeError
    | some f1 => pure (f1 x, x)

/-- `None` as a drift: calling it raises TypeError. -/
def quietDrift? : Option (Drift d N K) → EDrift d N ρ K
  | none => ⟨fun _ _ => RandM.raise .typeError, fun _ => RandM.raise .typeError⟩
  | some f => quietDrift f

/-- A plain function, or `None`, as a path constraint. -/
def quietU : Option (Constraint d N K) → EConstraint d N ρ K
  | none => ⟨fun _ _ => RandM.raise .typeError, fun _ => RandM.raise .typeError⟩
  | some U =>
    { call2 := fun x t => pure (U.call2 x t, x)
      call1 := fun x => match U.call1 with
        | none => RandM.raise .typeError
        | some u => pure (u x, x) }

/-- Constructor arguments with plain functions as callables. -/
def quiet (c : Cfg d N M K) : ECfg d N M ρ K where
  t1 := c.t1
  t2 := c.t2
  y1 := c.y1
  y2 := c.y2
  f := quietDrift c.f
  g := c.g
  reweight := c.reweight
  U := quietU c.U
  kern := c.kern
  fTrue := quietDrift? c.fTrue
  brownBridge := c.brownBridge
  deterministic := c.deterministic

/-- The arrays of an object. -/
def arrays (o : Obj d N M K) : EObj d N K := ⟨o.timegrid, o.Z, o.B, o.Ztr⟩

/-- The same random generators and solver in a world that has a further component `σ`. -/
def besides (σ : Type) (env : Env ρ K) : Env (ρ × σ) K where
  normal w := ((env.normal w.1).1, ((env.normal w.1).2, w.2))
  uniform w := ((env.uniform w.1).1, ((env.uniform w.1).2, w.2))
  emd := env.emd

/-- A call in a world with a further component `σ` (the call itself acts on the rest of the world as before): the
further component is changed by `h`, or the call is aborted with the exception given by `h`. -/
def watched {σ α : Type} (h : σ → Except PyErr σ) (x : RandM ρ α) : RandM (ρ × σ) α := fun w =>
  match h w.2 with
  | .error e => .error e
  | .ok s => match x w.1 with
    | .error e => .error e
    | .ok (a, r) => .ok (a, (r, s))

/-- A call of one of the user's callables: `f(x, t)`, `f(x)` for one particle, `f_true(x, t)`, `U(x, t)`, `U(x)`. -/
inductive Call (d N : Nat) (K : Type)
  | f (x : Mat d N K) (t : K)
  | f1 (x : Fin d → K)
  | fTrue (x : Mat d N K) (t : K)
  | U (x : Mat d N K) (t : K)
  | U1 (x : Mat d N K)

/-- All callables of a configuration watched by `h`, which sees every call before it is carried out. -/
def watch {σ : Type} (h : Call d N K → σ → Except PyErr σ) (c : ECfg d N M ρ K) : ECfg d N M (ρ × σ) K where
  t1 := c.t1
  t2 := c.t2
  y1 := c.y1
  y2 := c.y2
  f := ⟨fun x t => watched (h (.f x t)) (c.f.call2 x t), fun x => watched (h (.f1 x)) (c.f.call1 x)⟩
  g := c.g
  reweight := c.reweight
  U := ⟨fun x t => watched (h (.U x t)) (c.U.call2 x t), fun x => watched (h (.U1 x)) (c.U.call1 x)⟩
  kern := c.kern
  fTrue := ⟨fun x t => watched (h (.fTrue x t)) (c.fTrue.call2 x t), fun x => watched (h (.f1 x)) (c.fTrue.call1 x)⟩
  brownBridge := c.brownBridge
  deterministic := c.deterministic

end DPFC.Spec

namespace DPFC.Spec

variable {K ρ : Type} {d N M : Nat}

/-- What happens when calls `calls` are made in this order under the eyes of the monitor `h`: it may change its
own state `s`, the first exception it raises aborts. -/
def monitor {σ : Type} (h : Call d N K → σ → Except PyErr σ) : List (Call d N K) → σ → Except PyErr σ
  | [], s => .ok s
  | c :: cs, s => match h c s with
    | .error e => .error e
    | .ok s' => monitor h cs s'

/-- The computation `y`, in which the calls of the callables are watched by a monitor, is the computation `x`
started from `r`, with the calls `calls` made in this order: the monitor sees exactly these calls; if it aborts one
of them, its exception is what comes out; otherwise the result (value and world, or exception) is that of `x`. -/
def MakesCalls {α : Type} (x : RandM ρ α)
    (y : (σ : Type) → (Call d N K → σ → Except PyErr σ) → RandM (ρ × σ) α) (r : ρ)
    (calls : List (Call d N K)) : Prop :=
  ∀ σ h s, y σ h (r, s) = match monitor h calls s with
    | .error e => .error e
    | .ok s' => match x r with
      | .error e => .error e
      | .ok (a, r') => .ok (a, (r', s'))

/-- Which callable is called, and with which time. -/
inductive Tag (K : Type)
  | f (t : K)
  | f1
  | fTrue (t : K)
  | U (t : K)
  | U1

/-- The tag of a call. -/
def tag : Call d N K → Tag K
  | .f _ t => .f t
  | .f1 _ => .f1
  | .fTrue _ t => .fTrue t
  | .U _ t => .U t
  | .U1 _ => .U1

section
variable [Sub K] [NumOps K]

/-- The calls of a deterministic run on the grid `t_0, t_1, ...`: forward, for `i = 1, 2, ...`, the drift at
`t_i - dt`, followed by the constraint at `t_i` if there is reweighting; in Brownian-bridge reweighting mode then
the true drift at every `t_i - dt`; backward the drift at `t_{k-1}, ..., t_2`. -/
def scheduleDet (reweight bridge : Bool) (grid : List K) : List (Tag K) :=
  grid.tail.flatMap (fun t => .f (t - lit 1 1000) :: if reweight then [.U t] else [])
    ++ (if reweight && bridge then grid.tail.map fun t => .fTrue (t - lit 1 1000) else [])
    ++ (grid.drop 2).reverse.map .f

/-- The calls of a stochastic run of the numpy class: in every step one call of the drift per particle and one of
the constraint, both without time; backward as in a deterministic run. -/
def scheduleStoch (N : Nat) (reweight : Bool) (grid : List K) : List (Tag K) :=
  grid.tail.flatMap (fun _ => List.replicate N .f1 ++ if reweight then [.U1] else [])
    ++ (grid.drop 2).reverse.map .f

/-- The calls of a stochastic run of the torch class. -/
def scheduleTorchStoch (reweight : Bool) (grid : List K) : List (Tag K) :=
  grid.tail.flatMap (fun t => .f (t - lit 1 1000) :: if reweight then [.U1] else [])
    ++ (grid.drop 2).reverse.map .f

end

/-- A drift callable that leaves the array it is handed alone (it may still raise, keep state, draw random
numbers). -/
def Keeps (f : EDrift d N ρ K) : Prop :=
  (∀ x t r v x' r', f.call2 x t r = .ok ((v, x'), r') → x' = x) ∧
    ∀ x r v x' r', f.call1 x r = .ok ((v, x'), r') → x' = x

section
variable [Sub K] [NumOps K]

/-- The calls of a deterministic run with their arguments, in terms of the stored flows `Z`, `Ztr`, `B` and the
clouds `raw` the constraint has seen: for `i = 1, 2, ...` the drift on slice `i-1` of `Z` at `t_i - dt` and the
constraint on `raw_i` at `t_i`; the true drift on slice `i-1` of `Ztr` at `t_i - dt`; then the drift on the
slices `k-1, ..., 2` of `B` at their own times. -/
def callsDet (reweight : Bool) (grid : List K) (Z raw : Traj d N K) (Ztr : Option (Traj d N K)) (B : Traj d N K) :
    List (Call d N K) :=
  (Z.zip (raw.zip grid.tail)).flatMap (fun p =>
      .f p.1 (p.2.2 - lit 1 1000) :: if reweight then [.U p.2.1 p.2.2] else [])
    ++ (match Ztr with
      | some T => (T.zip grid.tail).map fun p => .fTrue p.1 (p.2 - lit 1 1000)
      | none => [])
    ++ ((B.zip grid).drop 2).reverse.map fun p => .f p.1 p.2

/-- The calls of a stochastic run of the numpy class: the drift on every particle of slice `i-1`, one at a time
and without time. -/
def callsStoch (reweight : Bool) (grid : List K) (Z raw B : Traj d N K) : List (Call d N K) :=
  (Z.zip (raw.zip grid.tail)).flatMap (fun p =>
      (List.ofFn fun i : Fin N => Call.f1 fun a => p.1 a i) ++ if reweight then [.U1 p.2.1] else [])
    ++ ((B.zip grid).drop 2).reverse.map fun p => .f p.1 p.2

/-- The calls of a stochastic run of the torch class. -/
def callsTorchStoch (reweight : Bool) (grid : List K) (Z raw B : Traj d N K) : List (Call d N K) :=
  (Z.zip (raw.zip grid.tail)).flatMap (fun p =>
      .f p.1 (p.2.2 - lit 1 1000) :: if reweight then [.U1 p.2.1] else [])
    ++ ((B.zip grid).drop 2).reverse.map fun p => .f p.1 p.2

end

/-- A monitor that lets `L` calls pass and then aborts with `e`; its state is the number of calls so far. -/
def interrupt (L : Nat) (e : PyErr) : Call d N K → Nat → Except PyErr Nat := fun _ n =>
  if n < L then .ok (n + 1) else .error e

end DPFC.Spec
