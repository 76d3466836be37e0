import Verif.Model.TorchDPFC

/-!
# Query sessions

A constructed object lives on while the program calls `calculate_u` and `check_if_covered` any number
of times, in any order, with arbitrary other code (which may use the same random generator) running in
between. Neither method assigns to an attribute of `self` (F.py:602-726, 1345-1507: all assignments
are to local names), so the object itself is not threaded through the session; the state of the
random generator is, and is arbitrary at each call.
-/

namespace DPFC
section
variable {K ρ : Type} [Add K] [Sub K] [Mul K] [Div K] [Neg K] [NumOps K]
variable {N M d : Nat}

/-- A query on a constructed object: `calculate_u(x, ti)` or `check_if_covered(X, ti)`
(F.py:602, 699, 1345, 1477). -/
inductive Query (K : Type)
  | control (n c : Nat) (x : Mat n c K) (ti : Int)
  | covered (c : Nat) (X : Fin c → K) (ti : Int)

/-- What the caller sees: an array, a truth value or an exception. -/
inductive Answer (K : Type)
  | control (u : Dyn2 K)
  | covered (b : Bool)
  | raised (e : PyErr)

/-- One query with the random generator in state `r` (F.py:602-726). -/
def ask (env : Env ρ K) (o : Obj d N M K) (q : Query K) (r : ρ) : Answer K :=
  match q with
  | .control n c x ti =>
    match calculateU env o x ti r with
    | .ok (u, _) => .control ⟨c, n, u⟩
    | .error e => .raised e
  | .covered _ X ti =>
    match checkIfCovered o X ti with
    | .ok b => .covered b
    | .error e => .raised e

/-- One query on the torch class (F.py:1345-1507). -/
def torchAsk (env : Env ρ K) (o : Obj d N M K) (q : Query K) (r : ρ) : Answer K :=
  match q with
  | .control _ _ x ti =>
    match torchCalculateU env o x ti r with
    | .ok (u, _) => .control u
    | .error e => .raised e
  | .covered _ X ti =>
    match torchCheckIfCovered o X ti with
    | .ok b => .covered b
    | .error e => .raised e

/-- The answers of a session: queries with the state of the random generator at the time of each call
(F.py:602-726, 1345-1507). -/
def session (askFn : Query K → ρ → Answer K) (h : List (Query K × ρ)) : List (Answer K) :=
  h.map fun p => askFn p.1 p.2

end
end DPFC
