import Verif.Model.DPFC

/-!
# The conservative example systems

The one-dimensional double well of `data/scripts_for_plots/double-well/plot_extreme_double_well.py` (W.py) and
`plot_non_extreme_double_well.py` (Wn.py), and the planar system of
`data/scripts_for_plots/conservative_system_2D/plot_2d_evolutionary_UPDATED-fig2-of-paper-nmore.py` (F2.py) and
`.../plot_2d_evolutionary_UPDATED-fig2b-of-paper-nmore.py` (F2b.py) with its path constraint. Only the functions the
scripts define are modelled; the scripts load stored runs and plot them.
-/

namespace DPFC
section
variable {K : Type} [Add K] [Sub K] [Mul K] [Div K] [Neg K] [NumOps K]
variable {N d n : Nat}

/-- `f(x, t=0)`: `4*x-4*x*x*x`, elementwise (W.py:104-105; Wn.py:139-140). -/
def dwF (x : K) : K := lit 4 1 * x - lit 4 1 * x * x * x

/-- `V = lambda x: -2* x**2 + x**4` (W.py:109; Wn.py:144). -/
def dwV (x : K) : K := -(lit 2 1) * sq x + sq (sq x)

/-- `f` as an argument of the constructor, for states of any shape: it works elementwise and `t` is optional
(W.py:104-105; Wn.py:139-140). -/
def dwDrift : Drift d N K where
  call2 x _ := fun a j => dwF (x a j)
  call1 := some fun v a => dwF (v a)

/-- `f(x, t=0)` with the module constant `b`, on an array with at least two rows (F2.py:54-58; F2b.py:55-59). `x**3` is
`x*x*x`. -/
def rosF (b : K) (x : Mat 2 n K) : Mat 2 n K := fun a j =>
  if a = 0 then -(lit 4 1) * b * (x 0 j * x 0 j * x 0 j) + x 0 j * (lit 4 1 * b * x 1 j - lit 2 1) + lit 2 1
  else -(lit 2 1) * b * (x 1 j - sq (x 0 j))

/-- `f` as an argument of the constructor (F2.py:55-58; F2b.py:56-59). -/
def rosDrift (b : K) : Drift 2 N K where
  call2 x _ := rosF b x
  call1 := some fun v a => rosF (n := 1) b (fun c _ => v c) a 0

/-- `U_path(x)`: `-(np.power(x[1] - y2[1], 2))` with the module variable `y2` (F2.py:61-62; F2b.py:62-63). -/
def rosU (y2 : Fin 2 → K) (x : Mat 2 n K) : Fin n → K := fun j => -(sq (x 1 j - y2 1))

end
end DPFC
