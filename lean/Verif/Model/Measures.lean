import Verif.Model.DPFC

/-!
# The numbers reported about controlled runs

The figures of the paper compare controllers by a few numbers computed from the stored controls and paths of many
repetitions:
`data/scripts_for_plots/conservative_system_2D/plot_2d_evolutionary_UPDATED-fig2-of-paper-nmore.py` (F2.py),
`.../plot_2d_evolutionary_UPDATED-fig2b-of-paper-nmore.py` (F2b.py),
`data/scripts_for_plots/nonconservative_system_2D/plot_c_elegans_differentiation_2D_systematic.py` (G.py) and
`data/scripts_for_plots/double-well/plot_extreme_double_well.py` (W.py), `plot_non_extreme_double_well.py` (Wn.py).
An array `used_u` of shape `(d, repi, k)` is a trajectory array with `repi` columns.
-/

namespace DPFC
section
variable {K : Type} [Add K] [Sub K] [Mul K] [Div K] [Neg K] [NumOps K]
variable {d R n : Nat}

/-- `np.nansum` of a vector: NaN entries, the ones that differ from themselves, count as zero (F2.py:179-190;
F2b.py:682-693; G.py:1083; W.py:493; Wn.py:517-519). -/
def nanSum (v : Fin n → K) : K := NumOps.sum fun i => if NumOps.eqB (v i) (v i) then v i else lit 0 1

/-- `np.sqrt(np.nansum(np.power(u, 2), axis=0))` of one slice `u[:, :, t]`, entry of repetition `r` (F2.py:179;
F2b.py:682; G.py:1083). -/
def ctlNorm (u : Mat d R K) (r : Fin R) : K := NumOps.sqrt (nanSum fun a => sq (u a r))

/-- `np.power(np.sum(np.sqrt(np.nansum(np.power(u, 2), axis=0)), axis=-1), 2) / (T/dt)` (F2.py:179-182, 187-189;
F2b.py:682, 691; G.py:1083). -/
def effort (T dt : K) (u : Traj d R K) (r : Fin R) : K :=
  sq (NumOps.sum fun i : Fin u.length => ctlNorm u[i] r) / (T / dt)

/-- The column `control`: the slices `used_u[:, :, :-1]` (F2.py:179, 187; F2b.py:682, 691; G.py:1083). -/
def ctlAll (T dt : K) (u : Traj d R K) (r : Fin R) : K := effort T dt u.dropLast r

/-- The column `control_1sthalf`: the slices `used_u[:, :, :midt]` (F2.py:181, 189). -/
def ctlFirst (T dt : K) (midt : Nat) (u : Traj d R K) (r : Fin R) : K := effort T dt (u.take midt) r

/-- The column `control_2ndhalf`: the slices `used_u[:, :, midt:-1]` (F2.py:182, 190). -/
def ctlSecond (T dt : K) (midt : Nat) (u : Traj d R K) (r : Fin R) : K := effort T dt (u.dropLast.drop midt) r

/-- `np.nansum(np.power(used_u[:, :-1], 2), axis=1)/(T/dt)` for controls of shape `(repi, k)`, kept here as `(1, repi,
k)` (W.py:493; Wn.py:517-519). -/
def ctlEnergy (T dt : K) (u : Traj 1 R K) (r : Fin R) : K :=
  nanSum (fun i : Fin u.dropLast.length => sq (u.dropLast[i] 0 r)) / (T / dt)

/-- The column `path_error`: `np.nansum(np.power(Fcont[1, :, :-1] - y2[1], 2), axis=-1) / (T/dt)` (F2b.py:684, 693).
-/
def pathError (T dt : K) (y2 : Fin 2 → K) (F : Traj 2 R K) (r : Fin R) : K :=
  nanSum (fun i : Fin F.dropLast.length => sq (F.dropLast[i] 1 r - y2 1)) / (T / dt)

/-- The column `end_error`: `np.sqrt(np.sum((Fcont[:, :, -1] - np.atleast_2d(y2).T)**2, axis=0))` (F2.py:183, 191;
F2b.py:685, 694). -/
def endError (y2 : Fin d → K) (F : Traj d R K) (r : Fin R) : Except PyErr K := do
  let x ← pyGet F (-1)
  .ok (NumOps.sqrt (NumOps.sum fun a => sq (x a r - y2 a)))

/-- `df1.loc[df1['control'] < 10000000]`: the repetitions of the comparison method that are kept (F2.py:196;
F2b.py:700). -/
def kept (T dt : K) (u : Traj d R K) (r : Fin R) : Bool := NumOps.ltB (ctlAll T dt u r) (lit 10000000 1)

end
end DPFC
