# Formal model of DeterministicParticleFlowControl (Lean 4)

## 1. What is modelled

The package is numerical: particle clouds pushed forward and backward by Euler
steps whose drift contains a kernel score estimate, plus an optimal transport
reweighting and a control read-out. The model has three layers.

* **Layer G (generic arithmetic).** All of the code is written once, polymorphic
  in a scalar type `K` that only provides *operations* (`+ - * / neg`, `exp`,
  `sqrt`, comparisons, "sum of a vector", "min/max of a vector", "ceil",
  "matrix inverse or LinAlgError"), with **no laws assumed**. Random numbers
  come from an arbitrary state machine (`normal`, `uniform : rho -> K x rho`),
  the transport solver is an arbitrary function. Python exceptions are values
  (`Except PyErr`). Theorems at this layer (pinning of end points, recurrences,
  non-interference, draw counts, error behaviour, dispatch) hold for every
  interpretation, in particular for IEEE doubles with any rounding and any
  summation order.
* **Layer R (exact reals).** The same definitions instantiated at Mathlib's
  real numbers: `sum` is the finite sum, the matrix inverse is the true inverse (LinAlgError when
  the determinant is 0). Here the numerical laws are proved (positive
  definiteness, derivatives, variational optimality, equivariance, ...).
* **Layer X (reals with IEEE special values).** Instantiated at
  `fin r | +inf | -inf | nan` with IEEE rules for the special values and exact
  arithmetic on finite values. Used for statements about NaN/inf.

Shape errors are modelled where a property is about them (Python indexing with
negative indices, layout of `grid_x`, broadcasting of `g`, the transposed
inducing points in the torch `f_seperate_true`).

## 2. Trusted base

* Lean 4.33 kernel, Mathlib; axioms `propext`, `Classical.choice`, `Quot.sound` only.
* Faithfulness of the model to the Python text (each definition cites lines).
* Modelled as parameters, with whatever is assumed of them written as an explicit
  hypothesis of the theorem concerned: NumPy/PyTorch random generators, `pyemd` / `ot`
  solvers, user callables (`f`, `U`, `f_true`; plain functions in most theorems, programs with side effects in C96, C97).
* The rules of PyTorch by which device, precision and `requires_grad` of results follow from those of the operands
  (`Model/Attr.lean`, C98, C99); they are stated once, in `Tn.ew`, `Tn.mm`, `Tn.put`, `Tn.numpy`.
* Not modelled: rounding error and overflow/underflow of concrete floats, the effect of dtype
  (float32/64) conversions on values (on the outcome: C98), the plots drawn in the "unreasonable bounds" branch
  (the IndexError of that branch in one dimension is modelled, C56), logging output, wall-clock timing, duecredit, numba memory
  safety for badly sized `output`, the `docs/` and `tests/` trees, and of the example trees
  (`data/`, `notebooks/`) everything except the simulation loop of the limit-cycle notebook
  (`Model/Loop`, C67) and the class, drift, order parameter and closed loop of the Kuramoto script
  `notebooks/Kuramoto_synchronisation/systematic_multi_N_kuramoto_inhomogeneous_for_cluster.py`
  (`Model/Kuramoto`, C75-C81), and the drift, reference simulation and constructor call of the
  limit-cycle scripts `script_1.py`, `Bridge_2D_on_Limit_Cycle.py` and
  `test_torch_bridge_on_LC.py` (`Model/LimitCycle`, C86), and the class, drift, linearisation and
  closed loop of `plot_c_elegans_differentiation_2D_systematic.py` up to line 677
  (`Model/Phenotype`, C87-C90; the covariances computed by the ODE solver `odeintw` are an
  argument of the model) and its path-integral comparison, lines 700-898 (`Model/Pice`, C91-C93;
  `np.linalg.pinv` is an argument of the model, `nansum`/`nanmean` are sum and mean). The linear-Gaussian theory script
  `gaussian_phenotype_compute_theoretical.py` is modelled in `Model/Gaussian` (C94, C95): the
  matrix roots `sqrtm` and the solutions of `odeint`/`odeintw` are arguments of the model.
  Of the plotting scripts of the double well and of the planar conservative system the drifts, potential and path
  constraint (`Model/Potential`, C100) and the columns of the tables behind the figures (`Model/Measures`, C101) are
  modelled; not the stored runs they load, nor the drawing.

## 3. Plan per property

(Status of each property is in MANIFEST.json; the list of theorems per
property is in section 5.)

| id | layer | how |
|----|-------|-----|
| C01 | R | `arange` as list of `t1+i*dt`, length by `Nat.ceil`; ceiling inequalities |
| C02-C05 | G | loop invariants over the time loops of forward / backward sampling |
| C06 | G | forward_sampling loop invariant; counterexample dim 3 |
| C07 | G | two-run simulation argument over the Otto loop (agree on all slices except the last until it is overwritten) |
| C08 | G | length invariant; frame lemma for each loop |
| C09-C12 | G, R | refinement of the loops to a recurrence relation over slices with explicit random states; closed form of score at layer R |
| C13, C14 | G | two-run simulation |
| C15 | G | random state instrumented with draw counters; sum over loop |
| C16 | R | arithmetic of `lo+(hi-lo)*u`, properties of min/max |
| C17 | R | RBF Gram matrix PSD (Schur product + exponential series), `S+eps I` PD, `cI+S^-1 A = S^-1(cS+A)` |
| C18, C19 | R | algebra; all reduce to one closed form |
| C20 | R | `HasDerivAt` |
| C21 | R | completion of the square with the PD matrix `A+cS` |
| C22-C25 | R | kernel invariances pushed through the closed form; coercivity bound |
| C26 | R | product of exponentials |
| C27 | G | definitional: argument is overwritten; stated on the API function for all `C` |
| C28 | G,R | state machine over call histories |
| C29 | G | cells written once; any permutation of iterations gives the same array |
| C30, C31 | G,R | case analysis |
| C32-C34 | R | finite sums; coupling hypothesis explicit; optimality forces zero cost |
| C35-C41 | G,R,X | case analysis of `calculate_u` |
| C42-C44 | R | order/variance algebra |
| C45-C47 | G,R | error propagation through the torch loops |
| C48 | X | NaN absorption |
| C49, C50 | G | frame / non-interference |
| C51, C52 | R | two-run simulation with translated states |
| C53 | G | broadcasting calculus on shapes (`Model/Shape.lean`): constructors with an array `g`, refinement to the scalar constructors |
| C54 | G | `check_if_covered` with 1-d and 2-d arguments (`Model/Coverage.lean`) |
| C55 | R | two-run simulation with affinely transformed states (C51 is `s = 1`) |
| C56, C57 | G + rules of IEEE 754 | NaN propagation through the loops; `Spec.Ieee` lists the rules used, `Inst.XR` satisfies them |
| C58, C59 | R | periodic kernel = Gaussian kernel of the points on the torus; Schur product; explicit singular instances |
| C60 | G + rules of IEEE 754 | 0/0 in the gradient quotient |
| C61 | R | C51/C52/C55 give the related object; then `calculate_u` / `check_if_covered` on related objects are compared branch by branch |
| C62 | R | weights are a softmax, which ignores a common term; then the run-equivalence lemma of C51 |
| C63 | R | totality of every step in exact arithmetic, case split over the outcome table `npVerdict` |
| C64 | R | every torch step is total or raises ValueError for want of spread; chain induction locates the first failing cloud; case split over `torchVerdict` |
| C65 | any arithmetic containing R | every function of the model commutes with the embedding `em` while denominators are non-zero (`Lib/Lift*`); chain induction; a cloud without spread gives kernel matrices full of NaN, hence a NaN slice, hence the exception at the next range check; the same commutation for the torch class, whose forward clouds have spread by C45 (with reweighting: a transported flat cloud would stay flat); failures: a flat cloud raises at the same range check in both arithmetics, and with spread the exact backward loop is total |
| C66 | any arithmetic with bounded relative error (`Spec/Rounding`), instance `Inst/F53` | forward error analysis of `(t2 + dt/2 - t1)/dt` and of the points; the half-step margin absorbs the error of the quotient |
| C67 | the notebook's loop over `timegrid[:-1]` (`Model/Loop`), generic and `K = R` | loop rewritten as a chain of steps, induction along the chain; coordinate change and time shift from C61 |
| C68 | `calculate_u`, `check_if_covered` of both classes on constructed objects, `K = R` | tables in `Spec/QueryVerdict`; case analysis along the calls, with the stored sizes (C08) and the kernel name (C31) known from construction |
| C69 | deterministic runs without reweighting of both classes and their control queries, `K = R` | `Spec/Limit`; runs rewritten as explicit recursions from C09/C10, each step continuous where there is spread (the regularised system matrix is positive definite, so its inverse is continuous); torch: spread is an open condition, so C64 rules out ValueErrors nearby |
| C70 | deterministic runs of both classes (torch: not the reweighted bridge mode) and their control queries, `K = R` | `Spec/Symmetry`; Gaussian kernel, extremes and deviations in new coordinates, then induction over the explicit recursion of the run (as for C69); for every generator a coupled one is constructed, so the hypotheses can be met. With reweighting (`Spec/SymReweight`): simulation of the whole constructors step by step, exceptions included; the costs of the transport problems are distances, hence unchanged |
| C71 | deterministic runs without reweighting, generator reading two tapes (`Spec/Law`), `K = R` | law of a block of tape entries under the product measure; explicit recursion of the run; the forward flow does not read the normals of the backward step |
| C72 | stochastic runs of both classes without reweighting, tape generator (numpy draws particle by particle: a permutation of the tape), `K = R` | refinement to the Euler-Maruyama chain (C11), independence of blocks of the tape, spread almost surely (a normal has no atoms), paths as measurable functions of disjoint columns |
| C73 | as C70 with the tape generator | coupling of C70 realised by a measure-preserving rearrangement of the tapes, both inequalities by the inverse symmetry; with reweighting from the simulation of C70 (`Spec/LawReweight`) |
| C74 | deterministic runs without reweighting, `K = R` | bound C25 on the score estimate, standard deviation from below by the distance of two particles, induction over the run |
| C75 | `Model/Kuramoto`: class BRIDGE_ND_reweight of the Kuramoto script, `K = R`, angles reduced by `x - 2 pi floor(x / 2 pi)` | constructor as chains of steps in a store longer than the grid; every step ends with the reduction |
| C76 | same | refinement to `Spec/Kuramoto`; barycentres of couplings |
| C77 | `kuraDrift`, `kuraDriftE`, `kuraWs`, `K = R` | trigonometric identities, mean-field form from the complex order parameter |
| C78 | `orderParam`, `kuraU`, whole script construction `kuraCfg`, `K = R` | `d^2 R^2` is the sum of the cosines of all differences; C76 |
| C79 | two constructions, `K = R` | only the first step reads index 0, and it reduces modulo 2 pi |
| C80 | `phaseLoop`, `K = R` and any `K` | loop as chain of steps, induction |
| C81 | `phaseU`, `phaseCovered`, `K = R` | estimator theorem of C13 with given lengthscales |
| C82 | `Model/Import`: import statements of all files of the package and the part of Python's import system they use | chains of modules each of which must import the next (`Doomed`), for every state of sys.modules; evaluation for the positive cases |
| C83 | `Model/LenScale`: numpy estimators with lists of `m` entries, any `K` and `K = R` | equality with the estimator on the first `m` columns; index arithmetic |
| C84 | `Model/LenScale`: `RBFAny`, `torchScoreList` with broadcasting, `K = R` | case analysis of the broadcast shapes, product of Gaussians in one dimension |
| C85 | `scoreSep`, `scoreSepFn`, `scoreAll`, `torchScore`, `K = R`; samples a sequence of pairwise independent random vectors, inducing points fixed | strong law of large numbers for the averaged kernel products, linear independence of Gaussian kernels, continuity of the matrix inverse, integration by parts |
| C86 | `Model/LimitCycle.lean` (`lcF`, `lcScore`, `refPath`, `lcBridge`, `lcTorch`, `lcExample`), `K = R` | the path as a chain of steps; C63, C64, C67 for constructor and closed loop; the squared radius as a one-dimensional contraction; derivatives of the density |
| C87 | `Model/Phenotype.lean` (`rejectBounds`, `rejectIdx`, `npDelete`, `rejectTrajectories`, `phenoConstruct`), `K = R` | deleting a decreasing list of indices = order embedding of the complement |
| C88 | `Model/Phenotype.lean` (`phenoForward`, `phenoBackward`, `phenoU`, `phenoCovered`), `K = R` | chains as for C63 and C77; step lemmas of the library flow reused |
| C89 | `Model/Phenotype.lean` (`phenoF`, `phenoJac`, `phenoDiv`, `phenoMeans`, `phenoLinVar`), `K = R` | derivatives in Mathlib, field arithmetic, induction over the Euler steps |
| C90 | `Model/Phenotype.lean` (`phenoLoop`, `gaussGrad`, `phenoRuns`, `phenoOuterGrid`), `K = R` | the loop as a chain of steps; C88 for the controls; ceilings for the sizes |
| C91 | `Model/Pice.lean` (`piceSim`, `piceCost`, `piceWeights`, `ufPice`), `K = R` | arrays as functions of the time index, induction over the steps and over the iterations; Gaussian densities of Mathlib |
| C92 | `Model/Pice.lean` (`piceFit`, `piceIter`, `piceAnneal`, `meanDiff`), `K = R` | normal equations from the Penrose equations; potential argument for the counters |
| C93 | `Model/Pice.lean` (`piceLoop`, `piceRun`, `piceEval`), `K = R` | induction over the iterations left; the final simulation as the recursion of C91 |
| C94 | `Model/Gaussian.lean` (`gaussDrift`, `gaussVar`, `gaussScoreM`), `K = R` | matrix algebra; derivatives of quadratic forms; positive definiteness of `C + 1e-6 I` |
| C95 | `Model/Gaussian.lean` (`gaussCtl`, `gaussStep`, `gaussRun`), `K = R` | arrays as functions of the time index, induction over the steps; controls are affine |
| C96 | `Model/Effects.lean` (constructors with callables as state-changing programs on views), any number type | calls are observed with a monitor that is polymorphic in its own state (`watch`, `MakesCalls`); compositional calculus over the loops; refinement to the pure model |
| C97 | `Model/Effects.lean`, any number type | loop invariants that relate the clouds before and after each call to the stored slices |
| C98 | `Model/Attr.lean` (constructor, queries, kernel and estimator run on tensor attributes: device, 0-dimensional, precision, gradient tracking) | case analysis of every operation; loop invariants over the grid for any number of grid points |
| C99 | `Model/Attr.lean` | as C98; the gradient flag of each flow is computed as a function of the number of grid points |
| C100 | `Model/Potential.lean` (drifts, potential and path constraint of the conservative examples), `K = R` | derivatives in Mathlib; factorised change of the potential in one step; monotone bounded sequences; C70 for the mirror image |
| C101 | `Model/Measures.lean` (columns of the tables the figures are drawn from), `K = R` and reals with infinities and NaN | sums over the counted times; Cauchy-Schwarz; case analysis of special values |
| C102 | `Model/Effects.lean`, any number type | the call schedules of C96 with a monitor that checks the signature of each call |
| C103 | `Model/Onset.lean`, ℝ (and ℝ with special values for NaN) | invariant of the scan over the record: beginnings, ends and complete episodes of a prefix |
| C104 | whole constructors with an arbitrary solver, any `K` (`K = R` for the problems asked) | relation "same result or error in E" closed under bind and loops; softmax is a positive probability vector, Euclidean distance is a metric |
| C105 | `Verif.Model.Flags`: constructors, controls and estimators with switches from the four classes of Python objects (equal to True, equal to False, other true, other false), any `K` | case analysis on the switches; all phases keep the number of slices; reduction to the models with Boolean switches |
| C106 | `Verif.Model.States`: constructors with `y1`, `y2` as arrays with one or two axes in any container; broadcasting of `y[di]` along the particle axis | reduction to the model with vectors for prescribed constant rows; slice invariants of all loops; totality of the real backward loop from any cloud |
| C107 | `Verif.Model.FShape`: the loop bodies of both classes with drift and constraint values as arrays of any shape, evaluated by broadcasting | each line with values that broadcast equals the line of `Verif.Model.Shape` for the broadcast values; first step of bad shape raises |
| C108 | `Verif.Model.Loop` with the generator that reads two tapes (`Verif.Spec.Law`); laws from Mathlib's infinite product of Gaussians | the run read off the tape by induction; controls are measurable functions of the state (explicit formulas of C35-C39); independence of disjoint tape positions |
| C109 | reweighting steps of `Verif.Model.DPFC`, `Verif.Model.TorchDPFC` over `Verif.Inst.XR` | exp(-inf) = 0, rows of a coupling with zero marginal vanish, convex combinations of the allowed particles; for the gap, masses that are all 0 or 1 add up to a whole number |
| C110 | `Verif.Model.Binding`: Python's binding of positional arguments, keywords and defaults, and the signatures of the library and of the example scripts | induction over the keywords and over the parameters; the specification `WellFormed`, `Gets` does not mention the algorithm |
| C111 | R; `Verif.Spec.Rotate` | orthogonal invariance of the kernel, linearity of the solved system in its right hand side; the converse from one sample and one inducing point by letting the sample tend to the inducing point |
| C112 | R; `Verif.Spec.Stein` | the normal equations of the solved system as a bilinear form; comparison of two minimisers |
| C113 | R; `Verif.Spec.Far`; control queries of both classes | the inducing points lie between the extreme particles (C16); coefficient bound (C25) times the decay of the kernel; the edge control is affine in the query point |

No property is considered inexpressible; what the model cannot exhibit is
rounding, so C01, C16-C26, C32-C34, C36, C39, C40, C42-C45, C51, C52, C55, C58, C59
are (in whole or in part) statements about exact arithmetic. C37, C48, C56, C57, C60
hold for every arithmetic with the special-value rules of `Spec.Ieee`, which includes
binary64 (C37 and C48 additionally assume that averaging `N` copies of one end point
returns it without rounding error, `Spec.ExactMean`). For the others the table names the layer: `R` is exact
arithmetic, `G` every interpretation of the operations.

## 4. Assumptions, simplifications, findings

### 4.1 Assumptions about the environment

* User callables return arrays of the documented shape. Outside C96 and C97 they are plain functions; a callable that
  cannot be called with the number of arguments used is part of the model (C11). In C96 and C97 they may raise, keep
  state and write into the array they are handed; they may not keep a view for later or reach other slices through
  `view.base`. C96 shows that for plain functions both models agree.
* `np.random.uniform` / `Uniform` as of the legacy NumPy API: `hi < lo` is not an error,
  a non-finite range raises OverflowError; `torch.distributions.Uniform` raises ValueError
  unless `lo < hi`.
* Random streams are arbitrary state machines; nothing is assumed about distributions, except in C71-C73, where
  the generator reads its normals and uniforms off two tapes (`tapeEnv`) and the tapes are distributed as independent
  standard normals (`gaussTape`) and independent uniforms on [0,1] (`unifTape`): the ideal generator; and in C85, where
  the samples handed to the score estimator are pairwise independent random vectors with one law.
  `uniform` draws are assumed to lie in `[0,1]` where that is needed (C16), as an explicit
  hypothesis.
* Transport solvers (`pyemd`, `ot`) are arbitrary functions; theorems that need it assume
  explicitly that plans are couplings (C33, C45), optimal (C34) or invariant under a change
  of unit of the costs (C55).
* Over the reals division by zero gives 0 as everywhere in Mathlib. Theorems at layer R that
  would be affected carry hypotheses (`Spread`, non-zero lengthscales, `Apart`); the special
  cases excluded are the subject of C37, C45, C48, C60. C63 has no such hypothesis (nor have the control
  statements of C16, C25, C39, C40, where the score of a cloud without spread is 0 and not NaN): its table is that of
  exact arithmetic with 0/0 = 0. C65 says when a deterministic run with NaN and infinities is the
  exact run, and which exception is raised otherwise. (In the torch class a cloud without spread raises
  ValueError before any division, C64.)
* `linalg.inv` raises LinAlgError exactly for singular matrices (layer R), or does anything
  (layer G and special-value statements).
* The parallel `my_cdist` is modelled at the level of micro-steps (one addition to the private
  sum or one store); a store is atomic and `fastmath` re-association is not modelled.

### 4.2 Simplifications of the model

* Arrays have the documented number of axes; particles are `d x N`, points `n x d`. `y1`, `y2` are vectors
  with `dim` entries, other shapes and containers being treated in `Model/States.lean`. `g` is a scalar in `Model/DPFC.lean`, `Model/TorchDPFC.lean`, an arbitrary
  array in `Model/Shape.lean`.
* In `Model/Shape.lean` the torch true-drift flow of deterministic Brownian-bridge mode (which never
  constructs for ordinary shapes, C47) is evaluated with the broadcast coefficient.
* Printing, logging, timing and the plots for non-finite bounds are left out.
* `Model/Attr.lean` (C98, C99) runs the torch code on attributes of tensors only: documented shapes, no values, hence no
  errors due to shapes or values; `backward()` is not modelled.
* Boolean arrays without entries are left out of the coverage model.
* Not modelled: the messages of `utils/utils_pytorch.py:set_device`, `reject_trajectories` (it is inside a
  string literal), plotting and file handling of scripts and notebooks.

### 4.3 What the proofs brought to light

These are behaviours of the code that a user would not expect from its documentation. Each is a
theorem.

* The torch class draws some of its noise on the CPU in single precision whatever `device` is: stochastic runs and
  Brownian-bridge reweighting cannot work on a GPU (C98). Flows and controls carry gradient history through the
  lengthscales of the kernel although nothing is ever differentiated, so they cannot be plotted without detaching (C99).
* The analysis of synchronisation counts records that are synchronised from the first to the last time as not
  synchronised, reports durations in steps or in time units depending on the record, and in the version for two
  oscillators pairs beginnings with the wrong ends (C103).
* The control reported in the planar figures is not the squared norm written on the axis: it exceeds it by up to the
  number of steps, does not count the control of the last step, and reports runs lost in NaN as runs without control
  (C101).
* The package cannot be imported at this commit (C82). All other properties are about the modules themselves, that is,
  about the package after the one-line repair of `score_function_estimators_pytorch.py:12`.
* Weights are `exp(+U dt)`: particles with large `U` are favoured (C32).
* The Brownian-bridge pin of the forward flow is overwritten for two or more grid points (C07);
  the backward flow never looks at the forward slices 0 and 1 (C13).
* The stochastic numpy sampler initialises coordinates 0 and 1 only (C06), passes one argument to
  `f` and `U` (C11), and its backward flow is NaN throughout (C48).
* `calculate_u` is NaN at time index 0 and not finite at the last index (C37); negative indices always
  use the Gaussian formula (C35); in Brownian-bridge mode the reference score is evaluated at clipped
  points (C40); `grid_x` is `n x dim`, not `dim x n` as documented (C38).
* The torch estimator ignores `C` (C27); `RBF.gradient_X` returns the negative gradient and uses
  a cached kernel matrix (C20, C28); the torch class cannot handle `dim = 1` (C46), needs spread (C45), and in
  deterministic Brownian-bridge mode constructs only for special shapes (C47).
* `check_if_covered` does not accept its documented arguments (C54) and means different things in
  the two classes (C42, C43).
* A `dim x dim` diffusion matrix as in the README is rejected, or silently applied entry by
  entry (C53).
* The periodic kernel is negated for vector lengthscales, which makes it singular for harmless input, its
  gradient is NaN at coinciding coordinates, and its function output disagrees with its array output
  (C31, C58-C60).
* The Kuramoto script's own class has an unwrapped Gaussian initial cloud of variance `g/2`, weights `exp(U)`
  without `dt`, a backward flow that uses the forward slice before the current time, and no special branch of
  `calculate_u` at the ends; the control is exactly zero at the last index. Transport averages the
  representatives of angles in `[0, 2 pi)`, so two particles on both sides of phase 0 are moved to the opposite
  side of the circle (C76). The last column of the simulated path is NaN and the order parameter recorded at the
  first and last index is 0, since the branch meant for the last index is never reached (C80).
* Lengthscale lists that are too short are accepted and silently drop coordinates (C83); `RBF(array)` without
  `multil=True` uses one lengthscale per point instead of per coordinate (C84).
* `my_cdist(..., 'l1')` is the Euclidean distance (C29). `score_function_multid_seperate2` uses
  dimensions 0 and 1 only (C19).

### 4.4 Testing the theorems

`seeded/LOG.jsonl` lists edits of the model that imitate realistic bugs, with the theorems that
no longer prove. The edits are applied in a scratch copy; every affected module is recompiled even
if a module it imports has errors, and a theorem counts as failed if its proof, or a lemma
its proof uses, no longer checks.

## 5. Theorems per property

<!-- generated by tools/gen_design.py -->

### C01 Time grid covers the horizon

* `C01_grid_points` (Grid.lean). (content of the grid). The `timegrid` of every constructed object, numpy or torch, consists of exactly the points `t1 + i*dt` strictly below `t2 + dt/2`, point `i` at index `i`.
* `C01_grid_shape` (Grid.lean). (shape of the grid). Such a grid is strictly increasing with spacing `dt`; if it is not empty it starts at `t1` and its last point is within `dt/2` of `t2`; if `t2 - t1` is `n*dt` it has `n+1` points and ends at `t2`.

### C02 Degenerate horizons

* `C02_empty_horizon_raises` (Grid.lean). (numpy, empty grid). If `t2 + dt/2 <= t1`, constructing `DPFC` raises IndexError, for every other argument, in every mode.
* `C02_torch_empty_horizon_raises` (Grid.lean). (torch, empty grid). The torch class raises too: RuntimeError from `arange` if the upper bound is below the lower one, IndexError if they coincide.
* `C02_empty_grid_raises` (Grid.lean). (empty grid, any arithmetic). Whatever the arithmetic: if the computed grid of the numpy class is empty, construction raises IndexError; if the torch `arange` refuses the bounds, its RuntimeError is the outcome of the construction, and if it returns no point, construction raises IndexError.
* `C02_single_point_ignores_target` (Grid.lean). (single point). If the grid of a constructed object has a single point, its backward flow is the single slice `y1`, whatever `y2` is. (Any arithmetic, numpy and torch.)
* `C02_single_point_constructs` (Grid.lean). (single point, existence). With `t1 - dt/2 < t2 <= t1 + dt/2` the deterministic numpy class does return an object with a single grid point.

### C03 Backward flow starts at the initial state

* `C03_backward_flow_starts_at_y1` (Pins.lean). At time index 0 every particle of the backward flow sits at `y1`.

### C04 Backward flow ends at the target

* `C04_backward_flow_ends_at_y2` (Pins.lean). With at least two grid points, at the last time index every particle of the backward flow sits at `y2`.

### C05 Deterministic forward flows start at the initial state

* `C05_forward_flows_start_at_y1` (Pins.lean). Deterministic mode: every particle of `Z` starts at `y1` if the grid has at least two points or `brown_bridge` is off; every particle of `Ztr`, if it exists, starts at `y1`.
* `C05_single_point_brownian_bridge` (Pins.lean). (the excluded case). With a single grid point and `brown_bridge` the forward flow starts at `y2` instead.

### C06 Stochastic forward flow start and terminal state

* `C06_stochastic_start` (Pins.lean). (numpy, start). With `deterministic=False` and at least two grid points the forward flow starts at `y1` in coordinates 0 and 1 and at `0` in all further coordinates.
* `C06_initial_state_honoured_iff` (Pins.lean). (consequence, exact arithmetic). The documented initial state `y1` is honoured iff all coordinates of `y1` from the third on are zero.
* `C06_stochastic_one_dim_raises` (Pins.lean). (one-dimensional systems). With `deterministic=False`, a grid with at least one point and `dim <= 1`, numpy construction raises IndexError and so does torch.
* `C06_stochastic_end` (Pins.lean). (numpy, end). With at least two grid points the stochastic forward flow ends exactly at `y2`.
* `C06_torch_forward_ignores_target` (Pins.lean). (torch, end). The stochastic forward flow of the torch class does not depend on `y2` at all: there is no terminal pin.

### C07 Brownian-bridge terminal pin is overwritten

* `C07_forward_sampler_ignores_bridge` (Pins.lean). (as computations). With at least two grid points the deterministic forward sampler gives the same slices, the same exceptions and the same final random state for every value of `brown_bridge` and `y2`; numpy and torch, any initial storage of the right size.
* `C07_forward_flow_ignores_bridge` (Pins.lean). (constructed objects). Two deterministic objects constructed from the same random state that differ only in `brown_bridge` and `y2` have the same forward flow.

### C08 Storage shape

* `C08_storage_sizes` (Pins.lean). (sizes). After construction `Z`, `B` and `Ztr` have exactly `timegrid.size` slices.
* `C08_every_slice_written` (Pins.lean). (every slice is written). The result of the backward simulation does not depend on what the storage contained before: two runs on different initial storage of the right size give the same slices, exceptions and random state. The same holds for the deterministic forward samplers.

### C09 Deterministic forward recurrence

* `C09_forward_recurrence` (Recurrence.lean). (numpy). In deterministic mode the forward flow satisfies the forward recurrence, starting from the given random state.
* `C09_torch_forward_recurrence` (Recurrence.lean). (torch).

### C10 Backward recurrence

* `C10_full_run` (Recurrence.lean). (the whole deterministic numpy run). A successful construction runs the forward recurrence from the given random state, then (only with reweighting and Brownian bridge) the true-drift recurrence, then the backward recurrence, each continuing the random stream where the previous one stopped.
* `C10_backward_recurrence` (Recurrence.lean). (numpy, both modes). The backward flow satisfies the backward recurrence, ending in the final random state of the construction.
* `C10_torch_full_run` (Recurrence.lean). (torch, deterministic).

### C11 Stochastic forward recurrence

* `C11_stochastic_recurrence` (Recurrence.lean). (numpy). With `deterministic=False` the forward flow satisfies the stochastic recurrence up to the slice before the last one, starting from the given random state; the backward recurrence continues the random stream after all `k-1` forward steps.
* `C11_drift_needs_time_raises` (Recurrence.lean). (TypeError for drifts). If the drift cannot be called without a time argument, stochastic numpy construction raises TypeError (any arithmetic, `dim >= 2`, at least one particle, at least two grid points).
* `C11_constraint_needs_time_raises` (Recurrence.lean). (TypeError for constraints). If reweighting is on and the constraint is missing or cannot be called with one argument, stochastic numpy construction raises TypeError.
* `C11_torch_stochastic_recurrence` (Recurrence.lean). (torch). In stochastic mode the torch class calls the drift with time, the whole cloud moves at once, and all slices including the last one are simulated; the backward flow uses the noisy form throughout.

### C12 True-drift flow is never reweighted

* `C12_true_flow_ignores_constraint` (Recurrence.lean). (no influence of the constraint). The true-drift sampler gives the same slices, exceptions and final random state for every `U`, `f`, `reweight`, `brown_bridge` and `y2`: the constraint can act on `Ztr` only through the random state in which the sampler is started. Numpy and torch, any arithmetic.
* `C12_true_flow_recurrence` (Recurrence.lean). (recurrence). In deterministic Brownian-bridge reweighting mode `Ztr` follows the true drift with the recurrence of C09 without any transport step, on the random stream left by the forward flow.
* `C12_torch_true_flow` (TorchTrue.lean). (torch). In deterministic Brownian-bridge reweighting mode the additional flow follows the true drift, starting where the forward flow left the random stream, and without reweighting; but the score that is subtracted has coordinates and particles exchanged (`SwappedScore`).

### C13 Backward flow only looks at later forward slices

* `C13_backward_ignores_first_slices` (Depend.lean). (whole flow). Two forward flows that agree on the slices `2, 3, ...` give the same backward simulation: same result, same exceptions, same random draws. Numpy and torch.
* `C13_backward_slice_needs_only_later` (Depend.lean). (slice by slice, numpy). If the forward flows agree after time index `j`, the backward flows agree from time index `j` on.
* `C13_torch_backward_slice_needs_only_later` (Depend.lean). (slice by slice, torch).

### C14 Horizon prefix stability

* `C14_horizon_prefix` (Depend.lean). (numpy, deterministic). Two constructions with the same random state that differ only in `t2` and `y2` have the same forward slices at their common time indices. (With `brown_bridge` a grid of a single point is excluded, see C05.)
* `C14_torch_horizon_prefix` (Depend.lean). (torch, deterministic).
* `C14_stochastic_horizon_prefix` (Depend.lean). (numpy, stochastic). The same for `deterministic=False`, except that the last slice of either flow is excluded (it is overwritten with `y2`).
* `C14_torch_stochastic_horizon_prefix` (Depend.lean). (torch, stochastic). In the torch class the last slice is not overwritten: all slices at common time indices agree.

### C15 Random draw budget

* `C15_draw_budget` (Draws.lean). (numpy, deterministic, no Brownian-bridge reweighting). A successful construction with `k >= 3` grid points draws exactly `2*dim*N` normals and `dim*M*(3k-7)` uniforms.
* `C15_draw_budget_bridge` (Draws.lean). (numpy, deterministic, Brownian-bridge reweighting): `3*dim*N` normals and `dim*M*(4k-9)` uniforms.
* `C15_draw_budget_stochastic` (Draws.lean). (numpy, stochastic): `dim*N*(2k-3)` normals and `dim*M*(k-2)` uniforms.
* `C15_torch_draw_budget` (Draws.lean). (torch, deterministic, no Brownian-bridge reweighting): the same budget as numpy.
* `C15_torch_draw_budget_bridge` (Draws.lean). (torch, deterministic, Brownian-bridge reweighting): the same budget as numpy.
* `C15_torch_draw_budget_stochastic` (Draws.lean). (torch, stochastic): the same budget as numpy.
* `C15_control_draws` (Draws.lean). (control queries). A successful `calculate_u` draws nothing for `ti <= 5` or `ti >= k-5` (the random state is even unchanged) and otherwise exactly `dim*M` uniforms; numpy.
* `C15_torch_control_draws` (Draws.lean). (control queries, torch).

### C16 Inducing points stay between the extreme particles

* `C16_forward` (Inducing.lean). (forward). In every probability-flow step of the forward sampler the inducing points lie in the bounding box of the particles.
* `C16_backward` (Inducing.lean). (backward). In every backward step the inducing points of both score estimates lie between `max(min z, min b)` and `min(max z, max b)` in each coordinate.
* `C16_between_bounds` (Inducing.lean). (what "between" means for two clouds). If some point is covered by both clouds in coordinate `a`, the values between the bounds are covered by both clouds; otherwise they lie in the gap between the clouds.
* `C16_first_backward_step` (Inducing.lean). (first backward step). The first backward step estimates the forward score with all inducing points equal to the target in every coordinate in which the forward particles enclose the target.
* `C16_control` (Inducing.lean). (queries). The inducing points of `calculate_u` at interior indices lie between the same bounds.
* `C16_control_bridge` (Inducing.lean). (queries, Brownian-bridge mode). The inducing points lie between the bounds of the backward and the reference particles (the true-drift flow).
* `C16_true_flow` (Inducing.lean). (true-drift flow). In every probability-flow step of the true-drift sampler the inducing points lie in the bounding box of its particles.
* `C16_torch_forward` (Inducing.lean). (torch, forward). In every probability-flow step of the forward sampler of the torch class the inducing points lie in the bounding box of the particles.
* `C16_torch_backward` (Inducing.lean). (torch, backward). In both modes the inducing points lie in the hull of both clouds.
* `C16_torch_control` (Inducing.lean). (torch, queries). The inducing points of the torch `calculate_u` at interior indices lie in the hull of the backward and the reference particles, in all modes.

### C17 Score estimation never hits a singular matrix

* `C17_estimators_total` (Score.lean). With the RBF kernel, non-zero lengthscales and `C > -1e-3`, every estimator returns a value, for every sample set and every inducing set (in particular no LinAlgError).
* `C17_torch_total` (Score.lean). torch estimator: for a Python float or a vector (`d ≥ 2`) lengthscale the array output never fails, whatever `C` and the kernel name; the function output never fails for a vector lengthscale tensor.
* `C17_bound_sharp` (Score.lean). The bound on `C` in C17 cannot be weakened: at `C = -1e-3`, whenever there are fewer samples than inducing points, the estimator raises LinAlgError.

### C18 Function output agrees with direct output

* `C18_function_output_at_samples` (Score.lean). The function output evaluated at the samples equals the array output.
* `C18_torch_function_output_at_samples` (Score.lean). torch, vector lengthscales.

### C19 All estimator implementations agree

* `C19_numpy_estimators_agree` (Score.lean). All numpy implementations return, for coordinate `j`, the values of the same function (namely of `Spec.score`), at the samples and as functions.
* `C19_torch_agrees` (Score.lean). The torch estimator agrees with the numpy one at `C = 0.001` (array output for scalar and vector lengthscales, function output for vector lengthscales).
* `C19_score2_agrees_dim2` (Score.lean). `score_function_multid_seperate2` agrees with the others as a function for two dimensional data.
* `C19_score2_disagrees` (Score.lean). In three or more dimensions the two can disagree: there is input on which both return values, and the values differ.

### C20 Kernel gradient used by the estimators is the true derivative

* `C20_summed_gradient_is_true_derivative` (Score.lean). The gradient term of the numpy estimators is, per inducing point, the sum over the samples of the true partial derivative of the kernel in its first argument (`pderiv` is Mathlib's derivative, and the kernel is differentiable).
* `C20_gradient_X_is_negative_derivative` (Score.lean). `RBF.gradient_X(X, Y)` called right after `RBF.Kernel(X, Y)` returns, entry by entry, the *negative* of the partial derivative of the kernel in its first argument.

### C21 Score estimate is the regularised score-matching minimiser

* `C21_torch_minimiser` (Rotate.lean). torch: the values and the function returned by the torch estimator are, in each coordinate, those of the unique minimiser of the same objective with `C = 0.001` (the argument `C` is ignored, C27).
* `C21_score_is_minimiser` (Score.lean). The function returned by the estimator is `x ↦ sum_m b_m k(x, z_m)`, and the direct output its values at the samples, with the `b` that is the unique minimiser of the objective over all coefficient vectors.

### C22 Score translation equivariance

* `C22_torch_translation` (Rotate.lean). torch.
* `C22_translation` (Score.lean). Shifting samples, inducing points and evaluation points by `v` does not change the estimates.

### C23 Score scaling and reflection

* `C23_torch_scaling` (Rotate.lean). torch: scaling, also with a negative factor.
* `C23_scaling` (Score.lean). Scaling samples, inducing points, evaluation points and lengthscales by `s ≠ 0` divides the estimates by `s`.
* `C23_reflection` (Score.lean). reflection: with all points reflected (the lengthscales unchanged) the estimates change sign.

### C24 Score permutation laws

* `C24_torch_permutation` (Rotate.lean). torch.
* `C24_permutation` (Score.lean). Relabelling the samples by `σ` permutes the values at the samples and leaves the returned function unchanged; relabelling the inducing points by `τ` changes nothing.

### C25 Score estimates are bounded

* `C25_control_bounded` (ControlBound.lean). (interior control, numpy). Whatever is queried at an interior index, each component of the control is bounded by a constant that depends only on the spread of the stored clouds and the numbers of particles and inducing points.
* `C25_bridge_control_bounded` (ControlBound.lean). (interior control, numpy, reweighted Brownian-bridge mode).
* `C25_torch_control_bounded` (ControlBound.lean). (interior control, torch, all modes).
* `C25_score_bounded` (Score.lean). The estimated score function is bounded on the whole space, by `M * (sum_m |g_m|) / ((C+1e-3) 1e-3)` with `g_m` the summed kernel derivatives, and also by the explicit constant `M^2 N / (|l_j| (C+1e-3) 1e-3)`.

### C26 RBF kernel matrix laws

* `C26_kernel_matrix_laws` (Score.lean). The kernel matrix of the numpy estimators has entries in `(0, 1]`, equal to `1` exactly on coinciding points; it is symmetric and positive semidefinite for equal arguments.
* `C26_torch_kernel` (Score.lean). torch: `RBF.Kernel` returns the same matrix as the numpy kernel function times the signal variance (1 for a new object).
* `C26_scalar_is_constant_vector` (Score.lean). A scalar lengthscale gives the same kernel matrix as the constant vector.

### C27 Torch estimator ignores its C argument

* `C27_C_ignored` (Estimators.lean). The torch estimator returns the same result (or the same exception) for every value of `C`, for both output forms and whatever the arithmetic.
* `C27_value` (Estimators.lean). (value). For every `C` the result is the specified estimate with `C = 0.001`.
* `C27_numpy_depends_on_C` (Estimators.lean). (contrast). The numpy estimator does depend on `C`: with one sample and one inducing point at different places, different `C` always give different estimates.

### C28 RBF.gradient_X uses the cached kernel

* `C28_fresh` (Estimators.lean). (matching call). After any history of calls on a fresh `RBF` object whose last `Kernel` call was on `(X, Y)`, `gradient_X(X, Y)` returns minus the partial derivatives of the Gaussian kernel in its first argument.
* `C28_stale` (Estimators.lean). (stale cache). If the last `Kernel` call was on other points `(X0, Y0)` of the same shapes, `gradient_X(X, Y)` silently combines the differences of `(X, Y)` with the kernel values of `(X0, Y0)`; wherever these kernel values differ and the coordinates differ, the result is not the (negative) gradient.
* `C28_raises` (Estimators.lean). (errors). Without any `Kernel` call before, or without `Y`, `gradient_X` raises; also if the last `Kernel` call had incompatible shapes (axis sizes different and none of them 1), or if `Y` has another number of columns than `X` and none of them is 1.
* `C28_broadcast` (Estimators.lean). (broadcasting). In all other cases `gradient_X(X, Y)` returns: an axis of size 1 is stretched to the size of its partner. Every entry combines the differences of the given points with the kernel value of the points of the last `Kernel` call.

### C29 Pairwise distance routine and parallel schedule

* `C29_all_schedules` (Estimators.lean). `my_cdist` with parallel tasks interleaved at the granularity of single additions and stores, in any order: once every task `(i, j)` has been scheduled often enough (`d + 1` micro-steps, or more), `output[i, j]` is the squared Euclidean distance for `'sqeuclidean'` and the Euclidean distance for `'euclidean'` and for `'l1'`.
* `C29_no_torn_cells` (Estimators.lean). (partial execution). After any prefix of the execution every cell holds either its old content or its final value; the cells of tasks that were scheduled at most `d` times are untouched.
* `C29_unknown_option` (Estimators.lean). (unknown option). Any other option leaves the output as it was, for every arithmetic.
* `C29_any_order` (Estimators.lean). (iterations as atomic actions). In whatever order, and however often, the iterations of the two parallel loops are executed, once each pair has been executed the array holds the distances.

### C30 which_dim selects the coordinate

* `C30_selects` (Estimators.lean). (selection and aliasing). For the RBF kernel and every coordinate `j`: `which_dim = j+1` and `which_dim = j+1-dim` both return the estimate of coordinate `j`, for the array and the function output.
* `C30_out_of_range` (Estimators.lean). (out of range). All other integers raise IndexError, in all three numpy implementations that take `which_dim`.
* `C30_out_of_range_any` (Estimators.lean). (any arithmetic, any kernel name). Out-of-range integers never return a value.

### C31 Kernel name handling

* `C31_periodic_is_RBF` (Estimators.lean). ('periodic' is 'RBF'). Both classes build the same flows (or raise the same exception, with the same random draws) for `kern='periodic'` and `kern='RBF'`, and the control queries agree as well.
* `C31_unknown_kernel_raises` (Estimators.lean). (unknown names). With any other kernel name and at least three grid points neither class ever constructs an object, in any mode, for any random stream and any arithmetic.
* `C31_periodic_other` (Estimators.lean). (other implementations). `score_function_multid_seperate_all_dims` never returns for 'periodic', `score_function_multid_seperate_old` (and the version of score.py) raises NameError.
* `C31_periodic_sign` (Estimators.lean). (sign of the periodic kernel). With a vector lengthscale every entry of the periodic kernel matrix is negative, so the Gram matrix of any non-empty point set is not positive semidefinite; with a scalar lengthscale every entry is positive.
* `C31_unknown_kernel_estimators` (Estimators.lean). (estimators). Every numpy estimator raises NameError for an unknown kernel name, in both output forms, whatever the data; the torch estimator's direct output does not look at the name.
* `C31_torch_estimator_outcomes` (Estimators.lean). (torch estimator). What the torch estimator does with each form of its arguments. A 0-dimensional tensor as lengthscale raises IndexError in both outputs. For every other form the direct output exists. The returned function raises NameError for every kernel name other than `'RBF'` (also for `'periodic'`), TypeError for a numpy lengthscale vector, UnboundLocalError (a NameError) for a scalar lengthscale and a tensor argument, RuntimeError if the argument has a number of columns other than `d` and 1.

### C32 Reweighting weights

* `C32_weights` (Reweight.lean). (deterministic numpy mode). The solver is called with weights `W` that are strictly positive, sum to one, have ratios `exp((U_n - U_m) dt)` and are strictly increasing in `U`; the target is uniform.
* `C32_shift_invariant` (Reweight.lean). (constants). Adding a constant to the constraint changes nothing, numpy and torch.
* `C32_stochastic_weights` (Reweight.lean). (stochastic mode). There the weights are proportional to `exp(U)`, without `dt`.
* `C32_torch_weights` (Reweight.lean). (torch). The torch class calls its solver with the same weights `W` and the uniform target; the cost is the squared distance divided by its largest value.

### C33 Transport reweighting preserves the weighted mean and the hull

* `C33_deterministic` (Reweight.lean). (numpy, deterministic). If the solver returns couplings, the plain mean of the reweighted particles is the weighted mean of the particles before, the weights being the normalised `exp(U dt)`, and every convex set containing the particles before contains the particles after.
* `C33_stochastic` (Reweight.lean). (numpy, stochastic). The same with weights `exp(U)`.
* `C33_torch` (Reweight.lean). (torch). The same for the torch class, if not all particles coincide (otherwise its cost is `0/0`).

### C34 Constant path constraint is a no-op

* `C34_constant_constraint` (Reweight.lean). (numpy). If the constraint has the same value at all particles and the solver is optimal, reweighting returns every particle unchanged.
* `C34_constant_stochastic` (Reweight.lean). (numpy, stochastic mode). The same for the one-argument constraint.
* `C34_constant_torch` (Reweight.lean). (torch). The same for the torch class and its squared-distance cost, if not all particles coincide.
* `C34_whole_run` (Reweight.lean). (whole run). Deterministic numpy mode without Brownian bridge: with a constraint that never distinguishes particles and an optimal solver, `reweight=True` produces exactly the flows of `reweight=False`, with the same random draws.
* `C34_same_outcome` (ReweightRun.lean). (whole run, numpy, both modes). Without Brownian bridge, at least two grid points, an optimal solver and a constraint that never distinguishes particles: `reweight=True` has exactly the outcome of `reweight=False` - the same flows and random state, or the same exception. (In stochastic mode the constraint is called without time.)
* `C34_torch_whole_run` (ReweightRun.lean). (whole run, torch, deterministic). Without Brownian bridge, at least three grid points, an optimal solver and a constraint that never distinguishes particles: every object returned with `reweight=True` has the flows and random state of the run with `reweight=False`. (Its clouds have spread by C45, so that no cost is `0/0`.)

### C35 Control region dispatch

* `C35_dispatch` (Control.lean). (dispatch). The Gaussian formula is used exactly for `ti <= 5` or `ti >= k-5`, kernel scores with freshly drawn inducing points otherwise.
* `C35_edge_indices` (Control.lean). (short horizons). With at most 11 grid points every index is an edge index, with 12 or more points index 6 is not; negative indices always are. Hence for `k <= 11` and for negative indices no random numbers are drawn and the Gaussian formula applies.
* `C35_negative_index_differs` (Control.lean). (negative indices). For an interior index `ti`, `calculate_u(x, ti)` and `calculate_u(x, ti-k)` refer to the same slices, but if the particles of the two flows have different mean or variance in some coordinate, there are query points at which the two results differ, whatever the random state.
* `C35_torch_dispatch` (TorchControl.lean). (torch dispatch). As in the numpy class the Gaussian formula is used exactly for `ti <= 5` or `ti >= k-5`, kernel scores with freshly drawn inducing points otherwise.

### C36 Edge control is the difference of Gaussian scores

* `C36_edge_control` (Control.lean). At the edge time indices the control is, per coordinate, the derivative of the log of the normal density fitted to the backward particles minus that of the one fitted to the reference particles (forward flow; true-drift flow in reweighted Brownian-bridge mode). No random numbers are drawn.
* `C36_edge_control_formula` (Control.lean). in closed form: mean and variance of the particles.
* `C36_torch_edge_control` (TorchControl.lean). (torch). At the edge time indices the control is, per coordinate, the derivative of the log of the normal density with the mean and sample standard deviation of the backward particles minus that for the reference particles. No random numbers are drawn.

### C37 Control is undefined at the two end times

* `C37_control_at_start_is_nan` (Special.lean). (start). In deterministic mode with at least two grid points, `calculate_u` at time index 0 (also written `-timegrid.size`) returns NaN in every coordinate at every query point, without raising, numpy and torch.
* `C37_control_at_end_is_not_finite` (Special.lean). (end). With at least two grid points, `calculate_u` at the last time index (also written `-1`) returns no finite number at all, without raising, numpy and torch, in every mode.

### C38 Layout of grid_x

* `C38_edge_layout` (Control.lean). (Gaussian branch). `n` points with `c` columns: fewer than `dim` columns raise IndexError; otherwise the result is `c x n`, its rows beyond `dim` are zero and the others do not depend on the extra columns.
* `C38_interior_layout` (Control.lean). (kernel branch, outside Brownian-bridge mode). A column count other than `dim` raises: TypeError for no column, IndexError otherwise.
* `C38_torch_edge_layout` (TorchControl.lean). (torch, Gaussian branch). `n` points with `c` columns: fewer than `dim` columns raise IndexError; otherwise the result is `c x n`, its rows beyond `dim` are zero and the others do not depend on the extra columns.
* `C38_torch_interior_layout` (TorchControl.lean). (torch, kernel branch). A single column is silently repeated over all coordinates; a column count other than 1 and `dim` raises RuntimeError. In one dimension every interior query raises NameError (the tensor lengthscale is then treated as a scalar, for which the function lacks a definition).

### C39 Interior control is a difference of scores

* `C39_interior_control` (Control.lean). At interior time indices, outside reweighted Brownian-bridge mode, the control is the score estimate of the backward particles minus that of the forward particles, with the same inducing points, both evaluated at the given points. `M*d` uniforms are drawn.
* `C39_zero_if_equal` (Control.lean). (coinciding flows). Where backward and reference particles coincide the control is zero, in both branches.
* `C39_torch_interior_control` (TorchControl.lean). (torch). At interior time indices the control is the score estimate of the backward particles minus that of the reference particles, with the same inducing points, uniform in the box spanned by both clouds, both evaluated at the given points; `M*d` uniforms are drawn.
* `C39_torch_no_spread_raises` (TorchControl.lean). (torch, no spread). If in some coordinate all particles of both clouds coincide, an interior query raises ValueError (the uniform distribution on an empty range is rejected).
* `C39_torch_zero_if_equal` (TorchControl.lean). (torch, coinciding flows). Where backward and reference particles coincide the control is zero, in both branches and all modes.

### C40 Brownian-bridge interior control evaluates at clipped points

* `C40_bridge_control` (Bridge.lean). In reweighted Brownian-bridge mode with two coordinates, at interior indices, the backward score is evaluated at the given points but the reference score of component `a` at the clipped points `bridgePoint z a`.
* `C40_clipped_nonpos` (Bridge.lean). (bounds). The points used for the first component have no positive coordinate.
* `C40_same_reference_score` (Bridge.lean). (consequence). At all query points with non-negative coordinates the first control component is the backward score minus one and the same number, the reference score at the origin.
* `C40_other_dims_raise` (Bridge.lean). (other dimensions). In reweighted Brownian-bridge mode the kernel branch raises for every dimension other than two, whatever the points; with points of the right width `dim` it is IndexError for `dim = 1` and ValueError for `dim >= 3`.

### C41 Control queries do not modify the object

* `C41_repeated_queries` (Control.lean). (any arithmetic). In every session on one object, with arbitrary queries and arbitrary use of the random generator in between, the same coverage query or edge control query always has the same answer (value or exception).
* `C41_torch_repeated_queries` (Control.lean). (torch).
* `C41_session_coverage` (Coverage.lean). (answers). At every position of every session, on either class, a coverage query gets the geometric answer of C42 (numpy) or C43 (torch), whatever was asked before and whatever the random generator did.
* `C41_session_edge_control` (Coverage.lean). (answers). The same for control queries at the edge indices: the formula of C36, on either class.

### C42 Coverage check (numpy)

* `C42_coverage` (Coverage.lean). `check_if_covered` answers True exactly if in every coordinate the point has a forward particle and a backward particle on each side (at or below, at or above).
* `C42_common_points` (Coverage.lean). (every particle seen by both flows is covered; a point outside one flow is not).
* `C42_lengths` (Coverage.lean). (other lengths, any arithmetic). A point with fewer than `dim` entries raises IndexError; entries beyond `dim` are ignored.

### C43 Coverage check (torch) is weaker

* `C43_torch_coverage` (Coverage.lean). The torch `check_if_covered` answers True exactly if in every coordinate the point has some particle of either flow on each side.
* `C43_torch_weaker` (Coverage.lean). (comparison). On the same flows every point covered for numpy is covered for torch; if in every coordinate all forward particles lie strictly below all backward particles, every point in the gap is covered for torch and no point at all is covered for numpy (`dim >= 1`).

### C44 Torch and numpy edge control differ by the factor (N-1)/N

* `C44_edge_factor` (Control.lean). On identical flows the torch edge control is `(N-1)/N` times the numpy one.
* `C44_lengthscales` (Control.lean). (lengthscales). The lengthscales of the torch class are `sqrt(N/(N-1))` times those of the numpy class.

### C45 Torch construction needs spread

* `C45_object_has_spread` (TorchFail.lean). (main form). If a torch object with at least three grid points was constructed in deterministic mode, then in every forward slice after the first one every coordinate has spread.
* `C45_flat_first_step_raises` (TorchFail.lean). (exact error). Without reweighting, if after the first step `Z_1 = y1 + dt f(y1, t1) + g sqrt(dt) xi` some coordinate has no spread, the constructor raises ValueError, for every random stream.
* `C45_single_particle` (TorchFail.lean). (one particle). With `N = 1`, at least three grid points and `dim >= 1` the torch class never constructs, in either mode, whatever the random stream, drift, constraint and transport solver.
* `C45_no_noise` (TorchFail.lean). (no noise). With `g = 0` and a drift that acts particle by particle the torch class never constructs in deterministic mode with at least three grid points and `dim >= 1`; with reweighting this needs a transport solver that returns transport plans.

### C46 Torch class cannot handle one-dimensional systems

* `C46_one_dimension_never_constructs` (TorchFail.lean). With `dim = 1` and at least three grid points the torch class never constructs, in either mode, for any arithmetic, random stream, kernel name, drift and constraint.

### C47 Torch Brownian-bridge mode fails on shapes

* `C47_bridge_shapes` (TorchFail.lean). (which shapes survive). If the torch class constructs in deterministic mode with reweighting and Brownian bridge on at least three grid points, then `N = M = dim`, or `M = 1` and `N` is `dim` or 1. Any arithmetic.
* `C47_bridge_never_constructs` (TorchFail.lean). With reweighting and Brownian bridge, deterministic, at least three grid points, at least two particles and `N != dim`, the torch class never constructs. Any arithmetic.

### C48 Stochastic numpy mode has a degenerate terminal density

* `C48_stochastic_backward_flow_is_nan` (Special.lean). In stochastic mode (numpy) a returned object has a backward flow that is NaN in every coordinate of every particle at every time index strictly between the first and the last: the first backward step estimates the score of a cloud concentrated in `y2`.
* `C48_stochastic_edge_control_is_nan` (Special.lean). (queries). Consequently every control query at an index `1 ≤ ti ≤ 5` or `timegrid.size - 5 ≤ ti ≤ timegrid.size - 2` of such an object returns NaN only.

### C49 True-drift storage is never filled in stochastic mode

* `C49_true_flow_zero_in_stochastic_mode` (Depend.lean). With `reweight`, `brown_bridge` and `deterministic=False` the array `Ztr` of the constructed object contains only zeros, numpy and torch.

### C50 Ignored constructor options

* `C50_reject_densest_ignored` (Depend.lean). (`reject`, `dens_est`). These options never matter, numpy and torch.
* `C50_true_drift_ignored` (Depend.lean). (`f_true`). Unless reweighting, Brownian bridge and deterministic mode are all switched on, `f_true` does not matter, numpy and torch.
* `C50_constraint_ignored` (Depend.lean). (`U`). Without reweighting the constraint does not matter, numpy and torch.

### C51 Whole-run translation equivariance

* `C51_translation` (Equivariance.lean). (numpy). Shifting all positions by a vector shifts the flows by that vector.
* `C51_translation_torch` (Equivariance.lean). (torch).

### C52 Time-shift equivariance

* `C52_time_shift` (Equivariance.lean). (numpy). Posing the problem `h` later leaves all flows unchanged and shifts the grid, for every configuration, kernel and random stream.
* `C52_time_shift_torch` (Equivariance.lean). (torch).

### C53 Accepted shapes of the diffusion coefficient

* `C53_scalar` (Shapes.lean). (scalars). A scalar or 0-d array gives the constructor for a number, for every input.
* `C53_torch_scalar` (Shapes.lean). 
* `C53_bad_shape_raises` (Shapes.lean). (numpy, deterministic, bad shapes). If `g` does not broadcast to `dim x N`, every construction on a grid of at least two points raises ValueError.
* `C53_torch_bad_shape_raises` (Shapes.lean). (torch, bad shapes). RuntimeError; in stochastic mode for `dim >= 2` (for `dim <= 1` the initialisation raises first, see C11).
* `C53_only_coefficients_matter` (Shapes.lean). (only the coefficients matter, numpy). Two arrays of whatever shapes that broadcast to the same coefficients give the same constructor; in stochastic mode they must also broadcast to the same coefficients of a single particle.
* `C53_torch_only_coefficients_matter` (Shapes.lean). (only the coefficients matter, torch, both modes).
* `C53_constant_array` (Shapes.lean). A constant array of a shape that broadcasts is as good as the number.
* `C53_square_matrix_iff` (Shapes.lean). (the README's diffusion matrix). A `dim x dim` array broadcasts exactly if `dim = 1` or `N = dim`.
* `C53_square_matrix_raises` (Shapes.lean). (the README's diffusion matrix). With `dim >= 2` and a number of particles other than `dim`, a `dim x dim` matrix makes the deterministic constructors of both classes raise.
* `C53_square_matrix_elementwise` (Shapes.lean). Where a `dim x dim` matrix is accepted (`N = dim >= 2`), its entry `[a, n]` is the coefficient of coordinate `a` of particle `n`: it is not multiplied as a matrix.
* `C53_stochastic_bad_shape_raises` (Shapes.lean). (numpy, stochastic). The sampler moves one particle at a time, so `g` must broadcast to `(dim,)`.
* `C53_backward_needs_slice_shape` (Shapes.lean). The backward simulation moves whole slices in both modes: on a grid of at least three points no array that does not broadcast to `dim x N` is ever accepted.
* `C53_stochastic_single_entry` (Shapes.lean). (numpy, stochastic). With `dim >= 2`, `N ≠ dim` and at least three grid points only arrays with a single entry are accepted: there is no array for coefficients that differ between coordinates.
* `C53_good_shape_constructs` (Shapes.lean). (numpy, deterministic, good shapes). If `g` broadcasts to `dim x N`, construction never fails for reasons of shape (without reweighting: never) ...
* `C53_good_shape_full_run` (Shapes.lean). ... and the run follows the recurrences of C09, C10, C12 with the coefficient of each coordinate of each particle read off by broadcasting.
* `C53_torch_good_shape_full_run` (ShapesTorch.lean). (torch, deterministic, good shapes). If `g` broadcasts to `dim x N`, a successful run follows the recurrences of C09, C10, C12 with the coefficient of each coordinate of each particle read off by broadcasting.
* `C53_torch_stochastic_full_run` (ShapesTorch.lean). (torch, stochastic, good shapes). Unlike the numpy class, the torch class moves whole slices, so one coefficient per coordinate is possible.

### C54 Documented matrix arguments of the coverage check

* `C54_matrix_argument_raises` (Coverage.lean). For `dim >= 2` the documented call `check_if_covered(X, ti)` with `X` of shape `m x dim` never returns: ValueError in numpy, RuntimeError in torch (IndexError if `X` has no rows).
* `C54_column_point` (Coverage.lean). (column). A point given as a column (`m x 1` array) gets the answer of the flat point, whatever the dimension; with fewer than `dim` rows both raise IndexError.
* `C54_one_dim_first_point` (Coverage.lean). (one dimension). For `dim = 1` a `K x 1` array is accepted, but the answer is that for its first row alone.

### C55 Change of the length unit

* `C55_affine` (Equivariance.lean). (numpy). In the coordinates `s x + v`, `s > 0`, the flows are the transformed flows, with the same random stream, for every configuration. Reweighting needs a solver that returns transport plans (unless `v = 0`) and that does not depend on the unit of the costs (unless `s = 1`); the stochastic sampler starts coordinates 2, 3, ... at 0 whatever `y1` is, so that `v` must vanish there.
* `C55_affine_torch` (Equivariance.lean). (torch), for `d >= 2`. The cost matrix is divided by its maximum, so that no assumption on the unit of the costs is needed. Deterministic Brownian-bridge mode is left out (C47: it constructs only for special shapes, and its inducing points are transposed).

### C56 A returned forward flow contains no NaN

* `C56_forward_flow_has_no_nan` (Special.lean). If the constructor returns (at least three grid points), the forward flow contains no NaN: in deterministic mode no time slice, in stochastic mode no slice from index 2 on. Numpy and torch.
* `C56_forward_ranges_finite` (Special.lean). (ranges, any arithmetic). In a returned deterministic numpy object the range `max - min` of every coordinate of every forward slice strictly between the first and the last is finite.
* `C56_nan_cloud_raises` (Special.lean). (what happens instead). The drift with score correction refuses a cloud with a NaN, from any random state: numpy raises OverflowError (in one dimension `f_seperate` raises IndexError before, because it tries to plot the second coordinate of the exploding flow), torch raises ValueError. `plot = true` is `f_seperate`, `plot = false` is `f_seperate_true`.

### C57 NaN in the backward flow is absorbing and silent

* `C57_nan_particle_stays_nan` (Special.lean). A particle of the backward flow that has a NaN coordinate at some time index `i ≥ 1` has only NaN coordinates at all earlier time indices but the first, and no exception is raised. Numpy and torch, both modes.
* `C57_nan_poisons_all_particles` (Special.lean). (deterministic mode). One NaN anywhere in the backward flow at time index `i ≥ 1` makes the whole backward flow NaN at all earlier time indices but the first.

### C58 Periodic kernel: moving points around the circle

* `C58_winding_vector` (Periodic.lean). With a vector lengthscale, moving every coordinate of every sample and of every inducing point by its own integer multiple of `2π` does not change the array output (nor whether the call raises).
* `C58_winding_scalar_1d` (Periodic.lean). In one dimension with a scalar lengthscale the same holds for the array output and for the function output, whose query points may be moved as well.
* `C58_scalar_function_at_samples` (Periodic.lean). With a scalar lengthscale (any dimension) the function output at the samples is the array output.
* `C58_scalar_2d_not_periodic` (Periodic.lean). (limits). With a scalar lengthscale in two dimensions the estimate is not periodic: the kernel folds the sum of the coordinate distances. Both calls return values, and these differ.
* `C58_vector_function_not_periodic` (Periodic.lean). (limits). With a vector lengthscale the function output is not periodic in its query point.

### C59 Periodic kernel: what is estimated and when it is singular

* `C59_scalar_1d` (Periodic.lean). In one dimension with a scalar lengthscale, for every sample set, every inducing set (repeated points allowed) and every `C > -1e-3`, both outputs exist and are the regularised score estimate with the periodic kernel: the analogue of C17, C18, C20 and C21.
* `C59_vector_negated_kernel` (Periodic.lean). With a vector lengthscale the array output is the estimate for the *negated* periodic kernel, and the call raises LinAlgError exactly when one of the two matrices built from it is singular.
* `C59_vector_can_be_singular` (Periodic.lean). (consequence). The negated kernel defeats the regularisation: there are two distinct inducing points and a lengthscale for which the call raises LinAlgError whatever the samples, `C` and coordinate.
* `C59_scalar_2d_can_be_singular` (Periodic.lean). (scalar lengthscale, two dimensions). The kernel of the code is not positive definite there, and a call can raise LinAlgError for pairwise distinct inducing points, whatever the samples and `C`.
* `C59_vector_function_1d_raises` (Periodic.lean). (function output, vector lengthscale, one dimension). The call always raises: LinAlgError if a matrix is singular, IndexError otherwise.
* `C59_vector_function_sign` (Periodic.lean). (function output, vector lengthscale). With a single inducing point the function output at the samples never has the sign of the array output: their product is non-positive, and one vanishes only with the other.

### C60 Periodic kernel: coinciding coordinates give NaN

* `C60_coincidence_is_nan` (PeriodicNan.lean). With `kern='periodic'`, if some sample has the same (finite) value as some inducing point in the selected coordinate - in particular if a sample is used as an inducing point - every component of the estimate is NaN: of the array output, and of the function output at every query point.

### C61 Control and coverage do not depend on coordinates, unit or time origin

* `C61_control_affine` (QueryEquiv.lean). (numpy). If the problem can be solved in one coordinate system it can be solved in every other one, the control at the converted points is the converted control, and the coverage check gives the same answer; queries raise the same exceptions and consume the same random numbers. In reweighted Brownian-bridge mode this holds for deterministic runs at the edge indices only (elsewhere the query points are clipped at coordinate 0, C40).
* `C61_control_affine_torch` (QueryEquiv.lean). (torch), for `d >= 2`, outside reweighted Brownian-bridge mode.
* `C61_control_time_shift` (QueryEquiv.lean). (time origin, numpy). The problem posed `h` later has, at every time index and every query array, exactly the same control and the same coverage, in every mode and for every kernel.
* `C61_control_time_shift_torch` (QueryEquiv.lean). (time origin, torch).

### C62 Only differences of the path constraint between particles matter

* `C62_constraint_gauge` (Gauge.lean). (numpy). If two constraints differ by a term that is the same for all particles, then the two runs coincide: same exceptions, same random state, same flows; every mode, kernel and solver.
* `C62_constraint_gauge_torch` (Gauge.lean). (torch).

### C63 Complete outcome table of the numpy constructor

* `C63_verdict` (Verdict.lean). In exact arithmetic, with at least one particle and dimension, and a transport solver that returns (only used with `reweight=True`), the outcome of the constructor is given by the table `npVerdict`: an object is returned exactly if the table says so, and otherwise the listed exception is raised, for every random stream, horizon and drift. (Exact arithmetic with `x / 0 = 0`; C65 gives the further exceptions caused by NaN when a cloud loses its spread.)
* `C63_outcome_not_random` (Verdict.lean). (corollary). Whether the construction succeeds, and which exception is raised, does not depend on the random stream.

### C64 Complete outcome table of the torch constructor

* `C64_bridge_value_error` (TorchTrue.lean). (meaning of the ValueError, deterministic mode). If construction fails although the table says that it returns, then an initial part of the forward flow, or of the true-drift flow after a complete forward flow, ends in a cloud without spread in some coordinate.
* `C64_torch_verdict` (TorchVerdict.lean). (outcome table). On every grid the constructor does what `torchVerdict` says, or raises ValueError, the latter only with at least three grid points.
* `C64_value_error_means_no_spread` (TorchVerdict.lean). (meaning of the ValueError, deterministic mode without true-drift flow). If construction fails although the table says that it returns, then an initial part of the forward flow ends in a cloud without spread in some coordinate.
* `C64_value_error_iff` (TorchVerdict.lean). (ValueError exactly). Deterministic mode without Brownian bridge, at least three grid points, a configuration for which the table says that an object is returned; with reweighting, a transport solver that always returns a coupling: the constructor raises ValueError exactly if an initial part of the forward flow ends in a cloud without spread in some coordinate, and otherwise returns an object.
* `C64_stochastic_value_error` (TorchVerdict.lean). (stochastic mode). If construction fails although the table says that it returns, then the stochastic forward flow has, from index 2 on, a cloud without spread in some coordinate.

### C65 Exact-arithmetic results and IEEE special values

* `C65_exact_run_is_the_run` (Embeds.lean). If the exact deterministic run returns an object whose clouds have spread (forward flow: all but the first; true-drift flow: all but the first and last; backward flow: all but the first two and the last), then the run in `K` with the same arguments and random stream returns the same flows and leaves the generator in the same state.
* `C65_lost_spread_raises` (Embeds.lean). (lost spread). If in the exact run some cloud of the forward flow with `1 ≤ i ≤ k-2`, or of the true-drift flow with `1 ≤ i ≤ k-3`, has no spread in some coordinate, then the run in `K` raises an exception: OverflowError if the dimension is at least 2; in dimension 1 IndexError from the plotting branch, or OverflowError if the true-drift flow fails first.
* `C65_single_particle_raises` (Embeds.lean). (one particle). With a single particle, three or more grid points and known kernel the deterministic mode of the numpy class never constructs an object in `K`: OverflowError if the dimension is at least 2, IndexError if it is 1.
* `C65_torch_exact_run` (EmbedsTorch.lean). (torch). If the exact deterministic run (not with reweighting and Brownian bridge together; with reweighting, a solver that returns transport plans) returns an object with three or more grid points, and the backward clouds but the first two and the last have spread, then the run in `K` with the same arguments and random stream returns the same flows and leaves the generator in the same state.
* `C65_torch_exact_control` (EmbedsTorch.lean). (torch, control queries). Let `o` and `o'` be the objects of an exact run and of the run in `K`, with the same slices. If the slices with index `ti` of the backward flow and of the flow it is compared with have spread, then `calculate_u` in `K` has the outcome of the exact query (result, exception and generator state), for every tensor of points.
* `C65_torch_exact_coverage` (EmbedsTorch.lean). (torch, coverage queries). `check_if_covered` in `K` has the outcome of the exact query, whatever the spread.
* `C65_torch_exact_failure` (EmbedsTorch.lean). (torch, failures). If the exact deterministic run raises (`dim >= 2`, at least two particles and three grid points, known kernel, no reweighting), then it raises ValueError and the run in `K` with the same arguments and random stream raises ValueError as well: a degenerate cloud is reported and never stored.
* `C65_exact_control` (LiftQuery.lean). (control queries). Let `o` and `o'` be the objects of an exact run and of the run in `K`, with the same slices. If the slices with index `ti` of the backward flow and of the flow it is compared with have spread, then `calculate_u` in `K` has the outcome of the exact query (result, exception and generator state), for every array of points.
* `C65_exact_coverage` (LiftQuery.lean). (coverage queries). `check_if_covered` in `K` has the outcome of the exact query, whatever the spread.
* `C65_no_noise_raises` (NoNoise.lean). (no noise). With `g = 0`, a drift that acts particle by particle, three or more grid points and known kernel the deterministic mode of the numpy class never constructs an object in `K`: OverflowError if the dimension is at least 2, IndexError if it is 1. With reweighting this needs a solver that returns transport plans.

### C66 The number and position of time points does not depend on rounding

* `C66_grid_size` (Rounding.lean). (number of slices). Whenever the horizon is `n` steps up to a quarter of a step, every constructed object, numpy or torch, has exactly `n+1` time points, whatever the rounding did: no point is lost and none is added at the end.
* `C66_grid_points` (Rounding.lean). (accuracy of the numpy grid). The first point is exactly `t1`; point `i` is finite and within `u (i+1) (2|t1|+1)` of `t1 + i*dt`: the error grows with the index, because `np.arange` repeats one rounded increment.
* `C66_torch_grid_points` (Rounding.lean). (accuracy of the torch grid). Point `i` is finite and within `u (|t1| + i/50)` of `t1 + i*dt`.
* `C66_double_grid` (Rounding.lean). (binary rounding). With every operation rounded to 53 significant bits and a starting time of at most 1 in absolute value, the first `10^5` points of the grid of a constructed numpy object are within a thousandth of a step of the exact ones and strictly increasing.

### C67 The closed-loop simulation is Euler-Maruyama with the queried controls

* `C67_exact_loop` (LiftQuery.lean). (with NaN and infinities). If the exact loop returns, and both flows have spread at the indices `1, ..., k-2`, then the loop in `K` on the object of the run in `K` returns the same paths and controls and leaves the generator in the same state.
* `C67_simulation` (Loop.lean). (what is simulated). Every run of the loop that returns is an Euler-Maruyama simulation of `dX = f dt + g^2 u dt + g dW` (and of the same equation with `u = 0`) from `y1`, with `u` the control returned by `calculate_u` for index `i` at the states of index `i - 1`; the recorded controls at the first and the last index are zero.
* `C67_runs` (Loop.lean). (the loop runs to the end). Outside reweighted Brownian-bridge mode, if both flows have spread at the indices `1, ..., k-2`, the loop returns, for every drift, start, noise strength and random stream; every control used is the difference of Gaussian scores near the ends and of kernel score estimates elsewhere.
* `C67_no_noise` (Loop.lean). (no control without noise). If the system has no noise, the controlled paths are the uncontrolled ones.
* `C67_equal_flows` (Loop.lean). (nothing to correct). If the two flows coincide, all controls used are zero, so that the controlled ensemble is an uncontrolled one.
* `C67_ends_unused` (Loop.lean). (the ends are not used). The loop never looks at the first and the last slice of the flows (where the controls are NaN, C37): replacing these slices changes nothing, in any arithmetic.
* `C67_affine` (Loop.lean). (choice of coordinates). Solving and simulating in the coordinates `s x + v` gives the converted paths.
* `C67_time_shift` (Loop.lean). (choice of the time origin). Shifting all times leaves the simulated paths unchanged.

### C68 Outcome of queries on a constructed object

* `C68_query_verdict` (QueryVerdict.lean). On every object returned by the constructor, `calculate_u` does what the table `queryVerdict` says: which exception it raises, if any, is decided by the number of grid points, the dimension, the number of columns of the points, the mode and the index, never by the particles, the points or the random stream.
* `C68_torch_query_verdict` (QueryVerdict.lean). (torch).
* `C68_coverage_verdict` (QueryVerdict.lean). (coverage). In both classes `check_if_covered` raises IndexError exactly for an index out of range or a point with fewer than `dim` entries, and otherwise answers.
* `C68_torch_deterministic` (QueryVerdict.lean). (torch, deterministic objects). On an object of deterministic mode outside reweighted Brownian-bridge mode the ValueError never occurs: between the edges the query returns for points with one or `dim` columns and raises RuntimeError for all others.

### C69 Continuous dependence on states, drift and noise

* `C69_numpy_continuous` (Continuity.lean). (numpy). Deterministic mode, no reweighting. Let the arguments `c i` approach `c0`. If in the run with `c0` the forward flow has spread at every index but the first, and the backward flow at every index but the first two and the last, then all constructions return, all leave the generator in the state in which the limit run leaves it, and both flows approach those of the limit run.
* `C69_torch_continuous` (Continuity.lean). (torch). The same for the torch class, where a cloud without spread raises ValueError: if the limit construction returns, then the nearby ones do, and their flows approach those of the limit run as soon as the backward flow of the limit run has spread at every index but the first two and the last.
* `C69_control_continuous` (Continuity.lean). (control, numpy). Let both flows of the objects `o i` approach those of `o0`, all on equally long grids, and let the query points `x i` approach `x0`. If the slices of `o0` with index `ti` have spread, then eventually the queries return, with the same generator state afterwards, and the controls approach the control of `o0` at `x0`. With `o i = o0`: the control is a continuous function of the query point.
* `C69_torch_control_continuous` (Continuity.lean). (control, torch). The same for the torch class.
* `C69_continuous_in_arguments` (Continuity.lean). (as continuity). If moreover the drift is continuous in the cloud, every stored number is, near the given arguments, a continuous function of initial state, target state and noise amplitude.

### C70 Mirror images and relabellings

* `C70_numpy_reweighted` (SymReweight.lean). (numpy, with reweighting). Deterministic mode, with or without path constraint, with or without Brownian bridge. Let `c'` be the problem `c` in new coordinates, path constraint and true drift included, let the generator states `r`, `r'` be coupled and let the solvers agree (up to the numbering of the particles). Then the two constructions raise the same exception, or both return, on the same time grid, all flows of the second are the transformed flows of the first, and the generator states are coupled again. (In exact arithmetic, so without the NaNs of clouds without spread.)
* `C70_torch_reweighted` (SymReweight.lean). (torch, with reweighting). The same for the torch class outside the bridge mode (in which its scores need not even have the right shape, C64).
* `C70_bridge_edge_control` (SymReweight.lean). (control, Brownian bridge). At the indices where the flows are treated as Gaussian the symmetry of the control extends to the reweighted bridge mode, in which the true-drift flow plays the role of the forward flow.
* `C70_posable_all` (SymReweight.lean). (the hypotheses can always be met, with reweighting). Every problem can be posed in the new coordinates, path constraint and true drift included.
* `C70_same_solver` (SymReweight.lean). (the hypotheses can always be met, with reweighting). Every generator can be given a solver that agrees with a given one up to the numbering of the particles; the same solver will do if the particles keep their numbers.
* `C70_numpy_symmetry` (Symmetry.lean). (numpy). Deterministic mode, no reweighting. Let `c'` be the problem `c` in new coordinates and let the generator states `r`, `r'` be coupled. If the run with `c` returns and has spread where scores are estimated, then the run with `c'` returns, on the same time grid, both its flows are the transformed flows, and the generator states are coupled again afterwards.
* `C70_torch_symmetry` (Symmetry.lean). (torch). The same for the torch class (which raises on clouds without spread, so only the backward flow is assumed to have some).
* `C70_control_symmetry` (Symmetry.lean). (control, numpy). If the flows of `o'` are the transformed flows of `o` (same grid), the query points are the transformed points and the generator states are coupled, then the control of `o'` is the transformed control of `o`, at every index at which both clouds have spread.
* `C70_torch_control_symmetry` (Symmetry.lean). (control, torch). The same for the torch class.
* `C70_posable` (Symmetry.lean). (the hypotheses can always be met). Every problem can be posed in the new coordinates.
* `C70_coupled_generator` (Symmetry.lean). (the hypotheses can always be met). For every generator there is one that delivers the same numbers in the order, and with the signs, required by the symmetry; its states are coupled to all states of the given one.

### C71 Laws of the noisy steps of deterministic runs

* `C71_first_slice_law` (Law.lean). (first noisy slice, numpy). Deterministic mode, no reweighting, at least two grid points, any generator state. The construction returns whatever the tapes are, and the first computed forward slice consists of independent normals with mean `y1 + dt f(y1, t1)` and variance `g^2 dt`, `dt = 1/1000`.
* `C71_torch_first_slice_law` (Law.lean). (first noisy slice, torch). The same for the torch class, for the runs that return.
* `C71_backward_step_law` (Law.lean). (first backward step, numpy). Deterministic mode, no reweighting. Keep the uniforms and the first `d N` normals fixed and suppose that one run with them has spread in its forward flow `Z`. Then every run with them returns the same forward flow, and, over the normals that follow, slice `k-2` of the backward flow consists of independent normals with variance `g^2 dt` and mean `y2 - dt f(y2, t) + g^2 dt` times the score estimate of the last forward slice at `y2`.
* `C71_torch_backward_step_law` (Law.lean). (first backward step, torch). The same for the torch class; it needs no assumption on the spread: whether a run returns is decided by the uniforms and the first `d N` normals.

### C72 Stochastic mode is an Euler-Maruyama chain

* `C72_stochastic_chain` (Law.lean). (the stochastic forward flow). Stochastic mode of the torch class, at least two coordinates and particles, `g ≠ 0`, no reweighting, measurable drift. Construction almost surely returns, whatever the uniforms are; the stored forward flow is an Euler-Maruyama chain `Z (j+1) = Z j + dt f(Z j, t_j) + g sqrt(dt) ξ_j` started in `y1` (coordinates beyond the second in 0), whose noises are independent arrays of independent standard normals, the noise of each step being independent of the flow so far.
* `C72_particles_iid` (Law.lean). (independent particles). If moreover the drift acts particle by particle, the particle paths of the stored forward flow are independent and identically distributed.
* `C72_brownian_motion` (Law.lean). (no drift). Without drift, coordinate `a` of every particle of slice `j` is normal with mean `y1_a` and variance `j g^2 dt`: Brownian motion at the grid times.
* `C72_numpy_chain` (LawNumpy.lean). (the stochastic forward flow, numpy). Stochastic mode of the numpy class, at least two coordinates and one particle, no reweighting, measurable drift `f1` (called without a time). Construction returns whatever the tapes are. All slices of the stored forward flow but the last are those of an Euler-Maruyama chain `Z (j+1) = Z j + dt f1(Z j) + g sqrt(dt) ξ_j`, particle by particle, started in `y1` (coordinates beyond the second in 0), whose noises are independent arrays of independent standard normals, the noise of each step being independent of the flow so far. The last slice is `y2`, whatever the chain did.
* `C72_numpy_particles_iid` (LawNumpy.lean). (independent particles, numpy). The particle paths of the stored forward flow, last slice excepted, are independent and identically distributed.
* `C72_numpy_brownian_motion` (LawNumpy.lean). (no drift, numpy). Without drift, coordinate `a` of every particle of slice `j` before the last is normal with mean `y1_a` (0 beyond the second coordinate) and variance `j g^2 dt`.

### C73 Symmetries in law, exchangeable particles

* `C73_numpy_reweighted_law` (LawReweight.lean). (numpy, with reweighting). Deterministic mode, with or without path constraint and bridge. With independent standard normals and uniforms, what the user sees of the problem in the new coordinates (exception or flows) has the law of what he sees of the original problem, transformed. (In exact arithmetic.)
* `C73_torch_reweighted_law` (LawReweight.lean). (torch, with reweighting). The same for the torch class outside the bridge mode.
* `C73_reweighted_exchangeable` (LawReweight.lean). (exchangeable particles, with reweighting). If drift, path constraint and true drift act particle by particle and the solver is impartial, renumbering the particles does not change the law of the outcome: what reweighting does to a particle depends on where the particle is, not on its number.
* `C73_numpy_law` (LawSym.lean). (numpy). Deterministic mode, no reweighting. Let `c'` be the problem `c` in new coordinates. For every set `A` of pairs of flows, the runs of `c'` that keep their spread lie in `A` with the same probability as the transformed runs of `c` that keep their spread.
* `C73_torch_law` (LawSym.lean). (torch). The same for the torch class; the runs may also raise.
* `C73_torch_forward_law` (LawSym.lean). (torch, forward flow). Without any assumption on the spread: the constructions of `c'` and of `c` return with the same probability, and the law of the forward flow of `c'` is the transformed one.
* `C73_exchangeable` (LawSym.lean). (exchangeable particles, numpy). If the drift acts particle by particle, renumbering the particles by any permutation does not change the joint law of the two flows.
* `C73_torch_exchangeable` (LawSym.lean). (exchangeable particles, torch). The same for the forward flow of the torch class, without any assumption on the spread.

### C74 Displacement per step and keeping spread

* `C74_forward_displacement` (Displace.lean). (forward step, numpy). Deterministic mode, no reweighting. From a slice with spread, every particle moves by `dt f` up to `125 g^2 M^2 N / s_a` in coordinate `a`, `s_a` the standard deviation of the slice in that coordinate.
* `C74_torch_forward_displacement` (Displace.lean). (forward step, torch).
* `C74_backward_displacement` (Displace.lean). (backward step, numpy). A deterministic backward step from slice `j+1` to slice `j` moves every particle by `- dt f` up to `250 g^2 M^2 N / s_a + 125 g^2 M^2 N / s'_a`, `s_a` and `s'_a` the standard deviations of the forward and the backward slice `j+1`.
* `C74_torch_backward_displacement` (Displace.lean). (backward step, torch).
* `C74_spread_kept` (Displace.lean). (spread is kept, numpy). If the drift pulls two particles apart and they are `D` apart in the first computed slice, then they are `D` apart in all later slices; in particular these have spread, so every later step is a probability-flow step.
* `C74_torch_returns` (Displace.lean). (a sufficient condition for the torch class to return). If the drift pulls two particles apart and the first noisy step leaves them `D` apart, then the torch constructor returns, and they are `D` apart in all later slices.
* `C74_backward_spread_kept` (Displace.lean). (spread of the backward flow, numpy). If forward particles `n0`, `n1` are `D` apart from slice 1 on, the drift pulls `m1`, `m0` together strongly once they are `E` apart, and they are `E` apart in backward slice `k-2`, then they are `E` apart in all backward slices `1, ..., k-2`.

### C75 Flows of angles stay on the circle

* `C75_on_circle` (Kuramoto.lean). (angles). After any construction that returns, every slice of both flows except index 0 has all its entries in `[0, 2π)`; whatever the drift, constraint, solver, grid and random stream.
* `C75_grid` (Kuramoto.lean). (grid). For a horizon of `n` steps of length `dt` the time grid has the `n + 1` points `t1 + i dt`.
* `C75_ends` (Kuramoto.lean). (ends). If `k` is the number of grid points and at least 2, both flows have `k` slices; the forward flow starts in a Gaussian cloud around `y1` with variance `g/2`, *not* reduced to `[0, 2π)`; the backward flow ends in `y1` exactly and starts from the last forward slice.
* `C75_too_few` (Kuramoto.lean). (too few slices). If `k` is smaller than the number of grid points the constructor never returns.
* `C75_too_many` (Kuramoto.lean). (too many slices). If `k` is larger than the number of grid points, the surplus forward slices stay zero, the last forward slice copied into the backward flow is one of them, and the slice of the last grid point, from which the backward flow starts, is zero too: the terminal cloud of the forward flow is ignored.
* `C75_returns` (Kuramoto.lean). (the constructor returns). With particles, coordinates, the RBF kernel and at least as many slices as grid points (at least 2), the construction returns for every drift and random stream, without reweighting always, with reweighting whenever the constraint is callable and the solver returns plans. (Exact arithmetic: a cloud without spread gives `0/0`, which is 0 here and NaN in the code.)
* `C75_default_constraint` (Kuramoto.lean). (default constraint). The default `U=1` is not callable: with reweighting the construction raises TypeError.

### C76 Recurrences of the angle flows

* `C76_full_run` (Kuramoto.lean). (the whole run). A construction that returns draws `N x d` standard normals for the initial cloud, runs the forward recurrence and then the backward recurrence, each continuing the random stream where the previous one stopped.
* `C76_transport` (Kuramoto.lean). (transport of angles). If the solver returns couplings, transporting a cloud of angles in `[0, 2π)` replaces every coordinate by a weighted mean of the representatives: the final reduction modulo `2π` changes nothing, and the new entries stay between the smallest and the largest old one.
* `C76_wrong_side` (Kuramoto.lean). (angles are not averaged as angles). Two particles at angles `ε` and `2π - ε`, which are `2ε` apart on the circle, with equal weights and the constant plan, are both moved to `π`, the opposite side.

### C77 The Kuramoto drift

* `C77_kuramoto` (KuramotoModel.lean). (the drift). The drift of the script, called with a state or an ensemble, is the Kuramoto vector field `w_j + (K/d) sum_i sin(x_i - x_j)` of every particle.
* `C77_angles` (KuramotoModel.lean). (a function of angles). Changing phases by multiples of `2π` does not change the drift.
* `C77_rotation` (KuramotoModel.lean). (rotation). Rotating all oscillators by the same angle does not change the drift.
* `C77_permutation` (KuramotoModel.lean). (permutation). Renumbering the oscillators (phases and frequencies) renumbers the drift.
* `C77_mean_field` (KuramotoModel.lean). (mean field). The coupling of every oscillator is `K R sin(ψ - x_j)` with the order parameter `R` and one common mean phase `ψ`; in particular it is at most `|K| R`.
* `C77_gradient` (KuramotoModel.lean). (gradient). The coupling is the gradient of `(K d / 2) R^2`: the uncontrolled interaction increases the synchronisation the constraint rewards (for `K > 0`).
* `C77_mean_frequency` (KuramotoModel.lean). (mean frequency). The sum of the drift over the oscillators is the sum of the frequencies.
* `C77_synchronised` (KuramotoModel.lean). (synchronised state). If all phases are the same angle, every oscillator moves with its own frequency.
* `C77_frequencies` (KuramotoModel.lean). (bimodal frequencies). The script's frequencies are `+freq` or `-freq`; for an even number of oscillators their sum is zero, for an odd number one of the two groups is larger by one.

### C78 Order parameter and synchronisation constraint

* `C78_order` (KuramotoModel.lean). (order parameter). `R_t(x)` is the modulus of the mean of the points `exp(i x_j)`, lies in `[0, 1]` and is 1 exactly for synchronised oscillators.
* `C78_invariance` (KuramotoModel.lean). (invariance). The order parameter depends only on the angles, and does not change under common rotations and renumbering.
* `C78_constraint` (KuramotoModel.lean). (constraint). The constraint of a particle is its order parameter minus one: in `[-1, 0]`, zero exactly for a synchronised particle.
* `C78_weights` (KuramotoModel.lean). (weights). The weights used for the reweighting in the script differ from the uniform ones by at most a factor `e`, and a particle gets a larger weight than another exactly if it is better synchronised.
* `C78_script_flow` (KuramotoModel.lean). (the forward flow of the script). In a returning construction of the script the forward flow moves every particle with the Kuramoto vector field (noise in the first step, minus `g^2/2` times the score afterwards), reduces the phases to `[0, 2π)`, and transports every new slice with log-weights `R - 1`.

### C79 Starting angles modulo 2 pi

* `C79_angle_start` (KuramotoLoop.lean). (starting angles). If the drift only depends on the angles, moving entries of `y1` by multiples of `2π` changes only index 0 of the two flows; all other slices and the random state afterwards are the same.
* `C79_script` (KuramotoLoop.lean). (the script). Starting angles of the script may be given modulo `2π`: the resulting flows agree from index 1 on, and so do all controls at indices `>= 1`.

### C80 Closed loop of coupled oscillators

* `C80_simulation` (KuramotoLoop.lean). (what is simulated). Every run of the closed loop that returns is an Euler-Maruyama simulation of `dX = f dt + g^2 u dt + g dW` on the circle (and of the same with `u = 0`) from `y0`, with `u` the control returned for index `i` at the state of index `i - 1`; the order parameters recorded are those of the states, except for 0 at the first and the last index.
* `C80_ranges` (KuramotoLoop.lean). (ranges). In such a run all states after the first one and before the last index are angles in `[0, 2π)`, and all recorded order parameters are in `[0, 1]`.
* `C80_last_column` (KuramotoLoop.lean). (last column, any arithmetic). The loop stops one index before the end of the arrays: the last column of both path arrays keeps its initial NaN (`0/0`), the last control its initial zero.
* `C80_returns` (KuramotoLoop.lean). (the loop runs to the end). If at the indices `1, ..., k-2` both flows have a slice and the backward one has spread, the closed loop returns, for every drift, start and random stream, and every control used is the one of `C81_control`.

### C81 Controls and coverage of the phase-oscillator class

* `C81_control` (KuramotoLoop.lean). (control). If both flows have a slice at index `ti`, the control at any number of points is the difference of the score estimates of the backward and the forward cloud, both with the lengthscales of the backward cloud and the same inducing points (uniform between the common bounds). Says nothing if the backward cloud has no spread in some coordinate.
* `C81_equal_flows` (KuramotoLoop.lean). (equal flows). Where the two flows agree the control is zero at every point.
* `C81_last_index` (KuramotoLoop.lean). (last index). After a construction with `k` the number of grid points, the control at the last index (`-1` or `k - 1`) is zero everywhere: there the backward flow *is* the forward flow.
* `C81_index_error` (KuramotoLoop.lean). (index errors). At an index without slices the query raises IndexError.
* `C81_coverage` (KuramotoLoop.lean). (coverage). `check_if_covered` answers True exactly if in every coordinate the point has a forward and a backward particle on each side.

### C82 Importing the package

* `C82_import_fails` (Import.lean). (the package cannot be imported). As committed, neither `DeterministicParticleFlowControl` nor any of its submodules can be imported, whatever third-party packages are installed or already loaded; in a new interpreter the exception is ImportError.
* `C82_package_dir` (Import.lean). (inside the package directory). With the package directory as working directory (the case the `else` branch of the imports is for) the score estimators and the main module cannot be imported either; the kernel, reweighting and utility packages can, exactly if the third-party packages they use are installed.
* `C82_repaired` (Import.lean). (after the obvious repair). With `from ..kernels` instead of `from .kernels` the package imports exactly if numpy, scipy, numba, matplotlib, torch, pyemd and duecredit are installed: the guards for a missing torch or numba have no effect, only `ot` is optional.
* `C82_no_common_repair` (Import.lean). (no repair serves both uses). However many leading dots the line has, the package import or the import from inside the package directory fails.

### C83 Lists of lengthscales of the wrong length (numpy)

* `C83_short_list` (LenScale.lean). (short lists are accepted silently). If the list of lengthscales has fewer entries than there are columns and `which_dim` is one of the dimensions it covers, the estimators for one dimension return, without any error, what they return for the samples and inducing points with the remaining columns deleted; the returned function, too (which then has to be called with deleted columns). For every kernel and arithmetic.
* `C83_never_returns` (LenScale.lean). (long lists, all dimensions at once). The older estimators raise IndexError if the list has more entries than there are columns; the estimator for all dimensions never returns unless the list has exactly one entry per column.
* `C83_right_length` (LenScale.lean). (lists of the right length). With one entry per column these are the functions of the other properties.
* `C83_marginal` (LenScale.lean). (what is estimated). In exact arithmetic a short list gives the score estimate of the marginal cloud of the first `m` coordinates.
* `C83_outcome` (LenScale.lean). (which calls return). In exact arithmetic, with at most as many lengthscales as columns and the RBF kernel, the estimators for one dimension return exactly if `which_dim` counts an entry of the *list*, from the front (`1 .. m`) or from the back (`0 .. 1 - m`); otherwise they raise IndexError.
* `C83_all_dims` (LenScale.lean). (all dimensions, exact outcome). In exact arithmetic the estimator for all dimensions returns exactly if the list has one entry per column, and otherwise raises IndexError.

### C84 Lengthscales of any shape in the torch kernel and estimator

* `C84_right_length` (LenScaleTorch.lean). (torch estimator, one entry per column or a single entry). A list or array with one lengthscale per column gives the documented estimator; one with a single entry the estimator with that scalar, in any dimension.
* `C84_one_column` (LenScaleTorch.lean). (torch estimator, one column, several lengthscales). In one dimension a list of several non-zero lengthscales is accepted silently: the result is `L^2 / l_0^2` times the score estimate with the lengthscale `L`, where `1/L^2 = sum 1/l_k^2`; it is not the estimate for any of the entries in general.
* `C84_wrong_length` (LenScaleTorch.lean). (torch estimator, all other lengths). Any other length raises RuntimeError, except that an empty list in one dimension raises IndexError.
* `C84_documented` (LenScaleTorch.lean). (the flag `multil`). `RBF(number, multil=True)` raises IndexError; a number without and an array of one lengthscale per column with the flag are the documented kernels: `Kernel` returns the Gaussian kernel matrix and `gradient_X` afterwards (minus) its gradient.
* `C84_flag_forgotten` (LenScaleTorch.lean). (forgetting the flag). `RBF([l_1, ..., l_m])` without `multil=True` can be constructed. Its `Kernel(X, Y)` divides by the lengthscale of the *point*, not of the coordinate: it returns exactly if `m` equals the number of points of `Y` or one of the two is 1, and for `m` equal to the number of points entry `(i, j)` is the Gaussian kernel with lengthscale `l_j` in all coordinates.
* `C84_flag_forgotten_gradient` (LenScaleTorch.lean). (forgetting the flag, as many points as columns). If `Y` happens to have as many points as columns, both `Kernel` and `gradient_X` return, but the kernel uses `l_j` for point `j` and the gradient `l_k` for coordinate `k`: where two entries differ, the gradient is not that of the kernel.

### C85 Consistency of the score estimate

* `C85_consistency` (Consistency.lean). (consistency). Let the samples be pairwise independent with a common law that charges every open set, and keep the inducing points (distinct), lengthscales (non-zero) and `C` fixed. There are functions of the form `sum_i c_i k(x, z_i)`, one per coordinate, namely the unique minimisers of the score-matching objective `E[s^2 + 2 ds/dx_j]` of the *law* of the samples, such that almost surely the estimates with `n` samples converge to them, uniformly in the evaluation point, both as values at the samples and as returned function. The constant `C` does not matter in the limit.
* `C85_consistency_all` (Consistency.lean). (all dimensions, torch). The same for the numpy estimator for all dimensions at once and for the torch estimator (whatever its argument `C`), with the same limit.
* `C85_best_approximation` (Consistency.lean). (what the limit is). If the law of the samples has a positive density `p` with integrable partial derivative and square-integrable score, then the minimiser of the score-matching objective is the best mean-square approximation, among the combinations of the kernels of the inducing points, of the true score `d log p / dx_j`. In particular, if the score is such a combination, it is the limit.

### C86 The limit-cycle example scripts

* `C86_drift` (LimitCycle.lean). (drift). The drift of the scripts is a rotation plus `σ^2/2` times the script's analytic gradient; so a probability-flow step with that gradient as score is a pure rotation, which enlarges every radius by the factor `sqrt (1 + dt^2)`.
* `C86_analytic_gradient` (LimitCycle.lean). (analytic gradient). `glnfss(x, σ)` is the gradient of the logarithm of `exp (-(r^2-1)^2 / (2σ^2))`.
* `C86_stationary` (LimitCycle.lean). (invariant density). `p = exp (-(r^2-1)^2 / (2σ^2))` solves the stationary Fokker-Planck equation `div (f p) = σ^2/2 Δp` of the system with the drift `f` of the scripts and noise strength `σ`.
* `C86_reference_path` (LimitCycle.lean). (reference path). The simulation always returns: `T/dt` states (rounded up) of the Euler-Maruyama scheme from `x0`, each step with two fresh normals.
* `C86_settles` (LimitCycle.lean). (no noise, stable region). Without noise, from a squared radius `s` with `0 < s <= 300` the squared radius approaches a value between `1 + dt/2` and `1 + dt`, monotonically and geometrically.
* `C86_settles_limit` (LimitCycle.lean). (no noise, limit).
* `C86_explodes` (LimitCycle.lean). (no noise, instability). From a squared radius of at least 2002 the scheme explodes geometrically although the system itself returns to the circle.
* `C86_bridge` (LimitCycle.lean). (what the scripts compute). If the reference path is long enough for the indices, the script gets past the constructor, which is called with these states, the drift and noise of the path and default options: the object has `steps + 1` time points, one `dt` apart, starting at `timeIx * dt`, and its backward flow leads from state `stateIx` of the reference path to state `stateIx + steps`. Otherwise IndexError.
* `C86_time_index` (LimitCycle.lean). (the time index is irrelevant). script_1.py takes the times from index 10 and the states from index 100: because the drift does not depend on time, any other time index gives the same flows and the same final generator state, only the time points are shifted.
* `C86_torch` (LimitCycle.lean). (torch version). The torch script either returns an object with the same properties, or its constructor raises ValueError because the forward flow loses its spread; IndexError if the reference path is too short.
* `C86_example` (LimitCycle.lean). (the whole example). If moreover both flows have spread at the inner time points, the example runs to its end: the ensembles are Euler-Maruyama simulations of the limit-cycle system, with and without the controls, from the state in which the backward flow starts.
* `C86_scripts` (LimitCycle.lean). (the three scripts as written). Their reference paths are long enough: script_1.py and Bridge_2D_on_Limit_Cycle.py get an object with 2001 and 4001 time points for every random stream, and test_torch_bridge_on_LC.py gets one with 501 time points or ValueError.

### C87 Phenotype example: rejection of backward paths

* `C87_kept` (Phenotype.lean). (exactly which paths are kept). A run with `reject=True` that returns has the same grid, forward flow and final random state as the run with `reject=False`, and its backward paths are, in the original order and without duplicates, exactly those whose first coordinate one step after the start is closer than `4 g^2 sqrt(dt)` to one Euler step from `y1`; the other coordinates are not looked at and the kept paths are unchanged.
* `C87_never_raises` (Phenotype.lean). (rejection never raises and nothing is deleted without it). If the run with `reject=False` returns, so does the one with `reject=True`; and the former keeps all `N` paths.
* `C87_no_noise` (Phenotype.lean). (no noise, no paths). With `g = 0` and `reject=True` every backward path is deleted, and afterwards both `calculate_u` and `check_if_covered` raise ValueError at every valid time index.
* `C87_short_grid` (Phenotype.lean). (short grids). On a grid with at most one point the constructor raises IndexError, with `reject=False` too.
* `C87_dimension` (Phenotype.lean). (dimension). With fewer than two coordinates no construction returns.

### C88 Phenotype example: flows and control

* `C88_full_run` (Phenotype.lean). (the flows). A construction with the RBF kernel and without reweighting that returns, on a grid of `k >= 2` points with at least one particle: the forward flow starts in `y1` and obeys the recurrence of the library's deterministic flow (its pin to `y2` at the last index is overwritten); all `N` backward paths end in `y2`, obey the backward recurrence with the forward slice of the same index, and start in `y1`; the random states are threaded through the two flows. The object's paths are the kept ones (C87).
* `C88_returns` (Phenotype.lean). (it returns). Over the reals, on a grid of at least two points, with at least one particle, the RBF kernel and no reweighting, every construction returns.
* `C88_reweight` (Phenotype.lean). (reweighting does not work). With `reweight=True`, on a grid of at least two points, the constructor raises TypeError if `U` is not a function and NameError otherwise.
* `C88_kernel` (Phenotype.lean). (other kernels do not work). Without reweighting, on a grid of at least three points, any kernel name other than 'RBF' (also 'periodic') makes the constructor raise NameError.
* `C88_control` (Phenotype.lean). (the control). At every time index that both flows have and for any number of points, `calculate_u` returns, column by column, the difference of the score estimates of the kept backward paths and of the forward particles, both with the lengthscales of the former, with inducing points between the bounds common to the two clouds: no time index is treated differently.
* `C88_covered` (Phenotype.lean). (coverage). `check_if_covered` is true exactly when each coordinate is between the bounds common to the forward cloud and the kept backward cloud.

### C89 Phenotype example: drift and linearisation

* `C89_drift` (PhenotypeModel.lean). (drift). The drift called by the particle flows with an ensemble is, column by column, the gene circuit, and the call with a single state is the same function.
* `C89_bounds` (PhenotypeModel.lean). (bounds). For nonzero thresholds with `p2 = p4` each component of the drift is in `[-x, 2-x]`; hence an Euler step of length at most 1 from a state in `[0,2]^2` stays in `[0,2]^2`.
* `C89_fixed_points` (PhenotypeModel.lean). (fixed points). With the script's thresholds 0.5 the target `(1, 1)` is a fixed point of the drift exactly; the source `(1.996, 0.004)` is not, but both components of the drift there are less than `1e-4`.
* `C89_gradient_diagonal` (PhenotypeModel.lean). (gradient, diagonal). `gradfs` and `divf` compute `4 x^3 (1 - x^4) / (p^4 + x^4) - 1` for the diagonal entries, whereas the derivative of the drift is `4 p^4 x^3 / (p^4 + x^4)^2 - 1`; the two are equal only for `x = 0` or `p^4 + x^4 = 1`.
* `C89_gradient_off_diagonal` (PhenotypeModel.lean). (gradient, off-diagonal). The off-diagonal entry of the first row is the derivative of the drift; that of the second row is if and only if `p2^4 = p4^4` (as in the script) or the first coordinate is 0.
* `C89_divergence` (PhenotypeModel.lean). (divergence). `divf` is the sum of the diagonal entries of `gradfs`; its error against the divergence of the drift is the sum of `4 x^7 (1 - p^4 - x^4) / (p^4 + x^4)^2` over the two genes.
* `C89_at_target` (PhenotypeModel.lean). (at the target). With the script's thresholds, at the target `(1, 1)`: `gradfs` returns `-1` on the diagonal and `divf` returns `-2`, whereas the derivative is `-225/289` and the divergence `-450/289`.
* `C89_mean` (PhenotypeModel.lean). (linearised mean). The mean of the linearised dynamics: `n` states, the first is `y2` and each next one is an Euler step of `f(y2) + A (m - y2)` with the matrix `A` of `gradfs(y2)`; if `y2` is a fixed point, all of them are `y2`.
* `C89_covariance` (PhenotypeModel.lean). (linearised covariance). The right-hand side passed to the ODE solver is `A C + C A^T + I` with `A` from `gradfs(y2)`: noise strength 1 whatever the noise strength of the run; it maps symmetric matrices to symmetric ones.

### C90 Phenotype example: closed loop

* `C90_simulation` (PhenotypeLoop.lean). (what is simulated). Every repetition that returns is an Euler-Maruyama simulation of `dX = f dt + g^2 u dt + g dW` from `y0` (and, with independent noise, of the same with `u = 0`), where `u` is the control of the bridge for index `i` at the state of index `i - 1`, and the linearised one in the last four steps.
* `C90_gauss` (PhenotypeLoop.lean). (linearised control). For a symmetric invertible covariance `C` and mean `m` stored at index `ix`, the linearised control is `-C^{-1} (x - m)`; for a singular one it raises LinAlgError, so index 0 (zero covariance) can not be used.
* `C90_controls` (PhenotypeLoop.lean). (the controls that are applied). In every repetition that returns on an object with the RBF kernel: before the last four steps the control of step `i` is the difference of score estimates of the slices `i` of the kept backward paths and of the forward particles at the state of index `i - 1`; in the last four steps it is `-C^{-1} (x - m)` with the stored covariance and mean of the index `k - i`, one of 1, 2, 3, 4, counting the steps that are left.
* `C90_returns` (PhenotypeLoop.lean). (it returns). On an object built by the script's constructor call, with at least one kept path and covariances and means for the indices 1 to 4 that are invertible, every repetition returns.
* `C90_no_paths` (PhenotypeLoop.lean). (all paths rejected). If no backward path was kept and the grid has at least six points, every repetition raises ValueError in its first step.
* `C90_sizes` (PhenotypeLoop.lean). (array sizes). The arrays that collect the repetitions have as many columns as the grid of the bridge if and only if the horizon is a multiple of 0.001 or exceeds one by more than half a step.
* `C90_script` (PhenotypeLoop.lean). (whole script). If the script returns for one noise strength, its bridge was built by the constructor call with `reject=True`, no reweighting and the gene circuit, and each repetition is a closed-loop simulation with the circuit as drift from `y1`, with the covariances given and the six linearised means; with at least one repetition the two grids have the same size, so that for a horizon that is not of this kind (`C90_sizes`) the script does not return.

### C91 Phenotype example, path integrals: simulation and weights

* `C91_simulation` (Pice.lean). (simulation). Every iteration `i` that is reached simulates the circuit with the polynomial control whose coefficients are stored under `i`, with noise that continues the random stream; coefficients, controls and noise at the last time index are zero.
* `C91_first` (Pice.lean). (first iteration). It is uncontrolled: all coefficients stored under 0 are zero, whenever one looks.
* `C91_weights` (Pice.lean). (weights). The weights computed from paths with controls `U`, noise `E` and end points `z` are the normalised exponentials of minus running cost minus end cost; with at least one path they are positive and sum to one.
* `C91_end_cost` (Pice.lean). (end cost). With equal weights all end points whose two coordinates both lie between the two coordinates of the target have the same least end cost. If the first weight is larger, the unique best end point has *both* coordinates equal to the first coordinate of the target; likewise for the second. So the target itself is not the unique best end point, unless its two coordinates are equal.
* `C91_likelihood` (Pice.lean). (what the weights correct for). For `g > 0` the running-cost factor of a path is the ratio of the densities of the uncontrolled and of the controlled Euler-Maruyama transitions along it, times `exp((1/g - 1) sum u e)`: an importance weight for the uncontrolled process only if `g = 1`.

### C92 Phenotype example, path integrals: fit, stopping, annealing

* `C92_fit` (PiceFit.lean). (fit). If the pseudo-inverse is the Moore-Penrose inverse of symmetric matrices, an iteration that does not stop stores under `i+1`, for every time index, the old coefficients plus `eta` times the (unique) shortest least-squares coefficients that predict noise / dt from the monomials of the state, weighted with the path weights; nothing else in the coefficient array changes.
* `C92_stop` (PiceFit.lean). (stopping). An iteration always returns. It stops exactly if the mean end point is within 0.01 of the target in both coordinates; then coefficients and end-cost weights are as before. The mean end points are recorded.
* `C92_anneal` (PiceFit.lean). (annealing step). At an iteration `i` that does not stop: "coordinate `a` is stuck" means that `i > 50`, that the recorded means of iterations `i-50` and `i-1` differ by less than 0.049 - what happens in between does not matter - and that its counter is not positive. If the first coordinate is stuck its weight grows by 25% and its counter is set to 50; else if the second one is, the same there; else both counters go down by one. Nothing else changes.
* `C92_anneal_bound` (PiceFit.lean). (annealing overall). Before iteration `i` each end-cost weight is `(5/4)^m` with at most one raise per 51 iterations, the first not before iteration 51: `51 m + 1 ≤ i` if `m > 0`.

### C93 Phenotype example, path integrals: the whole run

* `C93_evaluation` (PiceRun.lean). (final simulation). It always returns. The paths follow the Euler-Maruyama scheme of `dX = f dt + g^2 u dt + g dW`, where `u` is the polynomial control of the given coefficients, evaluated at the left end of each step and recorded at its right end. The fit simulates `f + g u`: the final simulation is that of the fit with coefficients multiplied by `g`.
* `C93_run` (PiceRun.lean). (whole run). With `max_iter ≥ 2` and a nonempty grid the run always returns. The coefficients used at the end are those with which the *last iteration was simulated*; the run ends either because that iteration stopped, or after iteration `max_iter - 2`, and then the coefficients fitted in it are not used. The final simulation continues the random stream.
* `C93_errors` (PiceRun.lean). (too few iterations). With `max_iter ≤ 1` the run raises NameError (the loop variable is undefined); with an empty grid and more iterations it raises IndexError.

### C94 Gaussian theory script: drift, covariance equations and scores

* `C94_drift` (Gaussian.lean). (drift). The drift of every column `x` is `-2 K C x`; for symmetric `C` and `K` with nonnegative quadratic form it never increases `x^T C x` to first order.
* `C94_variance` (Gaussian.lean). (covariance equation). The drift matrix `P` does not occur in the right-hand side: it is `-2 (K S S + S S K) + s s'^T`. For the noise of the model (`s s^T = K`) the matrix `I/2` is an equilibrium whatever `P`, whereas the covariance equation of the drift has the equilibrium `P^{-1}/4`. The two right-hand sides differ by `-2 (K (S - P) S + S (S - P) K)`.
* `C94_asymmetric` (Gaussian.lean). (asymmetry of the uncorrelated theory). For a symmetric argument the right-hand side is symmetric exactly if `s s'^T` is. The script uses `s = diag(a, b)`, `s'` symmetric with off-diagonal entry `t` there: not symmetric unless `a = b` or `t = 0`.
* `C94_uncorrelated` (Gaussian.lean). (uncorrelated theory of the script). Two traits with correlated noise covariance `K` (off-diagonal entry not zero, different variances), `sigma` a symmetric square root of `K` and `sigma0` a diagonal one of the diagonal part `K0`: the right-hand side of the second covariance equation is not symmetric for any symmetric argument, so that its solution is not a covariance.
* `C94_score` (Gaussian.lean). (score). For a symmetric stored covariance with nonnegative quadratic form the score never raises and is the gradient of the log density of the normal distribution with covariance `C + 1e-6 I`; for zero covariance it is `-10^6 (x - m)`. If `C^T + 1e-6 I` is singular it raises LinAlgError.

### C95 Gaussian theory script: simulation of the controlled bridges

* `C95_simulation` (Gaussian.lean). (simulation). With as many stored means and matrices as time points and nonnegative quadratic forms, the simulation returns on every nonempty grid. Both ensembles start in `y1` and follow the Euler-Maruyama scheme with the correlated drift `-2 K C` and the correlated noise matrix; the second one only uses the control of the uncorrelated theory. The noises are independent parts of the random stream, those of the uncorrelated theory are drawn first.
* `C95_mean` (Gaussian.lean). (mean path). The mean over the repetitions follows the same recursion, with the mean noise: the controls are affine in the state.
* `C95_first` (Gaussian.lean). (first step). If the forward mean starts in `y1`, the forward score is zero there and the first control is the pull towards the stored mean of the last index of the flow from the target.

### C96 What the user's callables see

* `C96_plain_callables` (Effects.lean). (plain functions). With callables that are plain functions (or `None`) the constructor with views and side effects gives, for every state of the world, the arrays, the final state or the exception that the constructor of `Model/DPFC.lean` gives.
* `C96_torch_plain_callables` (Effects.lean). (plain functions, torch).
* `C96_schedule_deterministic` (Effects.lean). (schedule, deterministic). Whatever the callables do, there is a list of calls such that every monitor watching the callables sees exactly these calls in this order, an exception it raises is what the constructor raises, and otherwise it does not influence the run. The callables and times are an initial part of the fixed schedule, all of it if the constructor returns.
* `C96_schedule_stochastic` (Effects.lean). (schedule, stochastic).
* `C96_torch_schedule_deterministic` (Effects.lean). (schedule, torch, deterministic).
* `C96_torch_schedule_stochastic` (Effects.lean). (schedule, torch, stochastic).
* `C96_number_of_calls` (Effects.lean). (number of calls). With `k ≥ 2` grid points: a deterministic run calls the drift `2k-3` times, a stochastic run of the numpy class `N(k-1) + k-2` times; the constraint and the true drift are called `k-1` times if they are called at all.
* `C96_interrupted` (Effects.lean). (a callable raises). If the construction succeeds with `n` calls in total, then aborting the call number `L+1` with the exception `e` makes the constructor raise `e` if `L < n` (nothing is caught, no object is returned) and changes nothing otherwise.
* `C96_torch_interrupted` (Effects.lean). (a callable raises, torch).
* `C96_arguments_deterministic` (Effects.lean). (arguments, deterministic). If the drifts leave the arrays they are handed alone (they may raise, keep state, draw random numbers; `U` may do anything), the calls of a successful run are determined by what is stored in the object: the drift is called on the stored slices of `Z` and `B`, the true drift on those of `Ztr`, and `U` on the clouds from which reweighting produced the stored slices.
* `C96_torch_arguments_deterministic` (Effects.lean). (arguments, torch, deterministic).
* `C96_arguments_stochastic` (Effects.lean). (arguments, stochastic). The drift sees the particles of the stored slices one at a time. (The last slice of `Z` is overwritten with `y2` afterwards and no call sees it.)
* `C96_torch_arguments_stochastic` (Effects.lean). (arguments, torch, stochastic).

### C97 Drifts that write into their argument

* `C97_forward` (InPlace.lean). (forward flow). Whatever the callables do to their arguments: the clouds `xs` the drift is called on start with all particles in `y1`; what the drift leaves of `xs_i` is stored as slice `i`, and `xs_{i+1}` is computed from it (and reweighted), with the score of `xs_i` itself.
* `C97_true_flow` (InPlace.lean). (true flow). The same for the true drift and the flow it is stored in.
* `C97_backward` (InPlace.lean). (backward flow, both modes). The first cloud the drift is called on in the backward pass has all particles in `y2`; what the drift leaves of `bs_j` is stored as slice `j ≥ 2`, `bs_{j-1}` is computed from it with the two scores estimated from `bs_j` and from the stored `Z_j` (as the forward calls have left it). Slice 0 is `y1` in any case.
* `C97_torch_forward` (InPlace.lean). (forward flow, torch).
* `C97_torch_true_flow` (InPlace.lean). (true flow, torch).
* `C97_torch_backward` (InPlace.lean). (backward flow, torch, both modes).
* `C97_end_points` (InPlace.lean). (end points). If the drift leaves its argument alone, the deterministic forward flow starts in `y1`, and the backward flow ends in `y2` (numpy).
* `C97_torch_end_points` (InPlace.lean). (end points, torch).

### C98 Devices and precision in the torch class

* `C98_estimator` (Attr.lean). The estimator works iff samples and inducing points are on the device named by `device` (the CPU if none is named), and, if the lengthscale is a number, inducing points are not less precise than the samples; otherwise `RuntimeError`. The result is on that device, in double precision.
* `C98_estimator_arrays` (Attr.lean). Arrays are moved to the device; then there is no condition.
* `C98_estimator_mixed` (Attr.lean). Samples as an array and inducing points as a tensor.
* `C98_estimator_function` (Attr.lean). The function the estimator returns for several lengthscales in a tensor works, on tensors, iff samples, inducing points, query points and also the lengthscales are on the device, and one of query points, inducing points and lengthscales is in double precision.
* `C98_estimator_function_number` (Attr.lean). With one lengthscale the function works on arrays iff samples and inducing points are on the device and the inducing points are in double precision; on tensors it never works.
* `C98_deterministic` (Attr.lean). With callables that compute on the device of their argument, the deterministic run meets no conflict of devices or precisions, on any device and for initial and target states on any device; both flows are stored on the device, in double precision. (Without the flow of the true drift.)
* `C98_stochastic` (Attr.lean). On the CPU a stochastic run (without reweighting) meets no conflict; on any other device it always fails with `RuntimeError` (as soon as there are two grid points).
* `C98_set_device` (Attr.lean). With the device chosen by `set_device` a stochastic run (without reweighting) works exactly on machines without a GPU; a deterministic run, outside Brownian-bridge reweighting, works on all machines, with its flows on the chosen device.
* `C98_true_flow` (Attr.lean). The flow of the true drift fails with `RuntimeError` on any device but the CPU.
* `C98_queries` (Attr.lean). At the first six and last five grid points the control can be queried at points on the device of the object, or on any device if the object is on the CPU; in between only at points on the device of the object. Otherwise `RuntimeError`. The control is on the device of the object, in double precision.
* `C98_coverage` (Attr.lean). The coverage check compares 0-dimensional tensors, so it accepts points on the device of the object and, across devices, whenever one of the two is the CPU; two different CUDA devices give `RuntimeError`. The answer is a tensor on the CUDA device involved, if there is one.

### C99 Gradient tracking in the torch class

* `C99_forward` (Attr.lean). After a deterministic run the forward flow takes part in automatic differentiation iff there are at least three grid points or the initial state does (in Brownian-bridge mode: or the target does); after a stochastic run iff the initial state does.
* `C99_backward` (Attr.lean). The backward flow takes part in automatic differentiation iff there are at least three grid points or the initial state or the target does.
* `C99_plots` (Attr.lean). With at least three grid points the backward flow, the control at any time index and, after a deterministic run, the forward flow cannot be turned into numpy arrays without being detached first; on the CPU they can afterwards. The estimator's results cannot either.
* `C99_estimator` (Attr.lean). Whatever the arguments, what the estimator returns takes part in automatic differentiation.

### C100 The conservative example systems

* `C100_double_well` (Potential.lean). double well. The drift is minus the derivative of the plotted potential; it vanishes exactly at -1, 0 and 1; the potential is at least -1 everywhere, with equality exactly at -1 and 1, and between the wells it has its highest value 0 exactly at 0.
* `C100_double_well_descent` (Potential.lean). double well: without noise, and with the library's step 0.001, the potential goes down in every Euler step that starts in `[-10, 10]` outside the three equilibria.
* `C100_double_well_basins` (Potential.lean). double well: noise-free Euler paths never change wells. From a start in `(0, 10]` they converge to 1, from `[-10, 0)` to -1, and from 0 they do not move; on the way they keep their sign.
* `C100_double_well_mirror` (Potential.lean). double well in the library (numpy, deterministic, no reweighting). The run from `-y1` to `-y2` with mirrored random numbers returns the mirror image of both flows of the run from `y1` to `y2`.
* `C100_banana` (Potential.lean). planar system. For every `b` the drift is minus the gradient of `(1 - x)^2 + b (y - x^2)^2`; for `b > 0` that potential is positive except at (1, 1), the only equilibrium.
* `C100_path_constraint` (Potential.lean). the path constraint of the planar system is never positive, zero exactly for particles on the line through the target, and larger for particles closer to that line.

### C101 The numbers reported about controlled runs

* `C101_control` (Measures.lean). The reported control of a repetition is the squared sum over all stored times but the last of the Euclidean norms of its controls, per step; it is never negative, and zero exactly if every control of the repetition is zero at every time but the last.
* `C101_bounds` (Measures.lean). comparison with the mean squared control `E` (the quantity named on the axis of the figures). The reported number is at least `E` and at most `E` times the number of counted times. It equals `E` exactly if at most one control is non-zero.
* `C101_constant` (Measures.lean). the reported number reaches the upper bound of `C101_bounds` for controls of constant size `c`: over `k - 1` counted times it is `(k - 1) (k - 1) c ^ 2` per step, where the mean squared control is `(k - 1) c ^ 2` per step.
* `C101_halves` (Measures.lean). the two halves. For a midpoint before the last stored time the square roots of the two halves add up to the square root of the whole, so the halves together never exceed the whole and are at least half of it.
* `C101_monotone` (Measures.lean). what the reported control depends on. If at every time but the last the controls of one run are at most as large as those of another one with as many times, so is the reported number; in particular rotating the controls of a repetition at each time, or changing the last one, changes nothing.
* `C101_scale` (Measures.lean). multiplying all controls of a repetition by `c` multiplies the reported number by `c ^ 2`.
* `C101_energy` (Measures.lean). the one-dimensional figures report the mean squared control instead: it is the lower bound of `C101_bounds`, and zero for the same runs.
* `C101_path` (Measures.lean). the path error counts the squared distances of the second coordinate to its target at all times but the last: never negative, and zero exactly if that coordinate is on target at all those times.
* `C101_end` (Measures.lean). the end error is the Euclidean distance of the last stored state to the target (an array without time points gives an IndexError); it is zero exactly if the target is hit, whatever the states before.
* `C101_nan` (Measures.lean). missing controls. With special values a NaN control counts as zero control: if no infinity occurs before the last time, the reported number is that of the array with zeros in place of NaN.
* `C101_infinite` (Measures.lean). an infinite control before the last time makes the reported number infinite, and the repetition is dropped from the comparison.
* `C101_kept` (Measures.lean). which repetitions the comparison keeps: exactly those without an infinite control before the last time whose reported number, with NaN counted as zero, is below ten million.
* `C101_lost_run` (Measures.lean). a repetition whose controls are all NaN is reported with zero control and kept; if its last state is NaN in some coordinate, its end error is NaN.

### C102 Signatures of the user's callables

* `C102_deterministic` (Signature.lean). (numpy, deterministic). Let the run succeed with callables that accept every call. With restricted signatures it gives the same object if the drift accepts a time argument and so do, with reweighting, the path constraint and, in Brownian-bridge mode with reweighting, the true drift; otherwise it raises TypeError.
* `C102_stochastic` (Signature.lean). (numpy, stochastic). Here the drift has to accept calls without time (and with time for the backward flow, as soon as there are three grid points), and the path constraint calls without time.
* `C102_torch_deterministic` (Signature.lean). (torch, deterministic). As for the numpy class.
* `C102_torch_stochastic` (Signature.lean). (torch, stochastic). The torch class calls the drift with time in both modes, but the constraint without time.
* `C102_constraint_modes` (Signature.lean). (a constraint as in the scripts). A path constraint `def U(x)` cannot be used in a deterministic run with reweighting, a constraint `def U(x, t)` not in a stochastic one, whatever else is passed; with `t` optional it fits both modes.

### C103 Onset and duration of synchronisation

* `C103_listing` (Onset.lean). For every record there is exactly one list of its complete episodes.
* `C103_not_seen` (Onset.lean). A record in which the beginning of synchronisation is not seen counts as not synchronised, in particular one that is synchronised at all times, whatever the thresholds and the times.
* `C103_always_synchronised` (Onset.lean). 
* `C103_lasting` (Onset.lean). Synchronisation that begins at index `i` and is never seen to end is reported whatever its duration: as onset the time *before* `i`, as duration the time from there to the end of the grid, as fraction of synchronised time `(k - 2 - i) / (k - i)`.
* `C103_short` (Onset.lean). Otherwise - a beginning and an end are seen - only complete episodes matter. With the analysis of six oscillators, or if the first time looked at is not synchronised, no complete episode of at least `minDur` steps means not synchronised, even if the record ends with a long synchronised episode.
* `C103_onset` (Onset.lean). If there is such an episode, `p` being the first, then the onset reported is the time *before* its beginning; the durations are those of all complete episodes, long or short, counted in *steps*; the last number is the fraction of the time from the onset on that is synchronised.
* `C103_misaligned` (Onset.lean). The analysis of two oscillators, of a record that is synchronised at the first time looked at and is seen to become synchronised later: ends and beginnings are paired wrongly. If the record ends synchronised it counts as not synchronised, whatever the episodes; if not, there is an exception for two or more complete episodes, and also for a single one if it is long enough.
* `C103_total` (Onset.lean). The analysis of six oscillators never fails, that of two never if the first time looked at is not synchronised.
* `C103_counted` (Onset.lean). Which repetitions are counted as synchronised: a beginning is seen, and either no end is seen or there is a complete episode of at least `minDur` steps; with the analysis of two oscillators, moreover, the first time looked at must not be synchronised.
* `C103_count` (Onset.lean). The number of repetitions reported as synchronised.
* `C103_fraction` (Onset.lean). The reported fraction of synchronised time never reaches one, whatever the record.
* `C103_early` (Onset.lean). The reported onset is earlier than the first synchronised time of the episode it belongs to.
* `C103_nan` (Onset.lean). Over exact arithmetic with special values: times at which the order parameter is NaN count as not synchronised, so that a run lost in NaN is seen to end its episode.

### C104 The transport solver

* `C104_not_consulted` (Solver.lean). (never consulted without reweighting). Any arithmetic, both classes.
* `C104_queries` (Solver.lean). (never consulted by queries). The control of a constructed object does not depend on the solver.
* `C104_failure` (Solver.lean). (failure). Let the solver `S` answer each problem as the solver of `env` does or fail with `e`. Then the constructor does what it did or raises `e`: a failure is not caught and leaves no object behind, and a run that returns does not depend on failures for other problems. Any arithmetic, both classes.
* `C104_numpy_problems` (Solver.lean). (problems, numpy). The solver is only asked to transport positive probability weights onto the uniform weights at a metric cost: two solvers that agree on these problems give the same outcome.
* `C104_torch_problems` (Solver.lean). (problems, torch). Here the cost is symmetric, 0 on the diagonal and scaled to the unit interval, with maximum 1 unless all particles coincide (in exact arithmetic with `0/0 = 0`).
* `C104_no_solver` (Solver.lean). (no solver). If the solver fails on every problem with `e`, as it does with a NameError in the torch class when the package POT is not installed, then a construction with reweighting (constraint given, at least two grid points, for the stochastic mode callables that accept one argument and at least two coordinates) raises `e`.

### C105 Options that are neither True nor False

* `C105_ordinary` (Flags.lean). (ordinary switches). With `True` and `False` as switches, constructors and controls are those of the other properties.
* `C105_runs` (Flags.lean). (what a run does). Unless `reweight` is true without being `True` and `brown_bridge` is true, the run is the ordinary run in which `reweight` is replaced by the truth of `reweight == True` and the other two switches by their truth value; in particular `None` acts as `False`, and `deterministic` only matters through its truth value.
* `C105_not_reweighted` (Flags.lean). (`reweight` that is not `True`). Unless `reweight == True` nothing is reweighted, however true `reweight` is: the constraint `U` does not matter (it need not even be given), and the forward flow is that of the run without reweighting.
* `C105_zero_control` (Flags.lean). (zero controls). If both `reweight` and `brown_bridge` are true but not both are `True`, the control at the first six and the last five time points (in the Python sense of indices) is identically zero, in both classes, whatever the flows are.
* `C105_missing_storage` (Flags.lean). (missing storage). If neither `reweight` nor `brown_bridge` equals `False` and one of them is false (`None`, `''`, `[]`), the object is constructed without the true-drift flow, but every control query at a valid time index asks for it and raises AttributeError.
* `C105_other_controls` (Flags.lean). (all other controls). If one of the two switches equals `False`, controls are the ordinary ones computed from `Z` and `B`; if none does, the interior ones are those of Brownian-bridge mode.
* `C105_func_out` (Flags.lean). (`func_out`). The estimators return values exactly for `func_out == False`; for every other `func_out`, also for the documented `None`, a successful call returns a function, and it is the one returned for `True`.
* `C105_odd_run` (Flags.lean). In exact arithmetic a deterministic run with `reweight='yes'`, `brown_bridge=True` and a given `f_true` always succeeds, although no constraint needs to be given.

### C106 Containers and shapes of the initial and target states

* `C106_vectors` (States.lean). (vectors, columns and longer arrays). States given as vectors with `dim` entries, as columns, as matrices with `N` equal columns, or (the target) with further entries make the same run as the plain vectors of the other properties, in both classes and all modes.
* `C106_short` (States.lean). (too few entries). If the initial state has fewer than `dim` rows, or if the target has and the grid has at least two points, no object is ever constructed, in either class and any mode.
* `C106_cloud` (States.lean). (particle clouds). A state given as a matrix with `N` columns prescribes the particles one by one: the backward flow ends at the cloud of the target, starts (after the final pin) at the cloud of the initial state, and the deterministic forward flows start at the cloud of the initial state; in both classes, with and without reweighting and bridge.
* `C106_matrix_start` (States.lean). (matrices as initial state of the numpy class). The dimension is the number of all entries, so a matrix with at least two columns (and one row) never makes an object; in deterministic runs without bridge the exception is an IndexError if the number of columns is the number of particles, and a ValueError otherwise.
* `C106_containers` (States.lean). (containers). The initial state must be a numpy array for the numpy class and a tensor for the torch class: lists raise AttributeError, tensors and arrays respectively TypeError, before anything is computed and whatever else is given; the conversion of other containers to tensors in the torch constructor is never reached. Targets may be lists, with the result of the vector with the same entries.
* `C106_target_cloud` (States.lean). (a target cloud works). Over the reals, every deterministic numpy run without reweighting and bridge, from a vector to a matrix of `N` columns as target, with the 'RBF' kernel and at least two time points, constructs; the backward flow then ends at exactly that cloud.

### C107 Shapes of the values of drift and constraint functions

* `C107_good_shapes` (FShape.lean). (numpy, shapes that broadcast). The run is the one of the functions that return the broadcast values; the object differs from it only in the functions it stores. In stochastic mode the values at single particles must broadcast too.
* `C107_torch_good_shapes` (FShape.lean). (torch, shapes that broadcast).
* `C107_scalar_g` (FShape.lean). (a number `g`). With functions whose values broadcast, the flows are those of the constructors of C01-C52 for the broadcast functions.
* `C107_bad_drift` (FShape.lean). (drift of a bad shape). If no value of `f` broadcasts, the construction raises ValueError (numpy), RuntimeError (torch) on every grid of at least two points; `U`, `f_true` and the shape of `g` do not matter.
* `C107_bad_constraint` (FShape.lean). (constraint of a bad shape). With reweighting, `U` values that do not broadcast to one number per particle raise ValueError (numpy), RuntimeError (torch); the numpy stochastic run never constructs.
* `C107_unused_functions` (FShape.lean). (functions that are not called). Without reweighting the shape of the values of `U` does not matter, and unless reweighting, `brown_bridge` and the deterministic mode are all on, neither does that of `f_true`: any functions can be put in their place.
* `C107_bad_f_true` (FShape.lean). (`f_true` of a bad shape). Deterministic reweighted bridge runs never construct.
* `C107_vector_drift` (FShape.lean). (a `(dim,)` drift). A function that returns one number per coordinate as a `(dim,)` array is accepted iff `dim = 1` or `N = dim`, and then (`dim >= 2`) the numbers are taken along the wrong axis: entry `n` becomes the drift of all coordinates of particle `n`. As a `(dim, 1)` array it is always accepted and read as intended.
* `C107_constraint_shapes` (FShape.lean). (shapes of constraints). One number for all particles and `(1, N)` arrays are accepted; a column `(N, 1)` iff `N = 1`; a `(dim, N)` array iff `dim = 1`.
* `C107_column_drift` (FShape.lean). (a column `(dim, 1)` drift `v` that does not depend on the state: the whole run). It constructs exactly what the drift with `v[a]` for coordinate `a` of every particle constructs.

### C108 Laws of the closed-loop simulations

* `C108_paths` (LoopLaw.lean). (the simulated paths). An object outside reweighted bridge mode whose flows have spread at the indices `1, ..., k-2`, a measurable drift `φ` that acts on each path separately. The loop returns whatever the normals are. There is one feedback control `c i` per time index, the same for all paths, such that the recorded controls are `c i` at the states of index `i - 1`, and the `2 n` simulated paths (`(false, j)`: controlled path `j`, `(true, j)`: uncontrolled path `j`) are Euler-Maruyama paths, the uncontrolled ones with control 0, driven by standard normals that are independent of each other over all paths and steps. The noise of a step is independent of the path up to then; the `2 n` paths are independent; the controlled paths have one law and the uncontrolled paths have one law.
* `C108_next_step` (LoopLaw.lean). (conditional law of a step; any object, any drift, paths may be coupled). Keep the uniforms and the normals read before step `i -> i + 1` fixed. All runs that return agree in the controlled states up to index `i` and the controls up to index `i + 1`, and over the remaining normals the controlled states of index `i + 1` are independent normals with mean `x + (f x + g^2 u) dt` and variance `g^2 dt`, `x` the states of index `i` and `u` the control of index `i + 1`.
* `C108_uncontrolled_same` (LoopLaw.lean). (the uncontrolled ensemble is the same for every object). Two loops that read the same normals, on any two objects with the same number of time points and with any uniforms, return the same uncontrolled paths.

### C109 Hard path constraints

* `C109_deterministic` (Hard.lean). (numpy, deterministic). If the constraint is minus infinity exactly off the non-empty set `A` of particles, the reweighted cloud consists of numbers, its mean is the weighted mean of the allowed particles and it lies in their convex hull: forbidden particles have no influence at all.
* `C109_stochastic` (Hard.lean). (numpy, stochastic). The same with weights `exp(U)`.
* `C109_torch` (Hard.lean). (torch). The same for the log-weights `u` of the torch class, unless all particles coincide.
* `C109_convex_wall` (Hard.lean). (whole run, convex walls). Let the constraint be a number inside the convex set `S` and minus infinity outside. In a deterministic construction with reweighting, whenever the step from slice `i-1` gives a cloud of numbers with at least one particle in `S`, all particles of the stored slice `i` are in `S`.
* `C109_gap` (Hard.lean). (forbidden gaps). The allowed region need not be convex, and then it is not kept: let all allowed particles sit at `p` (those in `L`) or at `q`. Unless the weights are such that the share of `p` is a whole number of particles, some new particle lies strictly between `p` and `q`, whatever plan the solver returns; numpy deterministic and stochastic mode, and torch.
* `C109_forbidden_stays` (Hard.lean). (a forbidden particle can stay). Three particles at -1, 0 and 1, the middle one forbidden, the others equally good: every optimal solver leaves all three where they are, so the middle one stays on the forbidden position.
* `C109_special_values` (Hard.lean). (special values of the constraint). The weights handed to the solver, in deterministic mode: all NaN if every particle is forbidden (0/0) or if some value is NaN; if no value is NaN and some are plus infinity, NaN for these and 0 for all others. The solver gets finite costs and the uniform target in all cases.
* `C109_torch_convex_wall` (HardTorch.lean). (whole torch run, convex walls). Let the constraint be a number inside the convex set `S` and minus infinity outside. In a deterministic torch construction with reweighting, whenever the step from slice `i` gives a cloud of numbers, not all particles in one place, with at least one particle in `S`, all particles of the stored slice `i+1` are in `S`.
* `C109_torch_convex_wall_stochastic` (HardTorch.lean). (whole torch run, stochastic mode): the same, with the constraint called with the particles only.

### C110 Positional arguments, keywords and defaults

* `C110_outcome` (Binding.lean). (outcome of every call). A call of one of these callables goes through iff it is well-formed; then every parameter has the value given by position, else by keyword, else its default. Any other call raises TypeError.
* `C110_keyword_order` (Binding.lean). (order of keywords). Permuting the keywords changes nothing.
* `C110_position_or_keyword` (Binding.lean). (position or keyword). Giving the last positional argument by keyword instead changes nothing.
* `C110_defaults` (Binding.lean). (defaults). The call with the eight required arguments, `M` last, is the deterministic run without reweighting, constraint and bridge, with the RBF kernel.
* `C110_class_switch` (Binding.lean). (switching to torch). Every call that the numpy constructor accepts is accepted by the torch constructor with the same values, and `device=None`. Conversely a call accepted by torch that does not mention `device` is accepted by numpy with the same values; one that passes `device`, by keyword or as 17th argument, raises TypeError in numpy.
* `C110_score_third_argument` (Binding.lean). (third argument of the score estimators). The same positional call means different things in the numpy and torch estimators: the third argument is `func_out` in numpy and the lengthscale in torch. By keyword it is the same everywhere.
* `C110_script_style` (Binding.lean). (calls in the style of the scripts). The nine positional arguments `t1, t2, y1, y2, f, g, N, k, M` of the constructors in the example scripts, passed to the library constructors, are accepted: the number of time points becomes the number of inducing points and the number of inducing points becomes the switch `reweight`.
* `C110_script_style_silent` (Binding.lean). (calls in the style of the scripts run silently). With at least two inducing points such a call of the library constructors is not an error, and is not reweighted either: it is the default run with as many inducing points as the script has time points, and the number of inducing points is ignored.

### C111 Score estimates, rotations and renumbered coordinates

* `C111_rotation` (Rotate.lean). With lengthscales of one size (in particular a scalar one), rotating the samples, the inducing points and the evaluation points rotates the estimated vectors.
* `C111_rotation_torch` (Rotate.lean). torch: the same for a lengthscale tensor with entries of one size.
* `C111_rotation_needs_one_size` (Rotate.lean). converse. In two dimensions the estimates commute with the quarter turn for all single samples and single inducing points only if the two lengthscales have one size: with different lengthscales per coordinate the estimator is not rotation equivariant, whatever `C`.
* `C111_renumbered_coordinates` (Rotate.lean). Renumbering the coordinates (with their lengthscales) and reflecting any of them renumbers and reflects the coordinates of the estimates, whatever the lengthscales.
* `C111_renumbered_coordinates_torch` (Rotate.lean). torch.

### C112 Stein identity, divergence and regularisation of the score estimate

* `C112_stein` (Stein.lean). Empirical Stein identity. The returned function is a combination `f = ∑ b_m k(·, z_m)`, and for every other combination `φ`: `∑_n (f(x_n) φ(x_n) + ∂_j φ(x_n)) = -(C+1e-3) ⟨φ, f⟩`, with the regularised inner product.
* `C112_divergence` (Stein.lean). The estimated score has non-positive divergence on average: whatever the samples, the sum over the samples of the derivative `∂_j` of the returned function is at most minus the sum of the squares of its values.
* `C112_divergence_torch` (Stein.lean). torch: in every coordinate.
* `C112_regularisation` (Stein.lean). Increasing `C` never increases the regularised norm of the estimate and never improves its fit to the samples.
* `C112_large_C` (Stein.lean). As `C` grows without bound the estimate tends to zero, uniformly in space: with `c = C + 1e-3` its absolute value is everywhere at most `1000 M^2 N / (|l_j| c)`.
* `C112_repeated_samples` (Stein.lean). Repeating every sample `r` times has exactly the effect of dividing the total regularisation `C + 1e-3` by `r`.

### C113 Controls and scores far from the particles

* `C113_control_fades` (Far.lean). (numpy). At interior times, outside reweighted Brownian-bridge mode, the control fades away from the particles: at a query point which in some coordinate `e` is at least `R` away from the range of both clouds, component `a` of the control is at most `250000 M^2 N (exp(-R^2/(8 sdev(b_e)^2))/sdev(b_a) + exp(-R^2/(8 sdev(z_e)^2))/sdev(z_a))`, whatever the inducing points that are drawn.
* `C113_torch_control_fades` (Far.lean). (torch, all modes).
* `C113_edge_unbounded` (Far.lean). (edge times). Near the two ends of the horizon it is the opposite: if the two clouds have different variances in coordinate `a`, that component of the control is unbounded far away from the particles; if they have equal variances it is the same at every point.
* `C113_torch_edge_unbounded` (Far.lean). (edge times, torch). The same for the torch class.
* `C113_score_fades` (Far.lean). (estimators). The function returned by the numpy score estimator fades in the same way: if `x` is at least `R` away from all inducing points in coordinate `e`, the estimate of coordinate `j` there is at most `1000 M^2 N exp(-R^2/(2 l_e^2)) / (|l_j| (C+1e-3))`.
