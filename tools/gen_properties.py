import json
F="DeterministicParticleFlowControl/DeterministicParticleFlowControl.py"
S="DeterministicParticleFlowControl/score_estimators/score_function_estimators.py"
T="DeterministicParticleFlowControl/score_estimators/score_function_estimators_pytorch.py"
R="DeterministicParticleFlowControl/kernels/RBF_pytorch.py"
W="DeterministicParticleFlowControl/reweighting/optimal_transport_reweighting.py"
P=[]
def p(title,statement,quant,why,anchors):
    P.append(dict(id="C%02d"%(len(P)+1),title=title,statement=statement,quantifier=quant,why_tests_cant=why,anchors=anchors))
p("Time grid covers the horizon",
"The timegrid of a DPFC object consists exactly of the points t1+i*dt that lie strictly below t2+dt/2: it starts at t1, is strictly increasing with spacing dt, its last point is within dt/2 of t2, and if t2-t1 is n*dt it has exactly n+1 points and ends at t2.",
"all real t1<=t2 (and all t1,t2 for the membership characterisation); exact arithmetic",
"the number of points is a ceiling of a real quotient; sampling horizons cannot cover the boundary cases for every pair",
[F+":DPFC.__init__", F+":torched_DPFC.__init__"])
p("Degenerate horizons",
"If t2+dt/2<=t1 the time grid is empty and constructing DPFC (dim>=1) raises IndexError instead of returning an object (torched_DPFC raises too); if the grid has a single point the target y2 is ignored: the backward flow is y1 at that point.",
"all configurations with that horizon, any arithmetic, any random stream",
"needs every configuration and random stream",
[F+":DPFC.backward_simulation", F+":torched_DPFC.backward_simulation"])
p("Backward flow starts at the initial state",
"Whenever construction succeeds, every particle of the time-reversed flow B sits at y1 at time index 0, in every coordinate.",
"all configurations, modes, particle numbers, drifts, constraints, random streams and any floating-point arithmetic, both numpy and torch classes",
"must hold for every drift, random stream and rounding behaviour",
[F+":DPFC.backward_simulation", F+":torched_DPFC.backward_simulation"])
p("Backward flow ends at the target",
"Whenever construction succeeds and the grid has at least two points, every particle of B sits at y2 at the last time index, in every coordinate.",
"as C03", "as C03",
[F+":DPFC.backward_simulation", F+":torched_DPFC.backward_simulation"])
p("Deterministic forward flows start at the initial state",
"In deterministic mode, whenever construction succeeds every particle of the forward flow Z (and of Ztr in Brownian-bridge mode) sits at y1 at index 0 in every coordinate; the only exception is Z with brown_bridge on a grid with a single point, where it sits at y2.",
"as C03", "as C03",
[F+":DPFC.forward_sampling_Otto", F+":DPFC.forward_sampling_Otto_true", F+":torched_DPFC.forward_sampling_Otto"])
p("Stochastic forward flow start and terminal state",
"With deterministic=False the numpy forward flow starts at y1 in coordinates 0 and 1 only, every further coordinate starts at 0 (so for dim>=3 the documented initial state is honoured iff the remaining coordinates of y1 are 0) and one-dimensional systems raise IndexError; with at least two grid points it ends exactly at y2 for numpy, while the torch class leaves the last slice as simulated.",
"all stochastic configurations, random streams and arithmetics", "every dimension, stream",
[F+":DPFC.forward_sampling", F+":torched_DPFC.forward_sampling"])
p("Brownian-bridge terminal pin is overwritten",
"In deterministic mode with at least two grid points the forward flow Z does not depend on the brown_bridge flag nor on y2: the terminal value written at the first step is always overwritten by the simulation.",
"all deterministic configurations, streams and arithmetics", "non-interference is a statement about pairs of runs",
[F+":DPFC.forward_sampling_Otto", F+":torched_DPFC.forward_sampling_Otto"])
p("Storage shape",
"After successful construction Z, B (and Ztr when reweight and brown_bridge) each hold exactly timegrid.size time slices of dim x N values, and every slice of B has been written (no slice is left at its initial zeros by accident).",
"all configurations, streams, arithmetics", "every grid size",
[F+":DPFC.__init__", F+":torched_DPFC.__init__"])
p("Deterministic forward recurrence",
"In deterministic mode the forward flow satisfies, for consecutive slices, Z[1]=R(Z[0]+dt*f(Z[0],t0)+g*sqrt(dt)*xi) with one dim x N standard normal draw, and Z[i+1]=R(Z[i]+dt*(f(Z[i],t_i)-g^2/2*s_i)) for i>=1, where s_i is the regularised kernel score estimate of the particles Z[i] with inducing points drawn uniformly from their bounding box and lengthscales twice their standard deviation, and R is the optimal-transport reweighting by exp(U*dt) (identity when reweight is False).",
"all deterministic configurations and random streams; exact arithmetic for the closed form of the score and drift times, any arithmetic for the recurrence",
"the recurrence must hold at every step of every run",
[F+":DPFC.forward_sampling_Otto", F+":DPFC.f_seperate", S+":score_function_multid_seperate"])
p("Backward recurrence",
"The time-reversed flow satisfies B[k-2]=B[k-1]-f*dt+dt*g^2*s_rho+g*sqrt(dt)*xi and, in deterministic mode, B[j]=B[j+1]-dt*(f(B[j+1],t_{j+1})-g^2*s_rho+g^2/2*s_B) for 1<=j<k-2, where s_rho is the score of the forward particles Z[j+1] and s_B of the backward particles B[j+1], both evaluated at B[j+1]; in stochastic mode the noisy form is used at every step.",
"all configurations and random streams", "must hold at every step of every run",
[F+":DPFC.backward_simulation", F+":DPFC.density_estimation", F+":DPFC.bw_density_estimation"])
p("Stochastic forward recurrence",
"With deterministic=False every particle follows the Euler-Maruyama recursion Z[i+1]=Z[i]+dt*f(Z[i])+g*sqrt(dt)*xi per particle with f called without a time argument (numpy), and, if reweight, is then transported with weights proportional to exp(U(Z)) (U called with one argument, no dt factor); a drift or constraint that requires the time argument raises TypeError.",
"all stochastic configurations and streams", "every step of every run",
[F+":DPFC.forward_sampling"])
p("True-drift flow is never reweighted",
"In deterministic Brownian-bridge reweighting mode the additional flow Ztr follows the true drift f_true with the same Euler/score recurrence as C09 but without any reweighting, and the constraint U has no influence on it other than through the position of the random stream. In the torch class, where this mode runs at all (C47), the same holds with a score estimate in which particles and coordinates are exchanged.",
"all such configurations", "every step of every run",
[F+":DPFC.forward_sampling_Otto_true", F+":DPFC.f_seperate_true"])
p("Backward flow only looks at later forward slices",
"The backward flow B depends on the forward flow only through slices 2..k-1: for any two forward flows that agree there, backward_simulation from the same random state yields the same B and the same errors; more precisely B[j] depends only on forward slices with index > j.",
"all pairs of forward flows, all configurations, any arithmetic", "a relation between all pairs of states",
[F+":DPFC.backward_simulation", F+":DPFC.density_estimation"])
p("Horizon prefix stability",
"With the same random stream, two deterministic constructions that differ only in t2 (and y2) produce forward flows that agree on their common time indices (at least two grid points, or no brown_bridge); the stochastic forward flows agree on the common indices before the last index of either run, as the last slice is overwritten with y2.",
"all pairs of horizons, configurations, streams", "relates pairs of runs of unbounded length",
[F+":DPFC.forward_sampling_Otto"])
p("Random draw budget",
"A successful deterministic numpy construction with k>=3 grid points and no Brownian bridge consumes exactly 2*dim*N standard normals and dim*M*(3k-7) uniforms; in reweighted Brownian-bridge mode 3*dim*N and dim*M*(4k-9); in stochastic mode dim*N*(2k-3) and dim*M*(k-2); calculate_u consumes none within the first 6/last 5 indices and dim*M uniforms in between.",
"all configurations, k", "for every grid size and configuration",
[F+":DPFC.__init__", F+":DPFC.f_seperate", F+":DPFC.calculate_u"])
p("Inducing points stay between the extreme particles",
"In every numpy score estimation inside backward_simulation and calculate_u the inducing points drawn for coordinate i lie between max(min Z_i,min B_i) and min(max Z_i,max B_i) (in the intersection of the particle boxes when it is non-empty, in the gap between them otherwise), in f_seperate and f_seperate_true (both classes) in the bounding box of the particles; in particular all inducing points of the first backward step have coordinate i equal to y2_i when y2_i is inside the forward box. In the torch backward simulation and control they lie in the hull of both boxes.",
"all particle clouds and all uniform draws in [0,1)", "every cloud",
[F+":DPFC.density_estimation", F+":DPFC.bw_density_estimation", F+":DPFC.f_seperate", F+":torched_DPFC.density_estimation"])
p("Score estimation never hits a singular matrix",
"For the RBF kernel with non-zero lengthscales and C>-1e-3 the matrices inverted by the score estimators are always invertible: every estimator returns a value (no LinAlgError) for every sample set and every inducing set, including repeated points.",
"all N, M, dim, samples, inducing points, lengthscales (scalar or vector), exact arithmetic", "needs positive definiteness for all point configurations",
[S+":score_function_multid_seperate", S+":score_function_multid_seperate_all_dims", T+":torched_score_function_multid_seperate_all_dims"])
p("Function output agrees with direct output",
"For the RBF kernel the function returned with func_out=True, evaluated at the samples X, equals the array returned with func_out=False.",
"all samples, inducing points, lengthscales, C; exact arithmetic", "all inputs",
[S+":score_function_multid_seperate", S+":score_function_multid_seperate_all_dims", S+":score_function_multid_seperate_old"])
p("All estimator implementations agree",
"score_function_multid_seperate(which_dim=j+1), score_function_multid_seperate_old, column j of score_function_multid_seperate_all_dims and (for C=0.001) column j of the torch estimator return the same values, at the samples and as functions; score_function_multid_seperate2 agrees with them as a function when dim=2 and can disagree when dim>=3.",
"all samples, inducing points, non-zero lengthscales, exact arithmetic", "all inputs",
[S, T, "DeterministicParticleFlowControl/score_estimators/score.py:score_function_multid_seperate2"])
p("Kernel gradient used by the estimators is the true derivative",
"The summed gradient term in the estimators is the sum over samples of the true partial derivative of the RBF kernel with respect to its first argument, whereas RBF.gradient_X (documented as that gradient) returns its negative.",
"all points, lengthscales, coordinates", "a derivative statement over the reals",
[S+":grdx_K", R+":RBF.gradient_X"])
p("Score estimate is the regularised score-matching minimiser",
"The function returned by the score estimator for coordinate d is the unique minimiser, among all combinations psi of kernels centred at the inducing points, of sum_n(psi(x_n)^2/2+d_d psi(x_n)) plus (C+1e-3)/2 times the regularised squared RKHS norm of psi; the torch estimator gives, in every coordinate, that minimiser for C=1e-3.",
"all samples, inducing points, lengthscales, C>-1e-3", "optimality over an infinite set of competitors",
[S+":score_function_multid_seperate"])
p("Score translation equivariance",
"Shifting all samples, inducing points and evaluation points by the same vector leaves the estimated score unchanged, for the numpy and the torch estimators.",
"all shifts and inputs", "all inputs",[S+":score_function_multid_seperate"])
p("Score scaling and reflection",
"Scaling samples, inducing points, evaluation points and lengthscales by s!=0 divides the estimated score by s; in particular reflecting everything flips its sign. The same for the torch estimator.",
"all s!=0 and inputs","all inputs",[S+":score_function_multid_seperate"])
p("Score permutation laws",
"Relabelling the samples permutes the values at the samples and leaves the returned function unchanged; relabelling the inducing points changes nothing. The same for the torch estimator.",
"all permutations and inputs","all permutations",[S+":score_function_multid_seperate"])
p("Score estimates are bounded",
"The estimated score function is bounded on the whole space, with explicit bound sum_m|g_m| * M/((C+1e-3)*1e-3) or better in terms of the summed kernel gradients g, hence so is the interior control.",
"all evaluation points and inputs","supremum over an infinite set",[S+":score_function_multid_seperate", F+":DPFC.calculate_u"])
p("RBF kernel matrix laws",
"RBF.Kernel and the estimators' kernel matrices have entries in (0,1] (times the signal variance), equal to 1 exactly on coinciding points, are symmetric and positive semidefinite for equal arguments, and the scalar lengthscale version equals the vector version with a constant vector.",
"all point sets and non-zero lengthscales","all point sets",[R+":RBF.Kernel", S+":K"])
p("Torch estimator ignores its C argument",
"torched_score_function_multid_seperate_all_dims returns the same result for every value of C, namely that of C=0.001.",
"all C and inputs","all values",[T])
p("RBF.gradient_X uses the cached kernel",
"RBF.gradient_X(X,Y) returns the kernel gradient for (X,Y) (up to sign) if the last Kernel call of the object was on (X,Y); after a Kernel call on other points it silently combines the stale kernel values; before any Kernel call, or without Y, it raises.",
"all call histories of an RBF object","all histories",[R+":RBF"])
p("Pairwise distance routine and parallel schedule",
"my_cdist fills output[i,j] with the (squared) Euclidean distance of r[i] and y[j], whatever the interleaving of the parallel loop iterations; at every moment every entry is either untouched or final; the option 'l1' also yields the Euclidean distance and an unknown option leaves the output untouched.",
"all inputs and all schedules of the parallel loops","all interleavings",[S+":my_cdist"])
p("which_dim selects the coordinate",
"which_dim in 1..dim selects coordinate which_dim-1; which_dim in 1-dim..0 silently aliases Python-negative coordinates (0 is the last one); all other integers raise IndexError.",
"all integers","all integers",[S+":score_function_multid_seperate"])
p("Kernel name handling",
"DPFC and torched_DPFC treat kern='periodic' exactly as kern='RBF'; any other kernel name makes construction raise as soon as k>=3 (dim>=1); score_function_multid_seperate_all_dims and _old raise for 'periodic'; the vector-lengthscale periodic kernel matrix has only negative entries, so it is not a positive kernel, unlike the scalar version.",
"all names and configurations","all strings",[F+":DPFC.__init__", S])
p("Reweighting weights",
"In deterministic reweighting the weights are a probability vector with strictly positive entries, proportional to exp(U*dt), unchanged when a constant is added to U, and increasing in U: particles with larger U get larger weight (opposite to the README's example reading of U as a cost).",
"all U values, dt>0","all inputs",[F+":DPFC.forward_sampling_Otto"])
p("Transport reweighting preserves the weighted mean and the hull",
"If the transport solver returns a coupling of the weights and the uniform distribution, the reweighted particles have as plain mean the weighted mean of the particles before, and every reweighted particle is a convex combination of the particles before; hence it stays inside every convex set containing them.",
"all particle clouds, weights, couplings","all couplings",[W+":reweight_optimal_transport_multidim", F+":DPFC.forward_sampling_Otto", F+":torched_DPFC.forward_sampling_Otto"])
p("Constant path constraint is a no-op",
"If U is constant over the particles and the transport solver returns an optimal coupling, reweighting leaves every particle where it was. Hence, without Brownian bridge, whole runs with reweight=True have the flows, random draws and exceptions of runs with reweight=False (numpy in both modes; torch in deterministic mode for every returned object).",
"all particle clouds, all optimal couplings, Euclidean or squared Euclidean cost","all clouds",[W+":reweight_optimal_transport_multidim"])
p("Control region dispatch",
"calculate_u uses the Gaussian approximation exactly for ti<=5 or ti>=k-5 and kernel scores otherwise; with k<=11 the kernel scores are never used; negative indices always take the Gaussian branch, so calculate_u(x,i-k) and calculate_u(x,i) can differ for interior i.",
"all integer ti and k","all indices",[F+":DPFC.calculate_u"])
p("Edge control is the difference of Gaussian scores",
"In the Gaussian branch the control at x equals the gradient of log N(mean B,std B) minus that of log N(mean Z,std Z) per coordinate (Ztr instead of Z in Brownian-bridge mode), whenever both standard deviations are non-zero.",
"all flows, points, indices","all inputs",[F+":DPFC.calculate_u"])
p("Control is undefined at the two end times",
"In exact arithmetic with IEEE special values, calculate_u (numpy or torch) at ti=0 (or -k) of a deterministic object returns NaN in every entry, and at ti=k-1 (or -1) returns no finite entry, because the pinned particles have zero spread.",
"all configurations, points, k>=2","all runs",[F+":DPFC.calculate_u"])
p("Layout of grid_x",
"calculate_u expects points as rows (n x dim) and returns dim x n (the transpose of the documented layout); fewer than dim columns raise IndexError (TypeError for no column at all in the kernel branch); more than dim columns are silently accepted in the Gaussian branch (extra output rows are 0) and raise IndexError in the kernel branch.",
"all shapes","all shapes",[F+":DPFC.calculate_u"])
p("Interior control is a difference of scores",
"In the kernel branch the numpy control in coordinate i is the score of B minus the score of Z at slice ti, both estimated with the same inducing points and evaluated at the given points; if B and Z coincide at ti the control is 0 (both branches).",
"all flows, points, indices","all inputs",[F+":DPFC.calculate_u"])
p("Brownian-bridge interior control evaluates at clipped points",
"In Brownian-bridge mode the numpy kernel branch evaluates the forward score not at the given points but at points clipped against mixed-up bounds: for dim=2 the first coordinate used for the first control component is never positive; for dim>=3 it raises ValueError and for dim=1 IndexError.",
"all flows and points","all inputs",[F+":DPFC.calculate_u"])
p("Control queries do not modify the object",
"calculate_u and check_if_covered leave Z, B, Ztr and the grid unchanged, so any sequence of queries sees the same flows; in the Gaussian branch repeated calls give identical results whatever happened in between.",
"all query histories","all histories",[F+":DPFC.calculate_u", F+":DPFC.check_if_covered"])
p("Coverage check (numpy)",
"check_if_covered(X,ti) is true iff in every coordinate X lies in both the forward and the backward particle range at ti.",
"all flows, points and indices","all inputs",[F+":DPFC.check_if_covered"])
p("Coverage check (torch) is weaker",
"The torch check_if_covered is true iff in every coordinate X lies in the hull of the union of both ranges; it is implied by the numpy one, but can be true for points outside both flows.",
"all flows, points","all inputs",[F+":torched_DPFC.check_if_covered"])
p("Torch and numpy edge control differ by the factor (N-1)/N",
"On identical flows, for N>=2, the torch Gaussian-branch control is (N-1)/N times the numpy one (sample vs population variance); torch lengthscales are sqrt(N/(N-1)) times the numpy ones.",
"all flows, points","all inputs",[F+":DPFC.calculate_u", F+":torched_DPFC.calculate_u"])
p("Torch construction needs spread",
"torched_DPFC in deterministic mode with at least three grid points raises whenever some coordinate of the forward particles has no spread after the first step; in particular always for N=1, and for g=0 with a drift that acts particle by particle (exact arithmetic).",
"all configurations and streams","all runs",[F+":torched_DPFC.f_seperate"])
p("Torch class cannot handle one-dimensional systems",
"torched_DPFC with dim=1 and at least three grid points never constructs successfully.",
"all configurations and streams","all runs",[F+":torched_DPFC.density_estimation", T])
p("Torch Brownian-bridge mode fails on shapes",
"torched_DPFC with reweight and brown_bridge, deterministic, at least three grid points and dim>=2, N>=2, N!=dim never constructs successfully.",
"all configurations and streams","all runs",[F+":torched_DPFC.f_seperate_true"])
p("Stochastic numpy mode has a degenerate terminal density",
"With deterministic=False, k>=3 and exact arithmetic with IEEE special values, the first backward score estimate divides 0 by 0: construction either raises or all backward slices strictly between the endpoints are NaN in every entry (dim>=2, M>=1).",
"all stochastic numpy configurations and streams","all runs",[F+":DPFC.forward_sampling", F+":DPFC.density_estimation"])
p("True-drift storage is never filled in stochastic mode",
"With reweight, brown_bridge and deterministic=False the Ztr array of the resulting object is all zeros although calculate_u reads it.",
"all such configurations","all runs",[F+":DPFC.__init__", F+":DPFC.calculate_u"])
p("Ignored constructor options",
"reject and dens_est (and f_true unless reweight and brown_bridge; U unless reweight) have no influence on the constructed object's flows.",
"all values of these options","pairs of runs",[F+":DPFC.__init__"])
p("Whole-run translation equivariance",
"Shifting y1,y2 by a vector and conjugating drift and constraint accordingly shifts the complete flows Z and B (and the true-drift flow in deterministic mode) by that vector, with the same random stream and the same exceptions (transport solver returning couplings when reweighting; in stochastic mode the vector must vanish in coordinates 2,3,..., which that sampler starts at 0 whatever y1 is). The same holds for the torch class with dim>=2 outside deterministic Brownian-bridge mode.",
"all configurations, shifts, streams; exact arithmetic","pairs of runs",[F+":DPFC", F+":torched_DPFC"])
p("Time-shift equivariance",
"Shifting t1,t2 and the time dependence of drift and constraint by the same amount leaves all flows (and exceptions) unchanged, for both classes.",
"all configurations, shifts; exact arithmetic","pairs of runs",[F+":DPFC", F+":torched_DPFC"])
p("Accepted shapes of the diffusion coefficient",
"In deterministic mode (and in torch in both modes) construction with at least two grid points raises (numpy ValueError, torch RuntimeError) for every g that does not broadcast to dim x N, and for every g that does it follows the recurrences with each entry of g used as the coefficient of one coordinate of one particle: scalars, (1,), (N,), (dim,1), (1,N), (dim,N), any further leading axes of length 1; arrays with equal broadcast coefficients are interchangeable. A dim x dim diffusion matrix is rejected unless dim=1 or N=dim (where it is applied elementwise, not as a matrix), contrary to the README. The stochastic numpy sampler needs g to broadcast to (dim,) and the backward simulation to dim x N, so with dim>=2, N!=dim and at least three grid points only single-entry arrays are accepted.",
"all array shapes and values, all configurations and random streams","all shapes",[F+":DPFC.forward_sampling_Otto", F+":DPFC.forward_sampling", F+":DPFC.backward_simulation", F+":torched_DPFC.forward_sampling_Otto"])
p("Documented matrix arguments of the coverage check",
"The docstring of check_if_covered documents X as 1 x dim or K x dim; for dim>=2 such a call always raises (numpy ValueError, torch RuntimeError), and for dim=1 a K x 1 array is accepted but only its first point is checked. A point given as a column (dim x 1) is accepted and answered like the flat point.",
"all flows, all arrays X, all valid indices","all arrays",[F+":DPFC.check_if_covered", F+":torched_DPFC.check_if_covered"])
p("Change of the length unit",
"Expressing the whole problem in the coordinates s*x+v with s>0 (start, end, drift, noise strength and constraint converted) transforms all flows accordingly, with the same random stream and exceptions; with reweighting the numpy class needs a transport solver insensitive to the unit of the costs, the torch class does not (it normalises the cost matrix); the torch deterministic reweighted Brownian-bridge mode is excepted (its true-drift score exchanges coordinates and particles, see C12).",
"all configurations, s>0, shifts, streams; exact arithmetic","pairs of runs",[F+":DPFC", F+":torched_DPFC"])
p("A returned forward flow contains no NaN",
"If the constructor (numpy or torch, at least three grid points) returns, no entry of the forward flow is NaN in deterministic mode, and no entry from time index 2 on in stochastic mode: an exploding drift or a NaN argument makes construction raise (the score-corrected drift of a cloud with a NaN raises OverflowError in numpy, or IndexError in one dimension, where the attempt to plot the exploding flow fails; ValueError in torch), and in the numpy class every interior forward slice even has finite coordinate ranges.",
"all configurations, drifts, random streams; any arithmetic with IEEE special values","all runs, all NaN positions",[F+":DPFC.f_seperate", F+":torched_DPFC.f_seperate"])
p("NaN in the backward flow is absorbing and silent",
"A particle of the backward flow with a NaN coordinate at some time index is NaN in all coordinates at all earlier indices but the first (which is reset to y1); in deterministic mode a single NaN turns all particles into NaN. No exception reports this: runs exist whose returned backward flow is NaN everywhere between its end points.",
"all configurations, drifts, random streams, time indices; any arithmetic with IEEE special values","all runs, all NaN positions",[F+":DPFC.backward_simulation", F+":torched_DPFC.backward_simulation"])
p("Periodic kernel: moving points around the circle",
"With kern='periodic', adding integer multiples of 2*pi to any coordinates of samples and inducing points does not change the array output (nor whether it raises) for vector lengthscales in any dimension and for scalar lengthscales in one dimension (there also the function output, including its query points). It fails for scalar lengthscales in two dimensions and for the function output with vector lengthscales. With a scalar lengthscale the function output at the samples is the array output.",
"all samples, inducing points, integer shifts, C, lengthscales; exact arithmetic; no sample sharing the coordinate with an inducing point","all real inputs and shifts",[S+":score_function_multid_seperate"])
p("Periodic kernel: what is estimated and when it is singular",
"With kern='periodic', a scalar lengthscale and one-dimensional data both outputs exist for every C>-1e-3 and equal the regularised score estimate with the periodic kernel (whose gradient term is the true derivative). With a vector lengthscale the estimate uses the negated kernel: it raises LinAlgError exactly if one of the two resulting matrices is singular, which does happen for distinct inducing points, as it does for scalar lengthscales in two dimensions; with one inducing point the function output at the samples has the opposite sign of the array output, and in one dimension the function output always raises.",
"all samples, inducing points, C, lengthscales; exact arithmetic; no sample sharing the coordinate with an inducing point","all real inputs",[S+":score_function_multid_seperate"])
p("Periodic kernel: coinciding coordinates give NaN",
"With kern='periodic', if some sample has the same finite value as some inducing point in the selected coordinate (in particular when a sample is used as inducing point) every component of the array output, and of the function output at every query point, is NaN.",
"all samples, inducing points, C, lengthscales; any arithmetic with IEEE special values","all inputs",[S+":score_function_multid_seperate"])
p("Control and coverage do not depend on coordinates, unit or time origin",
"If the constructor returns for a problem, it returns for the problem rewritten in coordinates s*x+v (s>0), calculate_u at the converted points gives the control divided by s, check_if_covered gives the same answers, and queries raise the same exceptions and use the same random numbers; shifting the time origin changes neither control nor coverage. (In reweighted Brownian-bridge mode the unit change holds for the numpy class in deterministic runs at the edge indices only.)",
"all configurations, s>0, shifts, time shifts, query arrays, time indices, streams; exact arithmetic","pairs of runs and queries",[F+":DPFC.calculate_u", F+":DPFC.check_if_covered", F+":torched_DPFC.calculate_u", F+":torched_DPFC.check_if_covered"])
p("Only differences of the path constraint between particles matter",
"Adding to the path constraint U any term that is the same for all particles (a constant, a function of time, or a function of the whole cloud) leaves flows, random stream and exceptions of both constructors unchanged.",
"all configurations, constraints, added terms, streams; exact arithmetic","pairs of runs",[F+":DPFC.forward_sampling_Otto", F+":DPFC.forward_sampling", F+":torched_DPFC.forward_sampling_Otto", F+":torched_DPFC.forward_sampling"])
p("Complete outcome table of the numpy constructor",
"Whether the numpy constructor returns, and otherwise which exception it raises, is decided by the number of grid points, the dimension, the mode flags, the kernel name and the arities of the user functions; it does not depend on the random stream or on any numerical value (transport solver not raising, C accepted, exact arithmetic). This counts 0/0 as 0; the one further outcome that NaN adds in deterministic mode, an exception after a cloud of a forward flow lost its spread, is C65.",
"all configurations with at least one particle, all streams; exact arithmetic","all configurations",[F+":DPFC.__init__"])
p("Complete outcome table of the torch constructor",
"Whether the torch constructor returns, and otherwise which exception it raises, is decided by the number of grid points, the shapes (dim, N, M), the mode flags, the kernel name and the arities of the user functions, with one exception: a ValueError, which needs at least three grid points and means that a cloud of the simulated forward flow (or of the true-drift flow) lost its spread in some coordinate. Without Brownian bridge the deterministic constructor raises ValueError exactly if that happens (with reweighting: given a transport solver that returns couplings).",
"all configurations with at least one particle and inducing point, all streams; exact arithmetic","all configurations",[F+":torched_DPFC.__init__", F+":torched_DPFC.f_seperate", F+":torched_DPFC.density_estimation"])
p("Exact-arithmetic results and IEEE special values",
"A deterministic run of the numpy class in an arithmetic with NaN and infinities is the run in exact arithmetic, slice by slice and up to the same final generator state, as long as every cloud whose spread is used as a lengthscale has spread in every coordinate. If a cloud of the forward flow (or of the true-drift flow in Brownian-bridge mode) loses its spread before the last steps, no object is returned although every argument is valid: OverflowError in two or more dimensions, IndexError from the plotting branch in dimension one. In particular, with three or more grid points deterministic mode never works with a single particle, nor with noise strength 0 and a drift acting particle by particle. Likewise calculate_u has the outcome of the exact query (result, exception, generator state) at every index where both flows have spread, and check_if_covered always. The same holds for deterministic runs of the torch class with three or more grid points (not with reweighting and Brownian bridge together; with reweighting, a solver that returns transport plans), where only the backward clouds have to have spread, and for its queries. A deterministic torch run (dimension at least two, at least two particles and three grid points, known kernel, no reweighting) that raises in exact arithmetic raises ValueError, and raises ValueError in the larger arithmetic as well.",
"all configurations with at least one particle, dimension and inducing point, all streams, every arithmetic that contains the exact one and follows the IEEE rules for NaN","all inputs and streams, and every arithmetic",[F+":DPFC.__init__", F+":DPFC.f_seperate", F+":DPFC.density_estimation", F+":DPFC.bw_density_estimation", "DeterministicParticleFlowControl/score_estimators/score_function_estimators.py"])
p("The number and position of time points does not depend on rounding",
"In arithmetic that rounds after every operation (relative error at most 2^-50, which binary64 satisfies), whenever t2 - t1 is n*dt up to a quarter of a step (times at most 10^9 in absolute value) every constructed object, numpy or torch, has exactly n+1 time points: no slice is lost or added at the end of the horizon. The first point of the numpy grid is exactly t1; point i of the numpy grid is within u*(i+1)*(2|t1|+1) of t1 + i*dt, point i of the torch grid within u*(|t1| + i/50). With 53-bit rounding and |t1| <= 1 the first 100000 numpy points are strictly increasing and within a thousandth of a step of their exact place.",
"all configurations with finite times up to 10^9 in absolute value, all step counts n, all random streams, and every arithmetic with relative rounding error at most 2^-50","floating-point rounding differs for every pair of end times; a test checks a few horizons only",[F+":DPFC.__init__", F+":torched_DPFC.__init__"])
p("The closed-loop simulation is Euler-Maruyama with the queried controls",
"The example's loop, which steps an ensemble with the controls from calculate_u, simulates dX = f dt + g^2 u dt + g dW (and the same equation without u) from y1 on all but the last time point, with u the control for index i at the states of index i-1 and independent normals for the two ensembles; the recorded controls at the first and the last index are zero. Outside reweighted bridge mode it always runs to the end when both flows have spread at the inner indices; it never looks at the first and the last slice of the flows; without noise or with equal flows control changes nothing; converting solve and simulation to other coordinates or another time origin converts the paths.",
"all objects, drifts, noise strengths, starts, numbers of paths, random streams and time grids with at least two points; all scalings, translations and time shifts","the simulated states feed back into the queries, so no test covers the possible histories; every random stream and drift has its own",["notebooks/Stochastic_bridge_on_Limit_Cycle_2D/Bridge_2D_on_Limit_Cycle.py:loop over timegrid", F+":DPFC.calculate_u"])
p("Outcome of queries on a constructed object",
"On an object returned by the constructor, whether calculate_u(x, ti) returns, and otherwise which exception it raises, is decided by the number of grid points, the dimension, the number of columns of x, the mode and ti: IndexError for ti outside [-k, k); at the edge indices IndexError if x has fewer than dim columns and otherwise a result; between the edges (numpy) only points with exactly dim columns work, in reweighted bridge mode only for dim=2, with TypeError (no column), IndexError or ValueError otherwise; (torch) dim columns or a single broadcast column work, all else is RuntimeError, and ValueError is raised exactly if all particles of both clouds coincide in some coordinate, which never happens for deterministic objects outside bridge mode. check_if_covered raises IndexError exactly for an index out of range or a point with fewer than dim entries.",
"all constructed objects with at least one particle and dimension, all point arrays, all integers ti, all streams; exact arithmetic","all shapes, indices and modes",[F+":DPFC.calculate_u", F+":DPFC.check_if_covered", F+":torched_DPFC.calculate_u", F+":torched_DPFC.check_if_covered"])
p("Continuous dependence on states, drift and noise",
"With the generator state held fixed, deterministic runs without reweighting depend continuously on initial state, target state, drift and noise amplitude: if these approach given arguments at which the clouds of the run have spread, then (numpy) all constructions return, the generator ends in the same state, and every stored number of the forward and backward flow approaches that of the limit run; (torch) if the limit construction returns then so do all nearby ones, with the same conclusions. The control returned by calculate_u approaches the control of the limit object when query points and flows do; in particular it is continuous in the query point at every index whose clouds have spread. Small-noise limit: as g tends to 0 the flows tend to the noise-free ones.",
"all argument families with a limit along any filter, all streams, all grid sizes, particle and inducing-point numbers; exact arithmetic","limits over infinitely many runs",[F+":DPFC", F+":torched_DPFC", F+":DPFC.calculate_u", F+":torched_DPFC.calculate_u"])
p("Mirror images and relabellings",
"No coordinate, axis direction, particle or inducing point is preferred. In deterministic mode (both classes, exact arithmetic), posing the problem with exchanged and mirrored coordinates (initial and target state and drift transformed accordingly), and feeding the random numbers in the corresponding order (normals with the corresponding signs, uniforms u replaced by 1-u in mirrored coordinates), gives exactly the transformed forward and backward flows on the same time grid; calculate_u at the transformed points then returns the transformed control. Reweighting (numpy also in bridge mode) keeps the symmetry if the path constraint and the true drift are transformed too and the transport solver does not depend on the numbering of the particles: same exception, or corresponding flows. In particular a mirror-symmetric system run with mirrored random numbers gives mirrored flows.",
"all coordinate exchanges and mirrorings, all renumberings of particles and inducing points, all drifts, streams, grid sizes","symmetry over all inputs and streams",[F+":DPFC", F+":torched_DPFC", F+":DPFC.calculate_u", F+":torched_DPFC.calculate_u"])
p("Laws of the noisy steps of deterministic runs",
"If the normals consumed by the library are independent standard normals, then in deterministic mode without reweighting the first computed forward slice Z[:,:,1] consists of independent normal particles with mean y1 + dt f(y1,t1) and variance g^2 dt per coordinate; and, given the forward flow, slice k-2 of the backward flow consists of independent normals with variance g^2 dt around y2 - dt f(y2,t) + g^2 dt * (score estimate of the last forward slice at y2). Both classes; whether a torch run returns is decided before the backward noise is drawn.",
"all configurations, generator states, uniforms; exact arithmetic","statement about the distribution over all random streams",[F+":DPFC", F+":DPFC.forward_sampling_Otto", F+":DPFC.backward_simulation", F+":torched_DPFC"])
p("Stochastic mode is an Euler-Maruyama chain",
"With deterministic=False (no reweighting, dim>=2, N>=2, g!=0, measurable drift) and independent standard normals the torch constructor returns with probability one, and the stored forward flow is an Euler-Maruyama chain Z(j+1) = Z(j) + dt f(Z(j),t_j) + g sqrt(dt) xi_j from y1, with independent standard normal noises, each independent of the past. If the drift acts on each particle separately, the particle paths are independent and identically distributed; without drift slice j is normal around y1 with variance j g^2 dt (coordinates beyond the second start in 0). The numpy class with a drift callable without a time: the same for all slices but the last, for every stream and N>=1, with f(Z(j)) particle by particle (so the particles are always independent and identically distributed); the last slice is y2 whatever the chain did.",
"all drifts, configurations, generator states, uniforms; exact arithmetic","almost-sure and distributional statement over all random streams",[F+":torched_DPFC", F+":torched_DPFC.forward_sampling", F+":DPFC", F+":DPFC.forward_sampling"])
p("Symmetries in law, exchangeable particles",
"With independent standard normals and uniforms, posing a deterministic problem without reweighting in mirrored/exchanged coordinates gives flows with exactly the transformed joint law (on the event that the clouds keep their spread; for the torch forward flow unconditionally, including the probability that construction returns). In particular, if the drift acts on each particle separately, particles are exchangeable: renumbering them by any permutation does not change the joint law of forward and backward flow. All this persists with reweighting (numpy also in bridge mode; exceptions and their probabilities included) if path constraint and true drift are transformed too and the transport solver does not depend on the numbering of the particles.",
"all coordinate symmetries, permutations, drifts, events over the flows; exact arithmetic","equality of distributions over all random streams",[F+":DPFC", F+":torched_DPFC"])
p("Displacement per step and keeping spread",
"In deterministic mode without reweighting a flow step from a cloud with spread moves every particle by dt f (backward: -dt f) up to an explicit constant 125 g^2 M^2 N (backward: plus 250 g^2 M^2 N) over the standard deviation(s) of the cloud(s) in that coordinate, for both classes. Hence, if the drift pulls two particles apart strongly enough once they are D apart and they are D apart after the first noisy step, they stay D apart in all later slices, the clouds keep their spread, and the torch constructor returns; similarly for the backward flow.",
"all drifts, streams, grid sizes, particle numbers; exact arithmetic","bound over all inputs and unbounded runs",[F+":DPFC", F+":DPFC.forward_sampling_Otto", F+":DPFC.backward_simulation", F+":torched_DPFC"])
H="notebooks/Kuramoto_synchronisation/systematic_multi_N_kuramoto_inhomogeneous_for_cluster.py"
p("Flows of angles stay on the circle",
"The phase-oscillator class of the Kuramoto example (BRIDGE_ND_reweight): after any construction that returns, every slice of both flows except index 0 has all entries in [0, 2 pi). With k the number of grid points (>= 2) both flows have k slices, the forward flow starts in a Gaussian cloud around y1 (variance g/2, not reduced modulo 2 pi), the backward flow ends exactly in y1 and starts from the last forward slice. With fewer slices than grid points it never returns; with more, the forward terminal cloud is ignored (the backward flow starts from phase 0). With particles, coordinates, RBF kernel, enough slices and a solver that returns plans it returns; with the default constraint and reweighting it raises TypeError.",
"all drifts, constraints, solvers, grids, slice numbers, generator states; exact arithmetic","ranges over all inputs and unbounded runs",[H+":BRIDGE_ND_reweight"])
p("Recurrences of the angle flows",
"The construction draws N x dim normals for the initial cloud, then follows the stated recurrences: first forward step noisy, later ones dt (f - g^2/2 score), every result reduced modulo 2 pi and, with reweighting, transported with log-weights U (no factor dt) and cost squared distance over its maximum; the backward flow computes B[j] from B[j+1] and the forward slice j (same index), drift at time j+1, noisy for j = k-2. If the solver returns couplings the transport replaces entries by weighted means of the representatives in [0, 2 pi), so that the final reduction changes nothing; two particles just left and right of angle 0 can both be moved to angle pi.",
"all drifts, constraints, solvers, particle numbers, grid sizes, generator states; exact arithmetic","equality of whole unbounded runs with a specification",[H+":BRIDGE_ND_reweight", H+":BRIDGE_ND_reweight.forward_sampling_Otto", H+":BRIDGE_ND_reweight.backward_simulation", H+":BRIDGE_ND_reweight.density_estimation"])
p("The Kuramoto drift",
"The drift of the script, for one state or an ensemble, is w_j + (K/d) sum_i sin(x_i - x_j): it depends only on the angles, is invariant under common rotations, equivariant under renumbering, equals w_j + K R sin(psi - x_j) with the order parameter R and one mean phase psi (so the coupling is at most |K| R), is the gradient of (K d/2) R^2 apart from w, sums to the sum of the frequencies (0 for an even number of the script's bimodal frequencies, +-freq for an odd one), and is w for synchronised oscillators.",
"all phases, frequencies, couplings, numbers of oscillators; exact arithmetic","universally quantified identities",[H+":f", H+":ws"])
p("Order parameter and synchronisation constraint",
"R_t(x) is the modulus of the mean of exp(i x_j): in [0,1], equal to 1 exactly if all phases are the same angle, invariant under rotations, renumbering and multiples of 2 pi. The constraint is R - 1, in [-1, 0]; the resulting weights lie between 1/(e N) and e/N and are ordered like R. In a returning construction of the script every forward slice is transported with exactly these log-weights, the particles moving with the Kuramoto field.",
"all phases, ensembles, returning constructions; exact arithmetic","universally quantified identities and whole-run statement",[H+":R_t", H+":U", H+":BRIDGE_ND_reweight.forward_sampling_Otto"])
p("Starting angles modulo 2 pi",
"If the drift depends only on angles, changing entries of y1 by multiples of 2 pi changes only index 0 of the two flows: all other slices, the random state afterwards and (for the script) all controls at indices >= 1 are the same.",
"all angle drifts, integer shifts, configurations, generator states; exact arithmetic","relates two whole runs, for all inputs",[H+":BRIDGE_ND_reweight"])
p("Closed loop of coupled oscillators",
"The simulation loop of the script: every run that returns is an Euler-Maruyama simulation on the circle of dX = f dt + g^2 u dt + g dW and of the uncontrolled equation with independent noise, u being the control for index i at the state of index i-1; states after the start are in [0, 2 pi), recorded order parameters are those of the states, in [0,1] and 0 at the first and last index; the last column of the path arrays stays NaN and the last control zero; the branch for the last index is never taken. If the backward flow has spread at indices 1..k-2 the loop returns.",
"all drifts, objects, grids, generator states; exact arithmetic (last column: any arithmetic)","invariant over unbounded runs",[H+":Fcont", H+":BRIDGE_ND_reweight.calculate_u"])
p("Controls and coverage of the phase-oscillator class",
"calculate_u at an index with slices returns the score estimate of the backward cloud minus that of the forward cloud at every point, both with the lengthscales of the backward cloud and the same inducing points, with no special branch near the ends; it is zero where the flows agree, in particular at the last index (-1 or k-1); out-of-range indices raise IndexError. check_if_covered is True exactly if in every coordinate there are forward and backward particles on both sides.",
"all objects, indices, numbers of points, generator states; exact arithmetic","universally quantified over states and queries",[H+":BRIDGE_ND_reweight.calculate_u", H+":BRIDGE_ND_reweight.check_if_covered"])
p("Importing the package",
"At this commit `import DeterministicParticleFlowControl` (or any of its submodules) never succeeds, whatever third-party packages are installed: the torch score estimator is imported unconditionally by score_estimators/__init__.py and refers to a package score_estimators.kernels that does not exist; in a new interpreter the exception is ImportError. The same holds from inside the package directory, where only kernels, reweighting and utils can be imported. With the path corrected to ..kernels the package imports exactly if numpy, scipy, numba, matplotlib, torch, pyemd and duecredit are installed (the guards for a missing torch or numba have no effect, only ot is optional), and no number of leading dots works both for the package and from inside its directory.",
"all sets of installed packages, all interpreter states in which no module of the package is loaded","quantifies over environments and loaded modules",["DeterministicParticleFlowControl/__init__.py","DeterministicParticleFlowControl/DeterministicParticleFlowControl.py","DeterministicParticleFlowControl/score_estimators/__init__.py","DeterministicParticleFlowControl/score_estimators/score_function_estimators_pytorch.py:RBF"])
E="DeterministicParticleFlowControl/score_estimators/"
p("Lists of lengthscales of the wrong length (numpy)",
"A list of m lengthscales, m smaller than the number of columns, is accepted by the estimators for one dimension (which_dim <= m): they return, for every kernel and arithmetic, what they return for the data with the remaining columns deleted, so the score of the marginal of the first m coordinates. In exact arithmetic with the RBF kernel and at most as many entries as columns they return exactly if which_dim counts an entry of the list from the front or the back, otherwise IndexError; the estimator for all dimensions returns exactly if there is one entry per column, otherwise IndexError; the older estimators raise IndexError for too many entries.",
"all data, lists, which_dim, kernels","universally quantified over lengths, data and dimensions",[E+"score_function_estimators.py:score_function_multid_seperate", E+"score_function_estimators.py:score_function_multid_seperate_all_dims", E+"score_function_estimators.py:score_function_multid_seperate_old", E+"score.py:score_function_multid_seperate2"])
p("Lengthscales of any shape in the torch kernel and estimator",
"The torch estimator accepts a list of one lengthscale per column or a single one; in one dimension it silently accepts several, returning L^2/l_0^2 times the estimate for the combined lengthscale 1/L^2 = sum 1/l_k^2; every other length raises RuntimeError (IndexError for an empty list in one dimension). The RBF class with a number and multil=True raises IndexError; with an array and the flag forgotten it can be constructed, and then uses entry j for point j instead of coordinate j: Kernel(X, Y) returns exactly if the number of entries equals the number of points of Y or one of them is 1; gradient_X then is not the gradient of the kernel unless the lengthscales have the same absolute value.",
"all data, numbers of points, columns and lengthscales; exact arithmetic","universally quantified over shapes and data",[E+"score_function_estimators_pytorch.py:torched_score_function_multid_seperate_all_dims","DeterministicParticleFlowControl/kernels/RBF_pytorch.py:RBF"])
p("Consistency of the score estimate",
"For pairwise independent samples of a law that charges every open set, fixed distinct inducing points, non-zero lengthscales and any C > -1/1000, the RBF estimates (one dimension, all dimensions, torch, values and returned function) converge almost surely, uniformly in the evaluation point, as the number of samples grows. The limit does not depend on C: it is the unique minimiser of E[s^2 + 2 ds/dx_j] among combinations of the kernels at the inducing points; if the law has a positive density with square-integrable score, it is the best mean-square approximation of the true score, and equals it if the true score is such a combination.",
"all dimensions, laws, inducing points, lengthscales, C; almost every infinite sequence of samples","a limit over infinitely many samples, almost surely",[E+"score_function_estimators.py:score_function_multid_seperate", E+"score_function_estimators.py:score_function_multid_seperate_all_dims", E+"score_function_estimators_pytorch.py:torched_score_function_multid_seperate_all_dims"])
p("The limit-cycle example scripts",
"In script_1.py, Bridge_2D_on_Limit_Cycle.py and test_torch_bridge_on_LC.py: the drift is a rotation plus sigma^2/2 times the script's analytic gradient glnfss(x, sigma), which is the gradient of the logarithm of exp(-(r^2-1)^2/(2 sigma^2)), a stationary solution of the Fokker-Planck equation. The reference path is the Euler-Maruyama path from x0 with two normals per step; without noise its squared radius settles geometrically and monotonically at a value between 1+dt/2 and 1+dt if it starts in (0, 300], and explodes from 2002 on. If the path is long enough for the indices used, the numpy scripts get an object with steps+1 time points whose backward flow leads between the two chosen states of the path (IndexError otherwise), the torch script the same or ValueError after a loss of spread; which index the times are taken from does not change the flows; with spread at the inner time points the example runs to its end and simulates the system with and without controls.",
"all random streams, numbers of particles and inducing points, numbers of steps, path lengths, indices, starts and noise strengths; exact arithmetic","whole script runs for every random stream and length",["DeterministicParticleFlowControl/script_1.py","notebooks/Stochastic_bridge_on_Limit_Cycle_2D/Bridge_2D_on_Limit_Cycle.py","DeterministicParticleFlowControl/tests/test_torch_bridge_on_LC.py"])
p("Phenotype example: rejection of backward paths",
"In the BRIDGE_ND_reweight class of plot_c_elegans_differentiation_2D_systematic.py, reject=True keeps, in their order and with all their time points, exactly the backward paths whose first coordinate one step after the start is closer than 4 g^2 sqrt(dt) to that of one Euler step of the drift from y1 (the second coordinate is not tested), and changes nothing else: the paths before rejection, the forward flow, the grid and the random state afterwards are those of reject=False. Rejection never makes a construction fail. With g = 0 no path is kept, and every later control or coverage query raises ValueError. A grid with fewer than two points raises IndexError and a state with fewer than two coordinates never gives an object.",
"all random streams, particle and inducing point numbers, drifts, endpoints and noise strengths, dimensions at least two (below two for the last clause); exact arithmetic","for every ensemble of paths",["DeterministicParticleFlowControl/data/scripts_for_plots/nonconservative_system_2D/plot_c_elegans_differentiation_2D_systematic.py:BRIDGE_ND_reweight.reject_trajectories","DeterministicParticleFlowControl/data/scripts_for_plots/nonconservative_system_2D/plot_c_elegans_differentiation_2D_systematic.py:BRIDGE_ND_reweight.__init__"])
p("Phenotype example: flows and control",
"The BRIDGE_ND_reweight class of the phenotype script: with the RBF kernel and without reweighting it always gives an object on grids of two or more points; its forward flow starts in y1 and follows the deterministic particle recurrence (first step noisy), the pin to y2 at the last index being overwritten; the backward paths end in y2, obey the backward recurrence with the forward slice of the same index as the slice computed, start in y1, and the random stream is threaded from one flow to the other. reweight=True always raises (TypeError if U is not callable, NameError otherwise); another kernel raises NameError from three points on. calculate_u at an index returns the difference of the scores of kept backward and forward particles, both with the lengthscales of the backward ones, with inducing points in the common box; check_if_covered is membership in the common box.",
"all random streams, particle and inducing point numbers, drifts, endpoints, noise strengths, grids, query points and indices; exact arithmetic, recurrences for clouds with spread","for every random stream and grid length",["DeterministicParticleFlowControl/data/scripts_for_plots/nonconservative_system_2D/plot_c_elegans_differentiation_2D_systematic.py:BRIDGE_ND_reweight.forward_sampling_Otto","DeterministicParticleFlowControl/data/scripts_for_plots/nonconservative_system_2D/plot_c_elegans_differentiation_2D_systematic.py:BRIDGE_ND_reweight.backward_simulation","DeterministicParticleFlowControl/data/scripts_for_plots/nonconservative_system_2D/plot_c_elegans_differentiation_2D_systematic.py:BRIDGE_ND_reweight.calculate_u","DeterministicParticleFlowControl/data/scripts_for_plots/nonconservative_system_2D/plot_c_elegans_differentiation_2D_systematic.py:BRIDGE_ND_reweight.check_if_covered"])
p("Phenotype example: drift and linearisation",
"The drift of the phenotype script is the two-gene circuit with self-activation, mutual inhibition and decay; with nonzero thresholds and p2 = p4 Euler steps of length at most 1 keep [0,2]^2; with the script's thresholds (1,1) is a fixed point and (1.996, 0.004) is one up to 1e-4 but not exactly. The diagonal of gradfs and divf is not the derivative of the drift except where x = 0 or p^4 + x^4 = 1 (at the target -1 instead of -225/289); the off-diagonal entries are the derivatives if p2^4 = p4^4. The linearised mean is the Euler path of the linearised drift from y2 (constant at a fixed point), the right-hand side of the covariance equation is A C + C A^T + I, with noise 1 whatever the noise strength g of the run, and keeps symmetry.",
"all thresholds (nonzero where a quotient could vanish), states and ensembles; exact arithmetic","identities and inequalities over all real states",["DeterministicParticleFlowControl/data/scripts_for_plots/nonconservative_system_2D/plot_c_elegans_differentiation_2D_systematic.py:f","DeterministicParticleFlowControl/data/scripts_for_plots/nonconservative_system_2D/plot_c_elegans_differentiation_2D_systematic.py:divf","DeterministicParticleFlowControl/data/scripts_for_plots/nonconservative_system_2D/plot_c_elegans_differentiation_2D_systematic.py:gradfs","DeterministicParticleFlowControl/data/scripts_for_plots/nonconservative_system_2D/plot_c_elegans_differentiation_2D_systematic.py:flin","DeterministicParticleFlowControl/data/scripts_for_plots/nonconservative_system_2D/plot_c_elegans_differentiation_2D_systematic.py:flin_var"])
p("Phenotype example: closed loop",
"Each repetition of the phenotype script that returns is an Euler-Maruyama simulation of dX = f dt + g^2 u dt + g dW from y1 together with an uncontrolled one with independent noise, where u at step i is the control of the bridge for index i at the state of index i-1, except in the last four steps, where it is -C^{-1}(x - m) with the stored linearised covariance and mean at the number 4, 3, 2, 1 of remaining steps. It returns if at least one backward path was kept and these covariances are invertible; if no path was kept it raises ValueError in the first step. The arrays collecting the repetitions have the size of the bridge's grid iff the horizon is a multiple of 0.001 or exceeds one by more than half a step; otherwise the script raises.",
"all random streams, numbers of particles, inducing points, repetitions and time points, thresholds, covariances and noise strengths; exact arithmetic","whole script runs for every random stream and length",["DeterministicParticleFlowControl/data/scripts_for_plots/nonconservative_system_2D/plot_c_elegans_differentiation_2D_systematic.py"])
p("Phenotype example, path integrals: simulation and weights",
"In the path-integral comparison of the phenotype script (lines 700-898) every iteration that is reached simulates dX = f dt + g u dt + g dW with the polynomial control of the coefficients stored under its number, continuing the random stream; coefficients at the last time index are always zero, and the first iteration is uncontrolled. The path weights are normalised exponentials of minus running cost minus end cost, positive with sum one. The end cost compares every coordinate of the end point with every coordinate of the target: with equal weights all points of a whole square are best, with unequal ones the unique best end point has both coordinates equal to one and the same coordinate of the target. The running-cost factor is the likelihood ratio of uncontrolled and controlled transitions times exp((1/g - 1) sum u e), so an importance weight only for g = 1.",
"all random streams, numbers of paths, time points and iterations, basis orders up to 15, thresholds, noise strengths, pseudo-inverse routines; exact arithmetic","for every iteration and random stream",["DeterministicParticleFlowControl/data/scripts_for_plots/nonconservative_system_2D/plot_c_elegans_differentiation_2D_systematic.py:uf_pice","DeterministicParticleFlowControl/data/scripts_for_plots/nonconservative_system_2D/plot_c_elegans_differentiation_2D_systematic.py:phi2","DeterministicParticleFlowControl/data/scripts_for_plots/nonconservative_system_2D/plot_c_elegans_differentiation_2D_systematic.py:bas"])
p("Phenotype example, path integrals: fit, stopping, annealing",
"An iteration of the path-integral fit always returns; it stops exactly if the mean end point is within 0.01 of the target in both coordinates. Otherwise it stores under the next number, for every time index, the old coefficients plus eta times the shortest weighted least-squares coefficients predicting noise/dt from the monomials of the state (for an exact pseudo-inverse), and changes no other coefficients. The end-cost weight of a coordinate grows by 25% exactly if more than 50 iterations are done, the recorded means 50 and 1 iterations ago differ by less than 0.049 and its counter is not positive (the second coordinate only if the first is not raised); so before iteration i it is (5/4)^m with 51 m + 1 <= i if m > 0.",
"all reachable states of the iteration, numbers of paths and time points, basis orders up to 15; exact arithmetic","for every iteration number and reachable state",["DeterministicParticleFlowControl/data/scripts_for_plots/nonconservative_system_2D/plot_c_elegans_differentiation_2D_systematic.py:uf_pice","DeterministicParticleFlowControl/data/scripts_for_plots/nonconservative_system_2D/plot_c_elegans_differentiation_2D_systematic.py"])
p("Phenotype example, path integrals: the whole run",
"With max_iter >= 2 and a nonempty grid the path-integral run always returns (NameError for max_iter <= 1, IndexError for an empty grid). It ends with an iteration that stopped or with iteration max_iter - 2; the control used afterwards has the coefficients with which that last iteration was simulated, so that the last fit is not used if the run was not stopped. The final paths follow dX = f dt + g^2 u dt + g dW although the fit simulated f + g u: they are simulations of the fit with coefficients multiplied by g. Controls are recorded one time index after the state they are computed from.",
"all random streams, numbers of fitting and final paths, time points, iterations, basis orders up to 15 for the final paths; exact arithmetic","whole runs of every length and random stream",["DeterministicParticleFlowControl/data/scripts_for_plots/nonconservative_system_2D/plot_c_elegans_differentiation_2D_systematic.py"])
p("Gaussian theory script: drift, covariance equations and scores",
"In the linear-Gaussian theory script the drift of every state is -2 K C x and, for symmetric C and positive semidefinite K, never increases x^T C x to first order. The right-hand side of the covariance equation does not contain the drift matrix C (the function argument hides it): it is -2 (K S S + S S K) + s s^T, which differs from the covariance equation of the drift by -2 (K (S - C) S + S (S - C) K); with s s^T = K it is in equilibrium at I/2 whatever C, the true equation at C^-1/4. With correlated traits of different variances the equation of the uncorrelated theory is asymmetric for every symmetric argument. The score of a symmetric positive semidefinite stored covariance never raises and is the gradient of the log density of a normal distribution with covariance C + 1e-6 I (-1e6 (x - m) for zero covariance); it raises LinAlgError exactly where C^T + 1e-6 I is singular.",
"all dimensions, states, noise and drift matrices, means and covariances; exact arithmetic","for all matrices and states",["DeterministicParticleFlowControl/data/scripts_for_plots/evolutionary_process/gaussian_phenotype_compute_theoretical.py:f","DeterministicParticleFlowControl/data/scripts_for_plots/evolutionary_process/gaussian_phenotype_compute_theoretical.py:f_var","DeterministicParticleFlowControl/data/scripts_for_plots/evolutionary_process/gaussian_phenotype_compute_theoretical.py:f_var0","DeterministicParticleFlowControl/data/scripts_for_plots/evolutionary_process/gaussian_phenotype_compute_theoretical.py:grad_log_p_Gauss"])
p("Gaussian theory script: simulation of the controlled bridges",
"With as many stored means and positive semidefinite covariances as time points the simulation returns on every nonempty grid. Both ensembles start in y1 and follow the Euler-Maruyama scheme with step 1/1000, the correlated drift -2 K C x and the correlated noise matrix: the ensemble of the uncorrelated theory only differs in its control. The noises are consecutive parts of the random stream, those of the uncorrelated ensemble first. The mean over the repetitions follows the same recursion with the mean noise. If the forward mean starts in y1, the first control is the pull towards the last mean of the flow from the target.",
"all random streams, dimensions, numbers of repetitions and time points; exact arithmetic","for every length and random stream",["DeterministicParticleFlowControl/data/scripts_for_plots/evolutionary_process/gaussian_phenotype_compute_theoretical.py:u","DeterministicParticleFlowControl/data/scripts_for_plots/evolutionary_process/gaussian_phenotype_compute_theoretical.py:u0","DeterministicParticleFlowControl/data/scripts_for_plots/evolutionary_process/gaussian_phenotype_compute_theoretical.py"])
p("What the user's callables see",
"The constructors call the user's drift, true drift and path constraint, which may have side effects (raise, keep state, draw random numbers, write into their argument). Whatever they do, the calls follow a fixed schedule: in a deterministic run, for every grid point t_i after the first one the drift at t_i - dt, then (with reweighting) the constraint at t_i; in Brownian-bridge reweighting mode afterwards the true drift at every t_i - dt; then the drift at t_{k-1}, ..., t_2. In a stochastic run of the numpy class the drift is called without time once per particle and step, the constraint without time. An exception raised by a callable is what the constructor raises, and only an initial part of the schedule has been carried out. With k >= 2 grid points a deterministic run calls the drift 2k-3 times, a stochastic numpy run N(k-1)+k-2 times. If the drifts leave their arguments alone, the arguments are the slices stored in the object in the end. For plain functions the object is the one described by the other properties.",
"all callables with any side effects, random streams, configurations and states of the world","the callables are arbitrary programs",[F+":DPFC.__init__",F+":DPFC.forward_sampling_Otto",F+":DPFC.backward_simulation",F+":torched_DPFC.__init__"])
p("Drifts that write into their argument",
"The arrays handed to the drift are views of the stored flows. A drift that writes into its argument changes the stored flow: slice i of the forward flow is what the drift has left of the cloud it was called on, the next cloud is computed from these leftovers, while the score used in that step has been estimated from the contents before the call. The same holds for the flow of the true drift and for slices 2, ..., k-1 of the backward flow; slice 0 of the backward flow is y1 in any case, and the last slice of the forward flow is never handed to the drift. If the drift leaves its argument alone, the forward flow starts in y1 and the backward flow ends in y2; a drift that zeroes its argument makes both fail.",
"all callables with any side effects, random streams and configurations with at least two grid points","the callables are arbitrary programs",[F+":DPFC.forward_sampling_Otto",F+":DPFC.forward_sampling_Otto_true",F+":DPFC.backward_simulation",F+":torched_DPFC.forward_sampling_Otto",F+":torched_DPFC.backward_simulation"])
p("Devices and precision in the torch class",
"The torch estimator at the samples works iff samples and inducing points are on the device named by `device` (CPU if none) and, if the lengthscale is a number, the inducing points are not less precise than the samples; otherwise RuntimeError; arrays are moved to the device. The function it returns for a tensor of lengthscales moreover needs query points and lengthscales on the device and one of query points, inducing points, lengthscales in double precision; for one lengthscale it needs double precision inducing points and never works on tensors. A deterministic run of the torch class works on every device (callables computing on the device of their argument), for states on any device, and stores both flows there in double precision; a stochastic run and Brownian-bridge reweighting always fail with RuntimeError on any device but the CPU. A control query at the first six or last five grid points accepts points on the object's device, or on any device if the object is on the CPU; in between only on the object's device. The coverage check fails only for two different CUDA devices. With the device chosen by `set_device` stochastic runs work exactly on machines without a GPU.",
"all devices, precisions, dimensions >= 2, grid sizes, options, callables that compute on the device of their argument, query points","several devices, all combinations of devices and precisions, all grid sizes",[":torched_DPFC.__init__",":torched_DPFC.forward_sampling",":torched_DPFC.forward_sampling_Otto_true",":torched_DPFC.calculate_u",":torched_DPFC.check_if_covered","/score_estimators/score_function_estimators_pytorch.py:torched_score_function_multid_seperate_all_dims","/kernels/RBF_pytorch.py:RBF"])
p("Gradient tracking in the torch class",
"With callables without trainable parameters, the forward flow of a deterministic run of the torch class takes part in automatic differentiation (requires_grad) iff there are at least three grid points or the initial state does (or the target, in Brownian-bridge mode); that of a stochastic run iff the initial state does. The backward flow does iff there are at least three grid points or one of the two states does. So with three or more grid points the backward flow, every control and (deterministic run) the forward flow cannot be turned into numpy arrays, for instance for plotting, without detaching; nor can any result of the estimator.",
"all devices, dimensions >= 2, grid sizes, options, callables without trainable parameters, query points and times","all grid sizes and options",[":torched_DPFC.forward_sampling_Otto",":torched_DPFC.forward_sampling",":torched_DPFC.backward_simulation",":torched_DPFC.calculate_u","/kernels/RBF_pytorch.py:RBF.__init__"])
p("The conservative example systems",
"The drift of the double-well scripts is minus the derivative of their potential; it vanishes exactly at -1, 0, 1, and the potential is lowest exactly at -1 and 1. Without noise each Euler step with the library's step 0.001 from [-10, 10] lowers the potential outside the equilibria, and paths never change wells: they converge to 1 from (0, 10], to -1 from [-10, 0). In the library, mirrored end states and mirrored random numbers give the mirror image of both flows. The drift of the planar scripts is minus the gradient of (1-x)^2 + b(y-x^2)^2 with (1,1) as only equilibrium; their path constraint is never positive, zero exactly on the line through the target, and larger for particles closer to it.",
"all states, starting points in [-10, 10], numbers of steps, constants b, end states, generators, particles and inducing points","all starting points, step counts and random numbers",["DeterministicParticleFlowControl/data/scripts_for_plots/double-well/plot_extreme_double_well.py:f","DeterministicParticleFlowControl/data/scripts_for_plots/double-well/plot_extreme_double_well.py:V","DeterministicParticleFlowControl/data/scripts_for_plots/double-well/plot_non_extreme_double_well.py:f","DeterministicParticleFlowControl/data/scripts_for_plots/conservative_system_2D/plot_2d_evolutionary_UPDATED-fig2-of-paper-nmore.py:f","DeterministicParticleFlowControl/data/scripts_for_plots/conservative_system_2D/plot_2d_evolutionary_UPDATED-fig2-of-paper-nmore.py:U_path","DeterministicParticleFlowControl/data/scripts_for_plots/conservative_system_2D/plot_2d_evolutionary_UPDATED-fig2b-of-paper-nmore.py:f"])
p("The numbers reported about controlled runs",
"The reported control of a repetition is the squared sum of the Euclidean norms of its controls at all stored times but the last, per step: never negative, zero exactly if all those controls vanish, quadratic under scaling, unchanged by rotations and by the last control. It lies between the mean squared control (reported by the one-dimensional scripts) and that times the number of counted times; the lower bound is reached exactly if at most one control is non-zero, the upper one by controls of constant size. The square roots of the two halves add up to that of the whole. Path error and end error are zero exactly on target. NaN controls count as zero, so a repetition lost in NaN is reported with zero control and kept, while one infinite control makes the number infinite and the repetition is dropped.",
"all stored arrays of controls and paths, dimensions, numbers of repetitions and times, midpoints, durations, steps; entries may be NaN or infinite","all arrays, special values included",["DeterministicParticleFlowControl/data/scripts_for_plots/conservative_system_2D/plot_2d_evolutionary_UPDATED-fig2-of-paper-nmore.py:dpf_df","DeterministicParticleFlowControl/data/scripts_for_plots/conservative_system_2D/plot_2d_evolutionary_UPDATED-fig2b-of-paper-nmore.py:dpf_df","DeterministicParticleFlowControl/data/scripts_for_plots/nonconservative_system_2D/plot_c_elegans_differentiation_2D_systematic.py:controls","DeterministicParticleFlowControl/data/scripts_for_plots/double-well/plot_extreme_double_well.py:controls","DeterministicParticleFlowControl/data/scripts_for_plots/double-well/plot_non_extreme_double_well.py:controls"])
p("Signatures of the user's callables",
"Whether drift, true drift and path constraint accept the time argument matters as follows, for callables of any kind. A deterministic run calls them with time: if one it needs does not accept time, it raises TypeError, otherwise the signatures change nothing. A stochastic run of the numpy class calls the drift without time forward and with time backward (from three grid points on), the constraint without time; the torch class calls the drift with time and the constraint without. So a constraint `U(x)`, as in the scripts, fails in deterministic runs with reweighting, `U(x, t)` in stochastic ones, and only an optional time fits both.",
"all callables, signatures, configurations, random streams and states of the world; at least two grid points","all callables and signatures",[":DPFC.forward_sampling",":DPFC.forward_sampling_Otto",":DPFC.backward_simulation",":torched_DPFC.forward_sampling",":torched_DPFC.forward_sampling_Otto",":torched_DPFC.backward_simulation"])
p("Onset and duration of synchronisation",
"The analysis scripts turn a record of the order parameter into an onset time and durations. Only the times 1..k-3 are looked at. A record whose beginning of synchronisation is not seen, in particular one that is synchronised throughout, counts as not synchronised. If a beginning but no end is seen, the onset is reported whatever the duration, and the duration is in time units up to the end of the grid. If both are seen, only complete episodes matter: the onset is that of the first one with the minimum number of steps, the durations are those of all complete episodes and are in steps; an unfinished last episode, however long, is ignored. The reported onset is one time step before the first synchronised time, the reported fraction of synchronised time is strictly between 0 and 1. The script for two oscillators pairs beginnings and ends wrongly if the first time looked at is synchronised: it then counts the record as not synchronised or raises IndexError or ValueError. NaN counts as not synchronised.",
"all records, time grids of the same length, thresholds and minimum durations","all records",["notebooks/Kuramoto_synchronisation/analyse_systematic_homogeneous_Kuramoto_2N.py:onset_cont","notebooks/Kuramoto_synchronisation/analyse_systematic_inhomogeneous_Kuramoto_6N.py:onset_cont"])
p("The transport solver",
"Without reweighting, and in control queries, the optimal transport solver is never consulted. With reweighting it is only asked to transport positive probability weights onto the uniform weights, in the numpy class at a metric cost, in the torch class at a symmetric cost scaled to [0,1] that vanishes on the diagonal and attains 1 unless all particles coincide: two solvers that agree on these problems give the same run. A failure of the solver is what the constructor raises; a solver that fails on some problems either changes nothing or makes the constructor raise its exception. With no working solver (POT not installed: NameError in the torch class) every construction with reweighting and at least two time points raises its exception.",
"all solvers, configurations and random streams; problems in exact arithmetic, the rest in any arithmetic","quantifies over all solvers and all runs",[F+":DPFC.forward_sampling_Otto",F+":DPFC.forward_sampling",F+":torched_DPFC.forward_sampling_Otto",F+":torched_DPFC.forward_sampling","DeterministicParticleFlowControl/reweighting/optimal_transport_reweighting.py:reweight_optimal_transport_multidim"])
p("Options that are neither True nor False",
"The switches reweight, brown_bridge and deterministic may be any Python object with a truth value. deterministic acts by its truth value; nothing is reweighted unless reweight == True, so that a true value such as 2 or 'yes' silently gives the flows without reweighting, independent of U; None acts as False in the constructors. Controls look at the switches differently: if reweight and brown_bridge are both true but not both equal to True, the control at the first six and last five time points is identically zero; if neither equals False and one of them is false (None), the object is constructed but every control query raises AttributeError; if one equals False controls are the ordinary ones. The estimators return values only for func_out == False; for the documented None they return the function they return for True.",
"all switch values, configurations, random streams and query points; any arithmetic","quantifies over all runs and option values",[F+":DPFC.__init__",F+":DPFC.calculate_u",F+":torched_DPFC.__init__",F+":torched_DPFC.calculate_u","DeterministicParticleFlowControl/score_estimators/score_function_estimators.py:score_function_multid_seperate","DeterministicParticleFlowControl/score_estimators/score_function_estimators_pytorch.py:torched_score_function_multid_seperate_all_dims"])
p("Containers and shapes of the initial and target states",
"Initial and target states given as vectors, as columns, as matrices with N equal columns, or (target) with extra entries make the same run as the plain vectors. A target with fewer than dim entries never makes an object on grids of two or more points. A matrix with N columns prescribes the particles one by one: the flows begin and the backward flow ends at exactly the given clouds, and a numpy run from a vector to such a target cloud constructs. For the numpy class the dimension is the number of all entries of y1, so an initial matrix with two or more columns never constructs (IndexError if it has N columns, otherwise ValueError, in deterministic runs without bridge). y1 must be an array for the numpy class and a tensor for the torch class: lists raise AttributeError and the other library's arrays TypeError at once, the conversion code of the torch constructor being unreachable; targets may be lists.",
"all states, containers, configurations and random streams; any arithmetic (real for the existence of runs)","quantifies over all shapes and runs",[F+":DPFC.__init__",F+":DPFC.forward_sampling_Otto",F+":DPFC.backward_simulation",F+":torched_DPFC.__init__",F+":torched_DPFC.forward_sampling_Otto",F+":torched_DPFC.backward_simulation"])
p("Shapes of the values of drift and constraint functions",
"If all values of f, f_true and U (and g) have shapes that broadcast to (dim, N), respectively to (N,), a construction makes exactly the flows of the functions that return the broadcast values. If no value of f broadcasts, the construction raises ValueError (numpy) or RuntimeError (torch) on any grid of two or more points; with reweighting the same holds for U, and deterministic reweighted bridge runs never construct with an f_true of bad shape. Functions that a run does not call may return anything. A drift that returns one number per coordinate as a (dim,) array is accepted only if dim = 1 or N = dim, and in the latter case the numbers are applied to particles instead of coordinates; as a (dim, 1) column it is always read as intended. Constraints may return a number or a (1, N) array; a column (N, 1) only for N = 1.",
"all user functions with array values of any shapes, all configurations and random streams; any arithmetic","quantifies over all functions, shapes and runs",[F+":DPFC.__init__",F+":DPFC.forward_sampling",F+":DPFC.forward_sampling_Otto",F+":DPFC.forward_sampling_Otto_true",F+":DPFC.backward_simulation",F+":torched_DPFC.__init__",F+":torched_DPFC.forward_sampling_Otto",F+":torched_DPFC.backward_simulation"])
p("Laws of the closed-loop simulations",
"For a fixed object outside reweighted bridge mode whose flows have spread, a drift acting on each path separately and fixed uniforms, the closed loop of the example returns for all normals, and there is one feedback control per time index such that the recorded controls are its values at the previous states and all controlled and uncontrolled paths are Euler-Maruyama paths of dX = f dt + g^2 u dt + g dW driven by standard normals independent over paths and steps. The noise of each step is independent of the path so far, all paths are independent, the controlled ones identically distributed and likewise the uncontrolled ones. For any object, mode and drift, given the past the next controlled states are independent normals with mean x + (f + g^2 u) dt and variance g^2 dt. With the same normals the uncontrolled paths are the same for every object with as many time points.",
"all objects, drifts, starts, noise strengths, uniforms and tapes of normals; real arithmetic","statements about probability distributions over all random streams",["notebooks/Stochastic_bridge_on_Limit_Cycle_2D/Bridge_2D_on_Limit_Cycle.py",F+":DPFC.calculate_u"])
p("Hard path constraints",
"A constraint U that is minus infinity on some particles and a number on at least one other gives the forbidden particles no influence: if the transport solver returns couplings, the reweighted cloud consists of numbers, its mean is the weighted mean of the allowed particles and it lies in their convex hull (numpy deterministic and stochastic, and torch unless all particles coincide). So a convex wall holds: in a deterministic construction, whenever the step gives a cloud of numbers with at least one particle in the convex allowed set, every particle of the stored slice is in it; the same for whole torch runs in both modes, for steps that do not put all particles in one place. A non-convex allowed region is not kept: if the allowed particles sit at two points p and q and the share of p is not a whole number of particles, some new particle lies strictly between p and q whatever plan the solver returns; three equally spaced particles with the middle one forbidden are all left where they are by every optimal solver. If every particle is forbidden, or some value is NaN, all weights handed to the solver are NaN; if some value is plus infinity and none is NaN, these weights are NaN and all others 0.",
"all clouds, constraints, allowed sets, solvers and runs; reals with infinities and NaN","holds for every cloud, weight vector and transport plan",[F+":DPFC.forward_sampling_Otto",F+":DPFC.forward_sampling",F+":torched_DPFC.forward_sampling_Otto",W+":reweight_optimal_transport_multidim"])
p("Positional arguments, keywords and defaults",
"A call of the two constructors or of the score estimators goes through iff it has not too many positional arguments, gives each keyword once, names only existing parameters not already filled by position, and gives every parameter without default; then each parameter has the value given by position, else by keyword, else its default, and any other call raises TypeError. The order of keywords does not matter, and the last positional argument can be given by its name instead. The call with the eight required arguments is the unreweighted deterministic run with RBF kernel and no constraint. Every call the numpy constructor accepts is accepted by the torch constructor with the same values and device=None; the converse holds iff device is not passed, which numpy refuses with TypeError. The third positional argument of the score estimators is func_out in numpy but the lengthscale in torch. The nine positional arguments of the constructors in the example scripts (..., N, k, M) are accepted by the library constructors, with k taken as the number of inducing points and M as the switch reweight; if M is at least 2 the run is silently the default run with k inducing points, without reweighting.",
"all argument lists and keyword dictionaries","quantifies over all calls",[F+":DPFC.__init__",F+":torched_DPFC.__init__","DeterministicParticleFlowControl/score_estimators/score_function_estimators.py","DeterministicParticleFlowControl/score_estimators/score_function_estimators_pytorch.py"])
p("Score estimates, rotations and renumbered coordinates",
"With a scalar lengthscale, or lengthscales of one size, rotating (or reflecting) samples, inducing points and evaluation points by an orthogonal matrix rotates the estimated score vectors, at the samples and as a function, for the numpy and the torch estimators. With two different lengthscales this fails: in the plane the estimates commute with the quarter turn only if the two lengthscales have one absolute value. Whatever the lengthscales, renumbering the coordinates together with their lengthscales, and reflecting any of them, renumbers and reflects the coordinates of the estimates.",
"all orthogonal matrices, renumberings, samples, inducing points, evaluation points, lengthscales and C>-1e-3","quantifies over all inputs and all rotations",["DeterministicParticleFlowControl/score_estimators/score_function_estimators.py:score_function_multid_seperate_all_dims","DeterministicParticleFlowControl/score_estimators/score_function_estimators_pytorch.py"])
p("Stein identity, divergence and regularisation of the score estimate",
"The returned score function f of coordinate j satisfies, for every combination phi of the kernels at the inducing points, sum_n (f(x_n) phi(x_n) + d_j phi(x_n)) = -(C+1e-3) <phi,f> with the regularised RKHS inner product. Hence, whatever the samples, the sum over the samples of d_j f is at most minus the sum of f^2 (the noise term of the flow spreads particles on average), for numpy and torch. Increasing C never increases the regularised norm of f and never improves its fit to the samples; as C grows f tends to zero uniformly in space, at most 1000 M^2 N/(|l_j|(C+1e-3)). Repeating every sample r times is the same as dividing C+1e-3 by r.",
"all samples, inducing points, lengthscales, C>-1e-3, test combinations","quantifies over all inputs and an infinite set of test functions",["DeterministicParticleFlowControl/score_estimators/score_function_estimators.py:score_function_multid_seperate","DeterministicParticleFlowControl/score_estimators/score_function_estimators_pytorch.py"])
p("Controls and scores far from the particles",
"At interior times the control fades away from the particles: at a query point that in some coordinate e is at least R away from the range of both clouds, component a of calculate_u is at most 250000 M^2 N (exp(-R^2/(8 s_e^2))/s_a + exp(-R^2/(8 t_e^2))/t_a), with s and t the standard deviations of the backward and the reference cloud, whatever inducing points are drawn (numpy outside the reweighted bridge mode; torch in all modes with sample deviations). So a trajectory that has left both clouds is not steered back. The score functions fade in the same way away from their inducing points. Near the two ends of the horizon it is the opposite: if the variances of the two clouds differ in a coordinate, that component of the control grows beyond every bound; if they are equal it is the same at every point.",
"all objects, interior or edge times, query points, distances and random streams","quantifies over all query points and random streams",[F+":DPFC.calculate_u",F+":torched_DPFC.calculate_u",S+":score_function_multid_seperate"])
with open("/verif/properties.jsonl","w") as fo:
    for q in P: fo.write(json.dumps(q)+"\n")
print(len(P))
