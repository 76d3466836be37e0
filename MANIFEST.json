{
 "claims": [
  {
   "property": "C01",
   "status": "proved",
   "theorems": [
    "DPFC.C01_grid_points",
    "DPFC.C01_grid_shape"
   ],
   "note": "Modelled: exact real arithmetic. Proof: `arange` as list of `t1+i*dt`, length by `Nat.ceil`; ceiling inequalities."
  },
  {
   "property": "C02",
   "status": "proved",
   "theorems": [
    "DPFC.C02_empty_horizon_raises",
    "DPFC.C02_torch_empty_horizon_raises",
    "DPFC.C02_empty_grid_raises",
    "DPFC.C02_single_point_ignores_target",
    "DPFC.C02_single_point_constructs"
   ],
   "note": "Modelled: any arithmetic (operations uninterpreted). Proof: loop invariants over the time loops of forward / backward sampling."
  },
  {
   "property": "C03",
   "status": "proved",
   "theorems": [
    "DPFC.C03_backward_flow_starts_at_y1"
   ],
   "note": "Modelled: any arithmetic (operations uninterpreted). Proof: loop invariants over the time loops of forward / backward sampling."
  },
  {
   "property": "C04",
   "status": "proved",
   "theorems": [
    "DPFC.C04_backward_flow_ends_at_y2"
   ],
   "note": "Modelled: any arithmetic (operations uninterpreted). Proof: loop invariants over the time loops of forward / backward sampling."
  },
  {
   "property": "C05",
   "status": "proved",
   "theorems": [
    "DPFC.C05_forward_flows_start_at_y1",
    "DPFC.C05_single_point_brownian_bridge"
   ],
   "note": "Modelled: any arithmetic (operations uninterpreted). Proof: loop invariants over the time loops of forward / backward sampling."
  },
  {
   "property": "C06",
   "status": "proved",
   "theorems": [
    "DPFC.C06_stochastic_start",
    "DPFC.C06_initial_state_honoured_iff",
    "DPFC.C06_stochastic_one_dim_raises",
    "DPFC.C06_stochastic_end",
    "DPFC.C06_torch_forward_ignores_target"
   ],
   "note": "Modelled: any arithmetic (operations uninterpreted). Proof: forward_sampling loop invariant; counterexample dim 3."
  },
  {
   "property": "C07",
   "status": "proved",
   "theorems": [
    "DPFC.C07_forward_sampler_ignores_bridge",
    "DPFC.C07_forward_flow_ignores_bridge"
   ],
   "note": "Modelled: any arithmetic (operations uninterpreted). Proof: two-run simulation argument over the Otto loop (agree on all slices except the last until it is overwritten)."
  },
  {
   "property": "C08",
   "status": "proved",
   "theorems": [
    "DPFC.C08_storage_sizes",
    "DPFC.C08_every_slice_written"
   ],
   "note": "Modelled: any arithmetic (operations uninterpreted). Proof: length invariant; frame lemma for each loop."
  },
  {
   "property": "C09",
   "status": "proved",
   "theorems": [
    "DPFC.C09_forward_recurrence",
    "DPFC.C09_torch_forward_recurrence"
   ],
   "note": "Modelled: any arithmetic (operations uninterpreted), exact real arithmetic. Proof: refinement of the loops to a recurrence relation over slices with explicit random states; closed form of score at layer R."
  },
  {
   "property": "C10",
   "status": "proved",
   "theorems": [
    "DPFC.C10_full_run",
    "DPFC.C10_backward_recurrence",
    "DPFC.C10_torch_full_run"
   ],
   "note": "Modelled: any arithmetic (operations uninterpreted), exact real arithmetic. Proof: refinement of the loops to a recurrence relation over slices with explicit random states; closed form of score at layer R."
  },
  {
   "property": "C11",
   "status": "proved",
   "theorems": [
    "DPFC.C11_stochastic_recurrence",
    "DPFC.C11_drift_needs_time_raises",
    "DPFC.C11_constraint_needs_time_raises",
    "DPFC.C11_torch_stochastic_recurrence"
   ],
   "note": "Modelled: any arithmetic (operations uninterpreted), exact real arithmetic. Proof: refinement of the loops to a recurrence relation over slices with explicit random states; closed form of score at layer R."
  },
  {
   "property": "C12",
   "status": "proved",
   "theorems": [
    "DPFC.C12_true_flow_ignores_constraint",
    "DPFC.C12_true_flow_recurrence",
    "DPFC.C12_torch_true_flow"
   ],
   "note": "Modelled: any arithmetic (operations uninterpreted), exact real arithmetic. Proof: refinement of the loops to a recurrence relation over slices with explicit random states; closed form of score at layer R."
  },
  {
   "property": "C13",
   "status": "proved",
   "theorems": [
    "DPFC.C13_backward_ignores_first_slices",
    "DPFC.C13_backward_slice_needs_only_later",
    "DPFC.C13_torch_backward_slice_needs_only_later"
   ],
   "note": "Modelled: any arithmetic (operations uninterpreted). Proof: two-run simulation."
  },
  {
   "property": "C14",
   "status": "proved",
   "theorems": [
    "DPFC.C14_horizon_prefix",
    "DPFC.C14_torch_horizon_prefix",
    "DPFC.C14_stochastic_horizon_prefix",
    "DPFC.C14_torch_stochastic_horizon_prefix"
   ],
   "note": "Modelled: any arithmetic (operations uninterpreted). Proof: two-run simulation."
  },
  {
   "property": "C15",
   "status": "proved",
   "theorems": [
    "DPFC.C15_draw_budget",
    "DPFC.C15_draw_budget_bridge",
    "DPFC.C15_draw_budget_stochastic",
    "DPFC.C15_torch_draw_budget",
    "DPFC.C15_torch_draw_budget_bridge",
    "DPFC.C15_torch_draw_budget_stochastic",
    "DPFC.C15_control_draws",
    "DPFC.C15_torch_control_draws"
   ],
   "note": "Modelled: any arithmetic (operations uninterpreted). Proof: random state instrumented with draw counters; sum over loop."
  },
  {
   "property": "C16",
   "status": "proved",
   "theorems": [
    "DPFC.C16_forward",
    "DPFC.C16_backward",
    "DPFC.C16_between_bounds",
    "DPFC.C16_first_backward_step",
    "DPFC.C16_control",
    "DPFC.C16_control_bridge",
    "DPFC.C16_true_flow",
    "DPFC.C16_torch_forward",
    "DPFC.C16_torch_backward",
    "DPFC.C16_torch_control"
   ],
   "note": "Modelled: exact real arithmetic. Proof: arithmetic of `lo+(hi-lo)*u`, properties of min/max."
  },
  {
   "property": "C17",
   "status": "proved",
   "theorems": [
    "DPFC.C17_estimators_total",
    "DPFC.C17_torch_total",
    "DPFC.C17_bound_sharp"
   ],
   "note": "Modelled: exact real arithmetic. Proof: RBF Gram matrix PSD (Schur product + exponential series), `S+eps I` PD, `cI+S^-1 A = S^-1(cS+A)`."
  },
  {
   "property": "C18",
   "status": "proved",
   "theorems": [
    "DPFC.C18_function_output_at_samples",
    "DPFC.C18_torch_function_output_at_samples"
   ],
   "note": "Modelled: exact real arithmetic. Proof: algebra; all reduce to one closed form."
  },
  {
   "property": "C19",
   "status": "proved",
   "theorems": [
    "DPFC.C19_numpy_estimators_agree",
    "DPFC.C19_torch_agrees",
    "DPFC.C19_score2_agrees_dim2",
    "DPFC.C19_score2_disagrees"
   ],
   "note": "Modelled: exact real arithmetic. Proof: algebra; all reduce to one closed form."
  },
  {
   "property": "C20",
   "status": "proved",
   "theorems": [
    "DPFC.C20_summed_gradient_is_true_derivative",
    "DPFC.C20_gradient_X_is_negative_derivative"
   ],
   "note": "Modelled: exact real arithmetic. Proof: `HasDerivAt`."
  },
  {
   "property": "C21",
   "status": "proved",
   "theorems": [
    "DPFC.C21_torch_minimiser",
    "DPFC.C21_score_is_minimiser"
   ],
   "note": "Modelled: exact real arithmetic. Proof: completion of the square with the PD matrix `A+cS`."
  },
  {
   "property": "C22",
   "status": "proved",
   "theorems": [
    "DPFC.C22_torch_translation",
    "DPFC.C22_translation"
   ],
   "note": "Modelled: exact real arithmetic. Proof: kernel invariances pushed through the closed form; coercivity bound."
  },
  {
   "property": "C23",
   "status": "proved",
   "theorems": [
    "DPFC.C23_torch_scaling",
    "DPFC.C23_scaling",
    "DPFC.C23_reflection"
   ],
   "note": "Modelled: exact real arithmetic. Proof: kernel invariances pushed through the closed form; coercivity bound."
  },
  {
   "property": "C24",
   "status": "proved",
   "theorems": [
    "DPFC.C24_torch_permutation",
    "DPFC.C24_permutation"
   ],
   "note": "Modelled: exact real arithmetic. Proof: kernel invariances pushed through the closed form; coercivity bound."
  },
  {
   "property": "C25",
   "status": "proved",
   "theorems": [
    "DPFC.C25_control_bounded",
    "DPFC.C25_bridge_control_bounded",
    "DPFC.C25_torch_control_bounded",
    "DPFC.C25_score_bounded"
   ],
   "note": "Modelled: exact real arithmetic. Proof: kernel invariances pushed through the closed form; coercivity bound."
  },
  {
   "property": "C26",
   "status": "proved",
   "theorems": [
    "DPFC.C26_kernel_matrix_laws",
    "DPFC.C26_torch_kernel",
    "DPFC.C26_scalar_is_constant_vector"
   ],
   "note": "Modelled: exact real arithmetic. Proof: product of exponentials."
  },
  {
   "property": "C27",
   "status": "proved",
   "theorems": [
    "DPFC.C27_C_ignored",
    "DPFC.C27_value",
    "DPFC.C27_numpy_depends_on_C"
   ],
   "note": "Modelled: any arithmetic (operations uninterpreted). Proof: definitional: argument is overwritten; stated on the API function for all `C`."
  },
  {
   "property": "C28",
   "status": "proved",
   "theorems": [
    "DPFC.C28_fresh",
    "DPFC.C28_stale",
    "DPFC.C28_raises",
    "DPFC.C28_broadcast"
   ],
   "note": "Modelled: any arithmetic (operations uninterpreted), exact real arithmetic. Proof: state machine over call histories."
  },
  {
   "property": "C29",
   "status": "proved",
   "theorems": [
    "DPFC.C29_all_schedules",
    "DPFC.C29_no_torn_cells",
    "DPFC.C29_unknown_option",
    "DPFC.C29_any_order"
   ],
   "note": "Modelled: any arithmetic (operations uninterpreted). Proof: cells written once; any permutation of iterations gives the same array."
  },
  {
   "property": "C30",
   "status": "proved",
   "theorems": [
    "DPFC.C30_selects",
    "DPFC.C30_out_of_range",
    "DPFC.C30_out_of_range_any"
   ],
   "note": "Modelled: any arithmetic (operations uninterpreted), exact real arithmetic. Proof: case analysis."
  },
  {
   "property": "C31",
   "status": "proved",
   "theorems": [
    "DPFC.C31_periodic_is_RBF",
    "DPFC.C31_unknown_kernel_raises",
    "DPFC.C31_periodic_other",
    "DPFC.C31_periodic_sign",
    "DPFC.C31_unknown_kernel_estimators",
    "DPFC.C31_torch_estimator_outcomes"
   ],
   "note": "Modelled: any arithmetic (operations uninterpreted), exact real arithmetic. Proof: case analysis."
  },
  {
   "property": "C32",
   "status": "proved",
   "theorems": [
    "DPFC.C32_weights",
    "DPFC.C32_shift_invariant",
    "DPFC.C32_stochastic_weights",
    "DPFC.C32_torch_weights"
   ],
   "note": "Modelled: exact real arithmetic. Proof: finite sums; coupling hypothesis explicit; optimality forces zero cost."
  },
  {
   "property": "C33",
   "status": "proved",
   "theorems": [
    "DPFC.C33_deterministic",
    "DPFC.C33_stochastic",
    "DPFC.C33_torch"
   ],
   "note": "Modelled: exact real arithmetic. Proof: finite sums; coupling hypothesis explicit; optimality forces zero cost."
  },
  {
   "property": "C34",
   "status": "proved",
   "theorems": [
    "DPFC.C34_constant_constraint",
    "DPFC.C34_constant_stochastic",
    "DPFC.C34_constant_torch",
    "DPFC.C34_whole_run",
    "DPFC.C34_same_outcome",
    "DPFC.C34_torch_whole_run"
   ],
   "note": "Modelled: exact real arithmetic. Proof: finite sums; coupling hypothesis explicit; optimality forces zero cost."
  },
  {
   "property": "C35",
   "status": "proved",
   "theorems": [
    "DPFC.C35_dispatch",
    "DPFC.C35_edge_indices",
    "DPFC.C35_negative_index_differs",
    "DPFC.C35_torch_dispatch"
   ],
   "note": "Modelled: G,R,X. Proof: case analysis of `calculate_u`."
  },
  {
   "property": "C36",
   "status": "proved",
   "theorems": [
    "DPFC.C36_edge_control",
    "DPFC.C36_edge_control_formula",
    "DPFC.C36_torch_edge_control"
   ],
   "note": "Modelled: G,R,X. Proof: case analysis of `calculate_u`."
  },
  {
   "property": "C37",
   "status": "proved",
   "theorems": [
    "DPFC.C37_control_at_start_is_nan",
    "DPFC.C37_control_at_end_is_not_finite"
   ],
   "note": "Modelled: G,R,X. Proof: case analysis of `calculate_u`."
  },
  {
   "property": "C38",
   "status": "proved",
   "theorems": [
    "DPFC.C38_edge_layout",
    "DPFC.C38_interior_layout",
    "DPFC.C38_torch_edge_layout",
    "DPFC.C38_torch_interior_layout"
   ],
   "note": "Modelled: G,R,X. Proof: case analysis of `calculate_u`."
  },
  {
   "property": "C39",
   "status": "proved",
   "theorems": [
    "DPFC.C39_interior_control",
    "DPFC.C39_zero_if_equal",
    "DPFC.C39_torch_interior_control",
    "DPFC.C39_torch_no_spread_raises",
    "DPFC.C39_torch_zero_if_equal"
   ],
   "note": "Modelled: G,R,X. Proof: case analysis of `calculate_u`."
  },
  {
   "property": "C40",
   "status": "proved",
   "theorems": [
    "DPFC.C40_bridge_control",
    "DPFC.C40_clipped_nonpos",
    "DPFC.C40_same_reference_score",
    "DPFC.C40_other_dims_raise"
   ],
   "note": "Modelled: G,R,X. Proof: case analysis of `calculate_u`."
  },
  {
   "property": "C41",
   "status": "proved",
   "theorems": [
    "DPFC.C41_repeated_queries",
    "DPFC.C41_torch_repeated_queries",
    "DPFC.C41_session_coverage",
    "DPFC.C41_session_edge_control"
   ],
   "note": "Modelled: G,R,X. Proof: case analysis of `calculate_u`."
  },
  {
   "property": "C42",
   "status": "proved",
   "theorems": [
    "DPFC.C42_coverage",
    "DPFC.C42_common_points",
    "DPFC.C42_lengths"
   ],
   "note": "Modelled: exact real arithmetic. Proof: order/variance algebra."
  },
  {
   "property": "C43",
   "status": "proved",
   "theorems": [
    "DPFC.C43_torch_coverage",
    "DPFC.C43_torch_weaker"
   ],
   "note": "Modelled: exact real arithmetic. Proof: order/variance algebra."
  },
  {
   "property": "C44",
   "status": "proved",
   "theorems": [
    "DPFC.C44_edge_factor",
    "DPFC.C44_lengthscales"
   ],
   "note": "Modelled: exact real arithmetic. Proof: order/variance algebra."
  },
  {
   "property": "C45",
   "status": "proved",
   "theorems": [
    "DPFC.C45_object_has_spread",
    "DPFC.C45_flat_first_step_raises",
    "DPFC.C45_single_particle",
    "DPFC.C45_no_noise"
   ],
   "note": "Modelled: any arithmetic (operations uninterpreted), exact real arithmetic. Proof: error propagation through the torch loops."
  },
  {
   "property": "C46",
   "status": "proved",
   "theorems": [
    "DPFC.C46_one_dimension_never_constructs"
   ],
   "note": "Modelled: any arithmetic (operations uninterpreted), exact real arithmetic. Proof: error propagation through the torch loops."
  },
  {
   "property": "C47",
   "status": "proved",
   "theorems": [
    "DPFC.C47_bridge_shapes",
    "DPFC.C47_bridge_never_constructs"
   ],
   "note": "Modelled: any arithmetic (operations uninterpreted), exact real arithmetic. Proof: error propagation through the torch loops."
  },
  {
   "property": "C48",
   "status": "proved",
   "theorems": [
    "DPFC.C48_stochastic_backward_flow_is_nan",
    "DPFC.C48_stochastic_edge_control_is_nan"
   ],
   "note": "Modelled: X. Proof: NaN absorption."
  },
  {
   "property": "C49",
   "status": "proved",
   "theorems": [
    "DPFC.C49_true_flow_zero_in_stochastic_mode"
   ],
   "note": "Modelled: any arithmetic (operations uninterpreted). Proof: frame / non-interference."
  },
  {
   "property": "C50",
   "status": "proved",
   "theorems": [
    "DPFC.C50_reject_densest_ignored",
    "DPFC.C50_true_drift_ignored",
    "DPFC.C50_constraint_ignored"
   ],
   "note": "Modelled: any arithmetic (operations uninterpreted). Proof: frame / non-interference."
  },
  {
   "property": "C51",
   "status": "proved",
   "theorems": [
    "DPFC.C51_translation",
    "DPFC.C51_translation_torch"
   ],
   "note": "Modelled: exact real arithmetic. Proof: two-run simulation with translated states."
  },
  {
   "property": "C52",
   "status": "proved",
   "theorems": [
    "DPFC.C52_time_shift",
    "DPFC.C52_time_shift_torch"
   ],
   "note": "Modelled: exact real arithmetic. Proof: two-run simulation with translated states."
  },
  {
   "property": "C53",
   "status": "proved",
   "theorems": [
    "DPFC.C53_scalar",
    "DPFC.C53_torch_scalar",
    "DPFC.C53_bad_shape_raises",
    "DPFC.C53_torch_bad_shape_raises",
    "DPFC.C53_only_coefficients_matter",
    "DPFC.C53_torch_only_coefficients_matter",
    "DPFC.C53_constant_array",
    "DPFC.C53_square_matrix_iff",
    "DPFC.C53_square_matrix_raises",
    "DPFC.C53_square_matrix_elementwise",
    "DPFC.C53_stochastic_bad_shape_raises",
    "DPFC.C53_backward_needs_slice_shape",
    "DPFC.C53_stochastic_single_entry",
    "DPFC.C53_good_shape_constructs",
    "DPFC.C53_good_shape_full_run",
    "DPFC.C53_torch_good_shape_full_run",
    "DPFC.C53_torch_stochastic_full_run"
   ],
   "note": "Modelled: any arithmetic (operations uninterpreted). Proof: broadcasting calculus on shapes (`Model/Shape.lean`): constructors with an array `g`, refinement to the scalar constructors."
  },
  {
   "property": "C54",
   "status": "proved",
   "theorems": [
    "DPFC.C54_matrix_argument_raises",
    "DPFC.C54_column_point",
    "DPFC.C54_one_dim_first_point"
   ],
   "note": "Modelled: any arithmetic (operations uninterpreted). Proof: `check_if_covered` with 1-d and 2-d arguments (`Model/Coverage.lean`)."
  },
  {
   "property": "C55",
   "status": "proved",
   "theorems": [
    "DPFC.C55_affine",
    "DPFC.C55_affine_torch"
   ],
   "note": "Modelled: exact real arithmetic. Proof: two-run simulation with affinely transformed states (C51 is `s = 1`)."
  },
  {
   "property": "C56",
   "status": "proved",
   "theorems": [
    "DPFC.C56_forward_flow_has_no_nan",
    "DPFC.C56_forward_ranges_finite",
    "DPFC.C56_nan_cloud_raises"
   ],
   "note": "Modelled: G + rules of IEEE 754. Proof: NaN propagation through the loops; `Spec.Ieee` lists the rules used, `Inst.XR` satisfies them."
  },
  {
   "property": "C57",
   "status": "proved",
   "theorems": [
    "DPFC.C57_nan_particle_stays_nan",
    "DPFC.C57_nan_poisons_all_particles"
   ],
   "note": "Modelled: G + rules of IEEE 754. Proof: NaN propagation through the loops; `Spec.Ieee` lists the rules used, `Inst.XR` satisfies them."
  },
  {
   "property": "C58",
   "status": "proved",
   "theorems": [
    "DPFC.C58_winding_vector",
    "DPFC.C58_winding_scalar_1d",
    "DPFC.C58_scalar_function_at_samples",
    "DPFC.C58_scalar_2d_not_periodic",
    "DPFC.C58_vector_function_not_periodic"
   ],
   "note": "Modelled: exact real arithmetic. Proof: periodic kernel = Gaussian kernel of the points on the torus; Schur product; explicit singular instances."
  },
  {
   "property": "C59",
   "status": "proved",
   "theorems": [
    "DPFC.C59_scalar_1d",
    "DPFC.C59_vector_negated_kernel",
    "DPFC.C59_vector_can_be_singular",
    "DPFC.C59_scalar_2d_can_be_singular",
    "DPFC.C59_vector_function_1d_raises",
    "DPFC.C59_vector_function_sign"
   ],
   "note": "Modelled: exact real arithmetic. Proof: periodic kernel = Gaussian kernel of the points on the torus; Schur product; explicit singular instances."
  },
  {
   "property": "C60",
   "status": "proved",
   "theorems": [
    "DPFC.C60_coincidence_is_nan"
   ],
   "note": "Modelled: G + rules of IEEE 754. Proof: 0/0 in the gradient quotient."
  },
  {
   "property": "C61",
   "status": "proved",
   "theorems": [
    "DPFC.C61_control_affine",
    "DPFC.C61_control_affine_torch",
    "DPFC.C61_control_time_shift",
    "DPFC.C61_control_time_shift_torch"
   ],
   "note": "Modelled: exact real arithmetic. Proof: C51/C52/C55 give the related object; then `calculate_u` / `check_if_covered` on related objects are compared branch by branch."
  },
  {
   "property": "C62",
   "status": "proved",
   "theorems": [
    "DPFC.C62_constraint_gauge",
    "DPFC.C62_constraint_gauge_torch"
   ],
   "note": "Modelled: exact real arithmetic. Proof: weights are a softmax, which ignores a common term; then the run-equivalence lemma of C51."
  },
  {
   "property": "C63",
   "status": "proved",
   "theorems": [
    "DPFC.C63_verdict",
    "DPFC.C63_outcome_not_random"
   ],
   "note": "Modelled: exact real arithmetic. Proof: totality of every step in exact arithmetic, case split over the outcome table `npVerdict`."
  },
  {
   "property": "C64",
   "status": "proved",
   "theorems": [
    "DPFC.C64_bridge_value_error",
    "DPFC.C64_torch_verdict",
    "DPFC.C64_value_error_means_no_spread",
    "DPFC.C64_value_error_iff",
    "DPFC.C64_stochastic_value_error"
   ],
   "note": "Modelled: exact real arithmetic. Proof: every torch step is total or raises ValueError for want of spread; chain induction locates the first failing cloud; case split over `torchVerdict`."
  },
  {
   "property": "C65",
   "status": "proved",
   "theorems": [
    "DPFC.C65_exact_run_is_the_run",
    "DPFC.C65_lost_spread_raises",
    "DPFC.C65_single_particle_raises",
    "DPFC.C65_torch_exact_run",
    "DPFC.C65_torch_exact_control",
    "DPFC.C65_torch_exact_coverage",
    "DPFC.C65_torch_exact_failure",
    "DPFC.C65_exact_control",
    "DPFC.C65_exact_coverage",
    "DPFC.C65_no_noise_raises"
   ],
   "note": "Modelled: any arithmetic containing R. Proof: every function of the model commutes with the embedding `em` while denominators are non-zero (`Lib/Lift*`); chain induction; a cloud without spread gives kernel matrices full of NaN, hence a NaN slice, hence the exception at the next range check; the same commutation for the torch class, whose forward clouds have spread by C45 (with reweighting: a transported flat cloud would stay flat); failures: a flat cloud raises at the same range check in both arithmetics, and with spread the exact backward loop is total."
  },
  {
   "property": "C66",
   "status": "proved",
   "theorems": [
    "DPFC.C66_grid_size",
    "DPFC.C66_grid_points",
    "DPFC.C66_torch_grid_points",
    "DPFC.C66_double_grid"
   ],
   "note": "Modelled: any arithmetic with bounded relative error (`Spec/Rounding`), instance `Inst/F53`. Proof: forward error analysis of `(t2 + dt/2 - t1)/dt` and of the points; the half-step margin absorbs the error of the quotient."
  },
  {
   "property": "C67",
   "status": "proved",
   "theorems": [
    "DPFC.C67_exact_loop",
    "DPFC.C67_simulation",
    "DPFC.C67_runs",
    "DPFC.C67_no_noise",
    "DPFC.C67_equal_flows",
    "DPFC.C67_ends_unused",
    "DPFC.C67_affine",
    "DPFC.C67_time_shift"
   ],
   "note": "Modelled: the notebook's loop over `timegrid[:-1]` (`Model/Loop`), generic and `K = R`. Proof: loop rewritten as a chain of steps, induction along the chain; coordinate change and time shift from C61."
  },
  {
   "property": "C68",
   "status": "proved",
   "theorems": [
    "DPFC.C68_query_verdict",
    "DPFC.C68_torch_query_verdict",
    "DPFC.C68_coverage_verdict",
    "DPFC.C68_torch_deterministic"
   ],
   "note": "Modelled: `calculate_u`, `check_if_covered` of both classes on constructed objects, `K = R`. Proof: tables in `Spec/QueryVerdict`; case analysis along the calls, with the stored sizes (C08) and the kernel name (C31) known from construction."
  },
  {
   "property": "C69",
   "status": "proved",
   "theorems": [
    "DPFC.C69_numpy_continuous",
    "DPFC.C69_torch_continuous",
    "DPFC.C69_control_continuous",
    "DPFC.C69_torch_control_continuous",
    "DPFC.C69_continuous_in_arguments"
   ],
   "note": "Modelled: deterministic runs without reweighting of both classes and their control queries, `K = R`. Proof: `Spec/Limit`; runs rewritten as explicit recursions from C09/C10, each step continuous where there is spread (the regularised system matrix is positive definite, so its inverse is continuous); torch: spread is an open condition, so C64 rules out ValueErrors nearby."
  },
  {
   "property": "C70",
   "status": "proved",
   "theorems": [
    "DPFC.C70_numpy_reweighted",
    "DPFC.C70_torch_reweighted",
    "DPFC.C70_bridge_edge_control",
    "DPFC.C70_posable_all",
    "DPFC.C70_same_solver",
    "DPFC.C70_numpy_symmetry",
    "DPFC.C70_torch_symmetry",
    "DPFC.C70_control_symmetry",
    "DPFC.C70_torch_control_symmetry",
    "DPFC.C70_posable",
    "DPFC.C70_coupled_generator"
   ],
   "note": "Modelled: deterministic runs of both classes (torch: not the reweighted bridge mode) and their control queries, `K = R`. Proof: `Spec/Symmetry`; Gaussian kernel, extremes and deviations in new coordinates, then induction over the explicit recursion of the run (as for C69); for every generator a coupled one is constructed, so the hypotheses can be met. With reweighting (`Spec/SymReweight`): simulation of the whole constructors step by step, exceptions included; the costs of the transport problems are distances, hence unchanged."
  },
  {
   "property": "C71",
   "status": "proved",
   "theorems": [
    "DPFC.C71_first_slice_law",
    "DPFC.C71_torch_first_slice_law",
    "DPFC.C71_backward_step_law",
    "DPFC.C71_torch_backward_step_law"
   ],
   "note": "Modelled: deterministic runs without reweighting, generator reading two tapes (`Spec/Law`), `K = R`. Proof: law of a block of tape entries under the product measure; explicit recursion of the run; the forward flow does not read the normals of the backward step."
  },
  {
   "property": "C72",
   "status": "proved",
   "theorems": [
    "DPFC.C72_stochastic_chain",
    "DPFC.C72_particles_iid",
    "DPFC.C72_brownian_motion",
    "DPFC.C72_numpy_chain",
    "DPFC.C72_numpy_particles_iid",
    "DPFC.C72_numpy_brownian_motion"
   ],
   "note": "Modelled: stochastic runs of both classes without reweighting, tape generator (numpy draws particle by particle: a permutation of the tape), `K = R`. Proof: refinement to the Euler-Maruyama chain (C11), independence of blocks of the tape, spread almost surely (a normal has no atoms), paths as measurable functions of disjoint columns."
  },
  {
   "property": "C73",
   "status": "proved",
   "theorems": [
    "DPFC.C73_numpy_reweighted_law",
    "DPFC.C73_torch_reweighted_law",
    "DPFC.C73_reweighted_exchangeable",
    "DPFC.C73_numpy_law",
    "DPFC.C73_torch_law",
    "DPFC.C73_torch_forward_law",
    "DPFC.C73_exchangeable",
    "DPFC.C73_torch_exchangeable"
   ],
   "note": "Modelled: as C70 with the tape generator. Proof: coupling of C70 realised by a measure-preserving rearrangement of the tapes, both inequalities by the inverse symmetry; with reweighting from the simulation of C70 (`Spec/LawReweight`)."
  },
  {
   "property": "C74",
   "status": "proved",
   "theorems": [
    "DPFC.C74_forward_displacement",
    "DPFC.C74_torch_forward_displacement",
    "DPFC.C74_backward_displacement",
    "DPFC.C74_torch_backward_displacement",
    "DPFC.C74_spread_kept",
    "DPFC.C74_torch_returns",
    "DPFC.C74_backward_spread_kept"
   ],
   "note": "Modelled: deterministic runs without reweighting, `K = R`. Proof: bound C25 on the score estimate, standard deviation from below by the distance of two particles, induction over the run."
  },
  {
   "property": "C75",
   "status": "proved",
   "theorems": [
    "DPFC.C75_on_circle",
    "DPFC.C75_grid",
    "DPFC.C75_ends",
    "DPFC.C75_too_few",
    "DPFC.C75_too_many",
    "DPFC.C75_returns",
    "DPFC.C75_default_constraint"
   ],
   "note": "Modelled: `Model/Kuramoto`: class BRIDGE_ND_reweight of the Kuramoto script, `K = R`, angles reduced by `x - 2 pi floor(x / 2 pi)`. Proof: constructor as chains of steps in a store longer than the grid; every step ends with the reduction."
  },
  {
   "property": "C76",
   "status": "proved",
   "theorems": [
    "DPFC.C76_full_run",
    "DPFC.C76_transport",
    "DPFC.C76_wrong_side"
   ],
   "note": "Modelled: same. Proof: refinement to `Spec/Kuramoto`; barycentres of couplings."
  },
  {
   "property": "C77",
   "status": "proved",
   "theorems": [
    "DPFC.C77_kuramoto",
    "DPFC.C77_angles",
    "DPFC.C77_rotation",
    "DPFC.C77_permutation",
    "DPFC.C77_mean_field",
    "DPFC.C77_gradient",
    "DPFC.C77_mean_frequency",
    "DPFC.C77_synchronised",
    "DPFC.C77_frequencies"
   ],
   "note": "Modelled: `kuraDrift`, `kuraDriftE`, `kuraWs`, `K = R`. Proof: trigonometric identities, mean-field form from the complex order parameter."
  },
  {
   "property": "C78",
   "status": "proved",
   "theorems": [
    "DPFC.C78_order",
    "DPFC.C78_invariance",
    "DPFC.C78_constraint",
    "DPFC.C78_weights",
    "DPFC.C78_script_flow"
   ],
   "note": "Modelled: `orderParam`, `kuraU`, whole script construction `kuraCfg`, `K = R`. Proof: `d^2 R^2` is the sum of the cosines of all differences; C76."
  },
  {
   "property": "C79",
   "status": "proved",
   "theorems": [
    "DPFC.C79_angle_start",
    "DPFC.C79_script"
   ],
   "note": "Modelled: two constructions, `K = R`. Proof: only the first step reads index 0, and it reduces modulo 2 pi."
  },
  {
   "property": "C80",
   "status": "proved",
   "theorems": [
    "DPFC.C80_simulation",
    "DPFC.C80_ranges",
    "DPFC.C80_last_column",
    "DPFC.C80_returns"
   ],
   "note": "Modelled: `phaseLoop`, `K = R` and any `K`. Proof: loop as chain of steps, induction."
  },
  {
   "property": "C81",
   "status": "proved",
   "theorems": [
    "DPFC.C81_control",
    "DPFC.C81_equal_flows",
    "DPFC.C81_last_index",
    "DPFC.C81_index_error",
    "DPFC.C81_coverage"
   ],
   "note": "Modelled: `phaseU`, `phaseCovered`, `K = R`. Proof: estimator theorem of C13 with given lengthscales."
  },
  {
   "property": "C82",
   "status": "proved",
   "theorems": [
    "DPFC.C82_import_fails",
    "DPFC.C82_package_dir",
    "DPFC.C82_repaired",
    "DPFC.C82_no_common_repair"
   ],
   "note": "Modelled: `Model/Import`: import statements of all files of the package and the part of Python's import system they use. Proof: chains of modules each of which must import the next (`Doomed`), for every state of sys.modules; evaluation for the positive cases."
  },
  {
   "property": "C83",
   "status": "proved",
   "theorems": [
    "DPFC.C83_short_list",
    "DPFC.C83_never_returns",
    "DPFC.C83_right_length",
    "DPFC.C83_marginal",
    "DPFC.C83_outcome",
    "DPFC.C83_all_dims"
   ],
   "note": "Modelled: `Model/LenScale`: numpy estimators with lists of `m` entries, any `K` and `K = R`. Proof: equality with the estimator on the first `m` columns; index arithmetic."
  },
  {
   "property": "C84",
   "status": "proved",
   "theorems": [
    "DPFC.C84_right_length",
    "DPFC.C84_one_column",
    "DPFC.C84_wrong_length",
    "DPFC.C84_documented",
    "DPFC.C84_flag_forgotten",
    "DPFC.C84_flag_forgotten_gradient"
   ],
   "note": "Modelled: `Model/LenScale`: `RBFAny`, `torchScoreList` with broadcasting, `K = R`. Proof: case analysis of the broadcast shapes, product of Gaussians in one dimension."
  },
  {
   "property": "C85",
   "status": "proved",
   "theorems": [
    "DPFC.C85_consistency",
    "DPFC.C85_consistency_all",
    "DPFC.C85_best_approximation"
   ],
   "note": "Modelled: `scoreSep`, `scoreSepFn`, `scoreAll`, `torchScore`, `K = R`; samples a sequence of pairwise independent random vectors, inducing points fixed. Proof: strong law of large numbers for the averaged kernel products, linear independence of Gaussian kernels, continuity of the matrix inverse, integration by parts."
  },
  {
   "property": "C86",
   "status": "proved",
   "theorems": [
    "DPFC.C86_drift",
    "DPFC.C86_analytic_gradient",
    "DPFC.C86_stationary",
    "DPFC.C86_reference_path",
    "DPFC.C86_settles",
    "DPFC.C86_settles_limit",
    "DPFC.C86_explodes",
    "DPFC.C86_bridge",
    "DPFC.C86_time_index",
    "DPFC.C86_torch",
    "DPFC.C86_example",
    "DPFC.C86_scripts"
   ],
   "note": "Modelled: `Model/LimitCycle.lean` (`lcF`, `lcScore`, `refPath`, `lcBridge`, `lcTorch`, `lcExample`), `K = R`. Proof: the path as a chain of steps; C63, C64, C67 for constructor and closed loop; the squared radius as a one-dimensional contraction; derivatives of the density."
  },
  {
   "property": "C87",
   "status": "proved",
   "theorems": [
    "DPFC.C87_kept",
    "DPFC.C87_never_raises",
    "DPFC.C87_no_noise",
    "DPFC.C87_short_grid",
    "DPFC.C87_dimension"
   ],
   "note": "Modelled: `Model/Phenotype.lean` (`rejectBounds`, `rejectIdx`, `npDelete`, `rejectTrajectories`, `phenoConstruct`), `K = R`. Proof: deleting a decreasing list of indices = order embedding of the complement."
  },
  {
   "property": "C88",
   "status": "proved",
   "theorems": [
    "DPFC.C88_full_run",
    "DPFC.C88_returns",
    "DPFC.C88_reweight",
    "DPFC.C88_kernel",
    "DPFC.C88_control",
    "DPFC.C88_covered"
   ],
   "note": "Modelled: `Model/Phenotype.lean` (`phenoForward`, `phenoBackward`, `phenoU`, `phenoCovered`), `K = R`. Proof: chains as for C63 and C77; step lemmas of the library flow reused."
  },
  {
   "property": "C89",
   "status": "proved",
   "theorems": [
    "DPFC.C89_drift",
    "DPFC.C89_bounds",
    "DPFC.C89_fixed_points",
    "DPFC.C89_gradient_diagonal",
    "DPFC.C89_gradient_off_diagonal",
    "DPFC.C89_divergence",
    "DPFC.C89_at_target",
    "DPFC.C89_mean",
    "DPFC.C89_covariance"
   ],
   "note": "Modelled: `Model/Phenotype.lean` (`phenoF`, `phenoJac`, `phenoDiv`, `phenoMeans`, `phenoLinVar`), `K = R`. Proof: derivatives in Mathlib, field arithmetic, induction over the Euler steps."
  },
  {
   "property": "C90",
   "status": "proved",
   "theorems": [
    "DPFC.C90_simulation",
    "DPFC.C90_gauss",
    "DPFC.C90_controls",
    "DPFC.C90_returns",
    "DPFC.C90_no_paths",
    "DPFC.C90_sizes",
    "DPFC.C90_script"
   ],
   "note": "Modelled: `Model/Phenotype.lean` (`phenoLoop`, `gaussGrad`, `phenoRuns`, `phenoOuterGrid`), `K = R`. Proof: the loop as a chain of steps; C88 for the controls; ceilings for the sizes."
  },
  {
   "property": "C91",
   "status": "proved",
   "theorems": [
    "DPFC.C91_simulation",
    "DPFC.C91_first",
    "DPFC.C91_weights",
    "DPFC.C91_end_cost",
    "DPFC.C91_likelihood"
   ],
   "note": "Modelled: `Model/Pice.lean` (`piceSim`, `piceCost`, `piceWeights`, `ufPice`), `K = R`. Proof: arrays as functions of the time index, induction over the steps and over the iterations; Gaussian densities of Mathlib."
  },
  {
   "property": "C92",
   "status": "proved",
   "theorems": [
    "DPFC.C92_fit",
    "DPFC.C92_stop",
    "DPFC.C92_anneal",
    "DPFC.C92_anneal_bound"
   ],
   "note": "Modelled: `Model/Pice.lean` (`piceFit`, `piceIter`, `piceAnneal`, `meanDiff`), `K = R`. Proof: normal equations from the Penrose equations; potential argument for the counters."
  },
  {
   "property": "C93",
   "status": "proved",
   "theorems": [
    "DPFC.C93_evaluation",
    "DPFC.C93_run",
    "DPFC.C93_errors"
   ],
   "note": "Modelled: `Model/Pice.lean` (`piceLoop`, `piceRun`, `piceEval`), `K = R`. Proof: induction over the iterations left; the final simulation as the recursion of C91."
  },
  {
   "property": "C94",
   "status": "proved",
   "theorems": [
    "DPFC.C94_drift",
    "DPFC.C94_variance",
    "DPFC.C94_asymmetric",
    "DPFC.C94_uncorrelated",
    "DPFC.C94_score"
   ],
   "note": "Modelled: `Model/Gaussian.lean` (`gaussDrift`, `gaussVar`, `gaussScoreM`), `K = R`. Proof: matrix algebra; derivatives of quadratic forms; positive definiteness of `C + 1e-6 I`."
  },
  {
   "property": "C95",
   "status": "proved",
   "theorems": [
    "DPFC.C95_simulation",
    "DPFC.C95_mean",
    "DPFC.C95_first"
   ],
   "note": "Modelled: `Model/Gaussian.lean` (`gaussCtl`, `gaussStep`, `gaussRun`), `K = R`. Proof: arrays as functions of the time index, induction over the steps; controls are affine."
  },
  {
   "property": "C96",
   "status": "proved",
   "theorems": [
    "DPFC.C96_plain_callables",
    "DPFC.C96_torch_plain_callables",
    "DPFC.C96_schedule_deterministic",
    "DPFC.C96_schedule_stochastic",
    "DPFC.C96_torch_schedule_deterministic",
    "DPFC.C96_torch_schedule_stochastic",
    "DPFC.C96_number_of_calls",
    "DPFC.C96_interrupted",
    "DPFC.C96_torch_interrupted",
    "DPFC.C96_arguments_deterministic",
    "DPFC.C96_torch_arguments_deterministic",
    "DPFC.C96_arguments_stochastic",
    "DPFC.C96_torch_arguments_stochastic"
   ],
   "note": "Modelled: `Model/Effects.lean` (constructors with callables as state-changing programs on views), any number type. Proof: calls are observed with a monitor that is polymorphic in its own state (`watch`, `MakesCalls`); compositional calculus over the loops; refinement to the pure model."
  },
  {
   "property": "C97",
   "status": "proved",
   "theorems": [
    "DPFC.C97_forward",
    "DPFC.C97_true_flow",
    "DPFC.C97_backward",
    "DPFC.C97_torch_forward",
    "DPFC.C97_torch_true_flow",
    "DPFC.C97_torch_backward",
    "DPFC.C97_end_points",
    "DPFC.C97_torch_end_points"
   ],
   "note": "Modelled: `Model/Effects.lean`, any number type. Proof: loop invariants that relate the clouds before and after each call to the stored slices."
  },
  {
   "property": "C98",
   "status": "proved",
   "theorems": [
    "DPFC.C98_estimator",
    "DPFC.C98_estimator_arrays",
    "DPFC.C98_estimator_mixed",
    "DPFC.C98_estimator_function",
    "DPFC.C98_estimator_function_number",
    "DPFC.C98_deterministic",
    "DPFC.C98_stochastic",
    "DPFC.C98_set_device",
    "DPFC.C98_true_flow",
    "DPFC.C98_queries",
    "DPFC.C98_coverage"
   ],
   "note": "Modelled: `Model/Attr.lean` (constructor, queries, kernel and estimator run on tensor attributes: device, 0-dimensional, precision, gradient tracking). Proof: case analysis of every operation; loop invariants over the grid for any number of grid points."
  },
  {
   "property": "C99",
   "status": "proved",
   "theorems": [
    "DPFC.C99_forward",
    "DPFC.C99_backward",
    "DPFC.C99_plots",
    "DPFC.C99_estimator"
   ],
   "note": "Modelled: `Model/Attr.lean`. Proof: as C98; the gradient flag of each flow is computed as a function of the number of grid points."
  },
  {
   "property": "C100",
   "status": "proved",
   "theorems": [
    "DPFC.C100_double_well",
    "DPFC.C100_double_well_descent",
    "DPFC.C100_double_well_basins",
    "DPFC.C100_double_well_mirror",
    "DPFC.C100_banana",
    "DPFC.C100_path_constraint"
   ],
   "note": "Modelled: `Model/Potential.lean` (drifts, potential and path constraint of the conservative examples), `K = R`. Proof: derivatives in Mathlib; factorised change of the potential in one step; monotone bounded sequences; C70 for the mirror image."
  },
  {
   "property": "C101",
   "status": "proved",
   "theorems": [
    "DPFC.C101_control",
    "DPFC.C101_bounds",
    "DPFC.C101_constant",
    "DPFC.C101_halves",
    "DPFC.C101_monotone",
    "DPFC.C101_scale",
    "DPFC.C101_energy",
    "DPFC.C101_path",
    "DPFC.C101_end",
    "DPFC.C101_nan",
    "DPFC.C101_infinite",
    "DPFC.C101_kept",
    "DPFC.C101_lost_run"
   ],
   "note": "Modelled: `Model/Measures.lean` (columns of the tables the figures are drawn from), `K = R` and reals with infinities and NaN. Proof: sums over the counted times; Cauchy-Schwarz; case analysis of special values."
  },
  {
   "property": "C102",
   "status": "proved",
   "theorems": [
    "DPFC.C102_deterministic",
    "DPFC.C102_stochastic",
    "DPFC.C102_torch_deterministic",
    "DPFC.C102_torch_stochastic",
    "DPFC.C102_constraint_modes"
   ],
   "note": "Modelled: `Model/Effects.lean`, any number type. Proof: the call schedules of C96 with a monitor that checks the signature of each call."
  },
  {
   "property": "C103",
   "status": "proved",
   "theorems": [
    "DPFC.C103_listing",
    "DPFC.C103_not_seen",
    "DPFC.C103_always_synchronised",
    "DPFC.C103_lasting",
    "DPFC.C103_short",
    "DPFC.C103_onset",
    "DPFC.C103_misaligned",
    "DPFC.C103_total",
    "DPFC.C103_counted",
    "DPFC.C103_count",
    "DPFC.C103_fraction",
    "DPFC.C103_early",
    "DPFC.C103_nan"
   ],
   "note": "Modelled: `Model/Onset.lean`, \u211d (and \u211d with special values for NaN). Proof: invariant of the scan over the record: beginnings, ends and complete episodes of a prefix."
  },
  {
   "property": "C104",
   "status": "proved",
   "theorems": [
    "DPFC.C104_not_consulted",
    "DPFC.C104_queries",
    "DPFC.C104_failure",
    "DPFC.C104_numpy_problems",
    "DPFC.C104_torch_problems",
    "DPFC.C104_no_solver"
   ],
   "note": "Modelled: whole constructors with an arbitrary solver, any `K` (`K = R` for the problems asked). Proof: relation \"same result or error in E\" closed under bind and loops; softmax is a positive probability vector, Euclidean distance is a metric."
  },
  {
   "property": "C105",
   "status": "proved",
   "theorems": [
    "DPFC.C105_ordinary",
    "DPFC.C105_runs",
    "DPFC.C105_not_reweighted",
    "DPFC.C105_zero_control",
    "DPFC.C105_missing_storage",
    "DPFC.C105_other_controls",
    "DPFC.C105_func_out",
    "DPFC.C105_odd_run"
   ],
   "note": "Modelled: `Verif.Model.Flags`: constructors, controls and estimators with switches from the four classes of Python objects (equal to True, equal to False, other true, other false), any `K`. Proof: case analysis on the switches; all phases keep the number of slices; reduction to the models with Boolean switches."
  },
  {
   "property": "C106",
   "status": "proved",
   "theorems": [
    "DPFC.C106_vectors",
    "DPFC.C106_short",
    "DPFC.C106_cloud",
    "DPFC.C106_matrix_start",
    "DPFC.C106_containers",
    "DPFC.C106_target_cloud"
   ],
   "note": "Modelled: `Verif.Model.States`: constructors with `y1`, `y2` as arrays with one or two axes in any container; broadcasting of `y[di]` along the particle axis. Proof: reduction to the model with vectors for prescribed constant rows; slice invariants of all loops; totality of the real backward loop from any cloud."
  },
  {
   "property": "C107",
   "status": "proved",
   "theorems": [
    "DPFC.C107_good_shapes",
    "DPFC.C107_torch_good_shapes",
    "DPFC.C107_scalar_g",
    "DPFC.C107_bad_drift",
    "DPFC.C107_bad_constraint",
    "DPFC.C107_unused_functions",
    "DPFC.C107_bad_f_true",
    "DPFC.C107_vector_drift",
    "DPFC.C107_constraint_shapes",
    "DPFC.C107_column_drift"
   ],
   "note": "Modelled: `Verif.Model.FShape`: the loop bodies of both classes with drift and constraint values as arrays of any shape, evaluated by broadcasting. Proof: each line with values that broadcast equals the line of `Verif.Model.Shape` for the broadcast values; first step of bad shape raises."
  },
  {
   "property": "C108",
   "status": "proved",
   "theorems": [
    "DPFC.C108_paths",
    "DPFC.C108_next_step",
    "DPFC.C108_uncontrolled_same"
   ],
   "note": "Modelled: `Verif.Model.Loop` with the generator that reads two tapes (`Verif.Spec.Law`); laws from Mathlib's infinite product of Gaussians. Proof: the run read off the tape by induction; controls are measurable functions of the state (explicit formulas of C35-C39); independence of disjoint tape positions."
  },
  {
   "property": "C109",
   "status": "proved",
   "theorems": [
    "DPFC.Hard.C109_deterministic",
    "DPFC.Hard.C109_stochastic",
    "DPFC.Hard.C109_torch",
    "DPFC.Hard.C109_convex_wall",
    "DPFC.Hard.C109_gap",
    "DPFC.Hard.C109_forbidden_stays",
    "DPFC.Hard.C109_special_values",
    "DPFC.C109_torch_convex_wall",
    "DPFC.C109_torch_convex_wall_stochastic"
   ],
   "note": "Modelled: reweighting steps of `Verif.Model.DPFC`, `Verif.Model.TorchDPFC` over `Verif.Inst.XR`. Proof: exp(-inf) = 0, rows of a coupling with zero marginal vanish, convex combinations of the allowed particles; for the gap, masses that are all 0 or 1 add up to a whole number."
  },
  {
   "property": "C110",
   "status": "proved",
   "theorems": [
    "DPFC.C110_outcome",
    "DPFC.C110_keyword_order",
    "DPFC.C110_position_or_keyword",
    "DPFC.C110_defaults",
    "DPFC.C110_class_switch",
    "DPFC.C110_score_third_argument",
    "DPFC.C110_script_style",
    "DPFC.C110_script_style_silent"
   ],
   "note": "Modelled: `Verif.Model.Binding`: Python's binding of positional arguments, keywords and defaults, and the signatures of the library and of the example scripts. Proof: induction over the keywords and over the parameters; the specification `WellFormed`, `Gets` does not mention the algorithm."
  },
  {
   "property": "C111",
   "status": "proved",
   "theorems": [
    "DPFC.C111_rotation",
    "DPFC.C111_rotation_torch",
    "DPFC.C111_rotation_needs_one_size",
    "DPFC.C111_renumbered_coordinates",
    "DPFC.C111_renumbered_coordinates_torch"
   ],
   "note": "Modelled: R; `Verif.Spec.Rotate`. Proof: orthogonal invariance of the kernel, linearity of the solved system in its right hand side; the converse from one sample and one inducing point by letting the sample tend to the inducing point."
  },
  {
   "property": "C112",
   "status": "proved",
   "theorems": [
    "DPFC.C112_stein",
    "DPFC.C112_divergence",
    "DPFC.C112_divergence_torch",
    "DPFC.C112_regularisation",
    "DPFC.C112_large_C",
    "DPFC.C112_repeated_samples"
   ],
   "note": "Modelled: R; `Verif.Spec.Stein`. Proof: the normal equations of the solved system as a bilinear form; comparison of two minimisers."
  },
  {
   "property": "C113",
   "status": "proved",
   "theorems": [
    "DPFC.C113_control_fades",
    "DPFC.C113_torch_control_fades",
    "DPFC.C113_edge_unbounded",
    "DPFC.C113_torch_edge_unbounded",
    "DPFC.C113_score_fades"
   ],
   "note": "Modelled: R; `Verif.Spec.Far`; control queries of both classes. Proof: the inducing points lie between the extreme particles (C16); coefficient bound (C25) times the decay of the kernel; the edge control is affine in the query point."
  }
 ]
}