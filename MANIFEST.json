{
 "claims": [
  {
   "property": "C01",
   "status": "proved",
   "theorems": [
    "Sleqp.C01_trichotomy",
    "Sleqp.C01_symmetry",
    "Sleqp.C01_negations",
    "Sleqp.C01_sign",
    "Sleqp.C01_exact",
    "Sleqp.C01_sign_needs_small_eps",
    "Sleqp.C01_infinite"
   ],
   "note": "exact arithmetic over any linearly ordered field; NaN excluded"
  },
  {
   "property": "C02",
   "status": "proved",
   "theorems": [
    "Sleqp.C02_step",
    "Sleqp.C02_reachable_wf",
    "Sleqp.C02_isValid_iff",
    "Sleqp.C02_push_refused"
   ],
   "note": "every history of API calls, arbitrary value type"
  },
  {
   "property": "C03",
   "status": "proved",
   "theorems": [
    "Sleqp.C03_add_scaled",
    "Sleqp.C03_dot",
    "Sleqp.C03_scale",
    "Sleqp.C03_fill",
    "Sleqp.C03_concat",
    "Sleqp.C03_norms",
    "Sleqp.C03_inf_norm"
   ],
   "note": "exact arithmetic; zero_eps filtering included"
  },
  {
   "property": "C04",
   "status": "proved",
   "theorems": [
    "Sleqp.C04_raw_roundtrip",
    "Sleqp.C04_raw_roundtrip_exact",
    "Sleqp.C04_sparse_roundtrip"
   ],
   "note": "zero_eps filtering included"
  },
  {
   "property": "C05",
   "status": "partial",
   "theorems": [
    "Sleqp.C05_clip_tolerance_partial",
    "Sleqp.C05_is_boxed",
    "Sleqp.C05_clip_loop",
    "Sleqp.C05_clip_exact",
    "Sleqp.C05_clip_tolerance_assert_fails"
   ],
   "note": "clip is the exact projection for zero_eps = 0; for a positive zero_eps it is proved for bounds none of which is positive/negative but within zero_eps of zero (C05_clip_tolerance_partial); for others the code's own final assert is shown to fail on a concrete input"
  },
  {
   "property": "C06",
   "status": "partial",
   "theorems": [
    "Sleqp.C06_vec_is_finite_partial",
    "Sleqp.C06_vec_is_finite_violated"
   ],
   "note": "violated by the code for vectors: the last stored entry is never inspected (C06_vec_is_finite_violated); proved for all other entries"
  },
  {
   "property": "C07",
   "status": "proved",
   "theorems": [
    "Sleqp.C07_mat_remove_entries",
    "Sleqp.C07_mat_remove_cols",
    "Sleqp.C07_mat_remove_rows",
    "Sleqp.C07_oldIdx_characterised",
    "Sleqp.C07_remove",
    "Sleqp.C07_merge",
    "Sleqp.C07_remove_merge",
    "Sleqp.C07_merge_remove",
    "Sleqp.C07_add_zero"
   ],
   "note": "sorted lists of removed indices; arbitrary value type"
  },
  {
   "property": "C08",
   "status": "proved",
   "theorems": [
    "Sleqp.C08_mult_vec",
    "Sleqp.C08_mult_vec_trans",
    "Sleqp.C08_adjoint",
    "Sleqp.C08_trans",
    "Sleqp.C08_scale"
   ],
   "note": "exact arithmetic; transpose is the counting-sort loop"
  },
  {
   "property": "C09",
   "status": "proved",
   "theorems": [
    "Sleqp.C09_assemble",
    "Sleqp.C09_step",
    "Sleqp.C09_reachable_wf",
    "Sleqp.C09_isValid_iff",
    "Sleqp.C09_push_order_unchecked",
    "Sleqp.C09_pop_col"
   ],
   "note": "every history of the modelled API calls that follows the assembly protocol (columns in order, rows increasing inside a column); push itself does not check the row order (C09_push_order_unchecked)"
  },
  {
   "property": "C10",
   "status": "partial",
   "theorems": [
    "Sleqp.C10_vstack_partial",
    "Sleqp.C10_vstack_violated"
   ],
   "note": "proved for targets that have at most as many columns as the operands (e.g. freshly created ones); violated by the code when the target is wider and holds entries (C10_vstack_violated)"
  },
  {
   "property": "C11",
   "status": "partial",
   "theorems": [
    "Sleqp.C11_vec_eq",
    "Sleqp.C11_vec_eq_symm",
    "Sleqp.C11_mat_eq_partial",
    "Sleqp.C11_mat_eq_violated"
   ],
   "note": "vector equality proved; matrix equality proved without explicit zeros and violated with them (C11_mat_eq_violated)"
  },
  {
   "property": "C12",
   "status": "proved",
   "theorems": [
    "Sleqp.C12_max_violation",
    "Sleqp.C12_max_violation_le_iff",
    "Sleqp.C12_total_violation",
    "Sleqp.C12_total_zero_iff",
    "Sleqp.C12_max_le_total",
    "Sleqp.C12_violation_values",
    "Sleqp.C12_feasibility_residuals",
    "Sleqp.C12_violated_constraints"
   ],
   "note": "exact arithmetic; vectors of equal dimension; violated-constraint index list, violation vector and residual vector included"
  },
  {
   "property": "C13",
   "status": "proved",
   "theorems": [
    "Sleqp.C13_multipliers",
    "Sleqp.C13_derivative"
   ],
   "note": "+1/-1/0 characterisation and directional derivative of the total violation"
  },
  {
   "property": "C14",
   "status": "partial",
   "theorems": [
    "Sleqp.C14_stationarity_cache",
    "Sleqp.C14_stationarity_residuum",
    "Sleqp.C14_is_optimal_iff_partial",
    "Sleqp.C14_optimal_kkt_partial",
    "Sleqp.C14_nan_violated",
    "Sleqp.C14_nan_forgotten_violated"
   ],
   "note": "proved for residuals that are numbers; violated by the code with NaN: NaN residuals pass as optimal and a NaN followed by a number is forgotten (C14_nan_violated, C14_nan_forgotten_violated)"
  },
  {
   "property": "C15",
   "status": "proved",
   "theorems": [
    "Sleqp.C15_slack_residuum",
    "Sleqp.C15_residuum",
    "Sleqp.C15_zero_iff",
    "Sleqp.C15_residual_vector"
   ],
   "note": "residuum, its zero set, and the residual vector"
  },
  {
   "property": "C16",
   "status": "partial",
   "theorems": [
    "Sleqp.C16_drop_violated",
    "Sleqp.C16_merit_value",
    "Sleqp.C16_merit_ge_obj",
    "Sleqp.C16_merit_eq_obj_iff",
    "Sleqp.C16_merit_mono",
    "Sleqp.C16_linear_value",
    "Sleqp.C16_quadratic_value",
    "Sleqp.C16_models_at_zero_partial",
    "Sleqp.C16_linear_convex_partial"
   ],
   "note": "value formulas hold with the zero_eps filtering as evaluated (up to penalty * m * zero_eps); agreement at the zero step and convexity hold for zero_eps = 0 only: with a positive drop tolerance the agreement at the zero step fails (C16_drop_violated)"
  },
  {
   "property": "C17",
   "status": "partial",
   "theorems": [
    "Sleqp.C17_accept_decrease_partial",
    "Sleqp.C17_good_step_accepted",
    "Sleqp.C17_rounding_zone",
    "Sleqp.C17_zero_prediction_violated"
   ],
   "note": "proved for predicted decrease above rounding level; inside the rounding zone the code replaces the ratio by 1 (C17_rounding_zone) and for a predicted decrease of 0 an increase is accepted (C17_zero_prediction_violated)"
  },
  {
   "property": "C18",
   "status": "partial",
   "theorems": [
    "Sleqp.C18_window_memory",
    "Sleqp.C18_window_accept",
    "Sleqp.C18_window_monotone_accepted",
    "Sleqp.C18_window_never_above_first_partial",
    "Sleqp.C18_minstep_never_above_first_partial",
    "Sleqp.C18_minstep_accept_iff",
    "Sleqp.C18_minstep_memory",
    "Sleqp.C18_penalty_violated"
   ],
   "note": "runs at one fixed penalty whose trials predict a decrease: the window rule's memory, the acceptance tests and the bound by the first merit value. The code never resets the rules when the penalty changes, and across a change the bound fails (C18_penalty_violated)"
  },
  {
   "property": "C19",
   "status": "partial",
   "theorems": [
    "Sleqp.C19_radii_positive",
    "Sleqp.C19_lp_radius_change",
    "Sleqp.C19_lp_radius_rejected",
    "Sleqp.C19_accept_never_shrinks",
    "Sleqp.C19_reject_halves",
    "Sleqp.C19_rejections_geometric",
    "Sleqp.C19_rejections_reach_deadpoint",
    "Sleqp.C19_reject_enlarges_violated"
   ],
   "note": "positivity over all histories, effect of acceptance and rejection, convergence to the dead point bound; violated as stated without the threshold: a rejected step with a large ratio enlarges the EQP radius (C19_reject_enlarges_violated)"
  },
  {
   "property": "C20",
   "status": "proved",
   "theorems": [
    "Sleqp.C20_terminates",
    "Sleqp.C20_limit_respected",
    "Sleqp.C20_status_meaning",
    "Sleqp.C20_radii_positive"
   ],
   "note": "problem solver loop with arbitrary per-iteration outcomes, clocks and limits"
  },
  {
   "property": "C21",
   "status": "partial",
   "theorems": [
    "Sleqp.C21_abort_honoured",
    "Sleqp.C21_cleared_at_start",
    "Sleqp.C21_restoration_abort_lost_violated",
    "Sleqp.C21_infeasible_abort_lost_violated"
   ],
   "note": "honoured by the problem solver; lost by the outer solver during restoration and in iterations ending locally infeasible (two violations with concrete runs)"
  },
  {
   "property": "C22",
   "status": "proved",
   "theorems": [
    "Sleqp.C22_final_status",
    "Sleqp.C22_iteration_budget",
    "Sleqp.C22_restoration_entry",
    "Sleqp.C22_disabled_is_single_phase",
    "Sleqp.C22_terminates",
    "Sleqp.C22_optimization_no_assert"
   ],
   "note": "termination assumes that a restoration run without iterations returns the residual of the point it was given"
  },
  {
   "property": "C23",
   "status": "partial",
   "theorems": [
    "Sleqp.C23_error_within_bound_partial",
    "Sleqp.C23_estimate",
    "Sleqp.C23_repeat_eval",
    "Sleqp.C23_no_assert",
    "Sleqp.C23_fresh_partial",
    "Sleqp.C23_stale_weights_violated",
    "Sleqp.C23_weights_never_invalidate",
    "Sleqp.C23_nan_error_violated"
   ],
   "note": "proved while the user's error bound and weights are not changed between evaluations and errors are not NaN; stale value after a change of weights and NaN error are violations"
  },
  {
   "property": "C24",
   "status": "partial",
   "theorems": [
    "Sleqp.C24_objective",
    "Sleqp.C24_gradient",
    "Sleqp.C24_hessian",
    "Sleqp.C24_curvature_partial",
    "Sleqp.C24_negative_lm_violated",
    "Sleqp.C24_hess_room_violated",
    "Sleqp.C24_hess_count_violated"
   ],
   "note": "objective, gradient and Gauss-Newton product proved for every call history; curvature bound for nonnegative Levenberg-Marquardt factor (negative factor, buffer reservation and reported counts are violations)"
  },
  {
   "property": "C25",
   "status": "partial",
   "theorems": [
    "Sleqp.C25_drop_violated",
    "Sleqp.C25_residual",
    "Sleqp.C25_callbacks_partial",
    "Sleqp.C25_adjoint_partial",
    "Sleqp.C25_objective_partial",
    "Sleqp.C25_zero_is_feasible",
    "Sleqp.C25_transform",
    "Sleqp.C25_restore",
    "Sleqp.C25_restore_transform"
   ],
   "note": "exact for zero_eps = 0; with a positive drop tolerance the objective can be zero at an infeasible point (C25_drop_violated). The residual formula, lifting and restoring are for every tolerance"
  },
  {
   "property": "C26",
   "status": "partial",
   "theorems": [
    "Sleqp.C26_product_partial",
    "Sleqp.C26_posdef_partial",
    "Sleqp.C26_secant_partial",
    "Sleqp.C26_undamped_violated",
    "Sleqp.C26_drop_violated",
    "Sleqp.C26_block_diagonal_partial",
    "Sleqp.C26_curvature_partial",
    "Sleqp.C26_pair_partial"
   ],
   "note": "Damped BFGS: for every Hessian structure and history the model is the textbook block-diagonal matrix, positive definite on the blocks, with the (damped) secant condition. Plain BFGS violates the property (C26_undamped_violated). Proved for zero_eps = 0 and exact arithmetic; with a positive drop tolerance linearity and definiteness fail (C26_drop_violated)."
  },
  {
   "property": "C27",
   "status": "partial",
   "theorems": [
    "Sleqp.C27_drop_violated",
    "Sleqp.C27_block_diagonal_partial",
    "Sleqp.C27_product_partial",
    "Sleqp.C27_symmetric",
    "Sleqp.C27_secant"
   ],
   "note": "Proved for every history, for zero_eps = 0, exact arithmetic and any norm vanishing only at 0; with a positive drop tolerance linearity fails (C27_drop_violated)."
  },
  {
   "property": "C28",
   "status": "proved",
   "theorems": [
    "Sleqp.C28_bfgs_memory",
    "Sleqp.C28_sr1_memory"
   ],
   "note": "Both methods: memory equals the latest pairs since the latest reset, for every history."
  },
  {
   "property": "C29",
   "status": "proved",
   "theorems": [
    "Sleqp.C29_fixed",
    "Sleqp.C29_box_optimal",
    "Sleqp.C29_box_active",
    "Sleqp.C29_unconstrained"
   ],
   "note": "For every zero tolerance: near-optimality with error eps*sum|g|, exact for eps=0; fixed variables, active bounds, multipliers and the unconstrained variant included. The solver ignores its gradient and penalty arguments, as the code does."
  },
  {
   "property": "C30",
   "status": "proved",
   "theorems": [
    "Sleqp.C30_refines",
    "Sleqp.C30_queries",
    "Sleqp.C30_eq",
    "Sleqp.C30_valid",
    "Sleqp.C30_supports"
   ],
   "note": "Every history of add/reset/copy calls on any number of working sets refines ordered lists of entries; queries, equality, self-check and multiplier support characterised."
  },
  {
   "property": "C31",
   "status": "proved",
   "theorems": [
    "Sleqp.C31_lsq",
    "Sleqp.C31_mixed",
    "Sleqp.C31_stored_zero_violated"
   ],
   "note": "Least-squares estimate for every working set with entries added in index order. The combined (mixed) estimate is proved admissible if the vectors store no zeros; C31_stored_zero_violated shows the failing assertion otherwise."
  },
  {
   "property": "C32",
   "status": "proved",
   "theorems": [
    "Sleqp.C32_zero_dual",
    "Sleqp.C32_inactive",
    "Sleqp.C32_supports"
   ],
   "note": "Both polishing variants: kept entries characterised exactly, states unchanged, counts correct, order preserved, supported multipliers stay supported."
  },
  {
   "property": "C33",
   "status": "proved",
   "theorems": [
    "Sleqp.C33_dynamic_layer",
    "Sleqp.C33_unscale_scale",
    "Sleqp.C33_scaled",
    "Sleqp.C33_kkt",
    "Sleqp.C33_hessian",
    "Sleqp.C33_derivative",
    "Sleqp.C33_vectors",
    "Sleqp.C33_dynamic",
    "Sleqp.C33_lsq",
    "Sleqp.C33_point",
    "Sleqp.C33_reset"
   ],
   "note": "Round trips for vectors and whole iterates, scaled data, KKT equivalence, Hessian products, derivatives over the reals, least-squares callbacks, dynamic weights. ldexp is exact multiplication with a power of two (no overflow or underflow)."
  },
  {
   "property": "C34",
   "status": "partial",
   "theorems": [
    "Sleqp.C34_bounds_partial",
    "Sleqp.C34_coeffs_partial",
    "Sleqp.C34_wrong_weight_violated",
    "Sleqp.C34_out_of_bounds_violated",
    "Sleqp.C34_creation_violated"
   ],
   "note": "Correct only for equal numbers of general and linear constraints (C34_coeffs_partial); otherwise wrong weights or out-of-bounds reads, and creation of a scaled problem with linear constraints always fails (C34_creation_violated)."
  },
  {
   "property": "C35",
   "status": "partial",
   "theorems": [
    "Sleqp.C35_dynamic",
    "Sleqp.C35_dynamic_point",
    "Sleqp.C35_point",
    "Sleqp.C35_func",
    "Sleqp.C35_stale",
    "Sleqp.C35_lsq_count",
    "Sleqp.C35_lsq",
    "Sleqp.C35_lsq_jacobian_violated",
    "Sleqp.C35_roundtrip",
    "Sleqp.HessStruct.C35_hess_struct"
   ],
   "note": "Objective, gradient, constraint values, Jacobian, Hessian products and the least-squares callbacks are those of the original function at the restored point restricted to the remaining variables; dynamic functions get the same calls, for all histories and failures (C35_dynamic); round trips; transformed Hessian block structure. Refuted for the constraint Jacobian of least-squares functions which do not report a nonzero count."
  },
  {
   "property": "C36",
   "status": "partial",
   "theorems": [
    "Sleqp.C36_partial",
    "Sleqp.C36_violated",
    "Sleqp.C36_forcing_violated",
    "Sleqp.C36_tolerance_violated"
   ],
   "note": "Proved for problems with a feasible point and exact tolerances, all sizes: all reductions done simultaneously (fixed variables, forcing constraints, singleton rows turned into bounds, slack rows, redundant bounds) keep the feasible set. Violated for infeasible problems (C36_violated, C36_forcing_violated): preprocessing succeeds and the new problem is feasible; and for positive tolerances (C36_tolerance_violated): constraints which are almost forcing fix their variables."
  },
  {
   "property": "C37",
   "status": "proved",
   "theorems": [
    "Sleqp.C37_infeasible"
   ],
   "note": "For every tolerance >= 0 and every well-formed problem."
  },
  {
   "property": "C38",
   "status": "partial",
   "theorems": [
    "Sleqp.C38_partial",
    "Sleqp.C38_converted_violated",
    "Sleqp.C38_forcing_violated",
    "Sleqp.C38_index_violated"
   ],
   "note": "Proved for exact tolerances when no two rows improve the same bound of a variable, no variable occurs in two forcing constraints and the uninitialised index does not hit a variable of the constraint; each of the three exceptions is a proved violation."
  },
  {
   "property": "C39",
   "status": "proved",
   "theorems": [
    "Sleqp.C39_read",
    "Sleqp.C39_defaults",
    "Sleqp.C39_accept_iff",
    "Sleqp.C39_refused",
    "Sleqp.C39_legal",
    "Sleqp.C39_read_invalid"
   ],
   "note": "All update sequences over all integer keys; enumeration values validated against the documented names and ranges. Real numbers are rationals with infinities and NaN."
  },
  {
   "property": "C40",
   "status": "partial",
   "theorems": [
    "Sleqp.C40_call",
    "Sleqp.C40_history",
    "Sleqp.C40_create",
    "Sleqp.C40_dispatch_partial",
    "Sleqp.C40_dispatch_error",
    "Sleqp.C40_dispatch_violated"
   ],
   "note": "Registration refines a multiset per event for all call sequences; dispatch calls exactly the registered callbacks if they succeed and remove none; errors stop it. Refuted for callbacks unregistering callbacks during dispatch."
  },
  {
   "property": "C41",
   "status": "partial",
   "theorems": [
    "Sleqp.HessStruct.C41_create",
    "Sleqp.HessStruct.C41_run_partial",
    "Sleqp.HessStruct.C41_push",
    "Sleqp.HessStruct.C41_partition",
    "Sleqp.HessStruct.C41_first_block_violated",
    "Sleqp.HessStruct.C41_range_violated",
    "Sleqp.HessStruct.C41_copy_partial",
    "Sleqp.HessStruct.C41_copy_violated"
   ],
   "note": "Invariant over all call sequences with positive block ends; a first block with a non-positive end is accepted (refuted in C41_first_block_violated, C41_range_violated); copies of structures with blocks fail when the capacity is too small (C41_copy_violated)."
  },
  {
   "property": "C42",
   "status": "proved",
   "theorems": [
    "Sleqp.C42_create",
    "Sleqp.C42_create_simple",
    "Sleqp.C42_finite",
    "Sleqp.C42_infinite",
    "Sleqp.C42_cons_val",
    "Sleqp.C42_cons_jac",
    "Sleqp.C42_hess_duals",
    "Sleqp.C42_unconstrained"
   ],
   "note": "Creation accepted iff no bound pair is inverted, for vectors without NaN; infinite bounds converted; constraint values, Jacobian and Hessian multipliers stacked general-then-linear; unconstrained test characterised. Inputs violating the debug assertions (dimensions, finiteness) are a separate outcome."
  },
  {
   "property": "C43",
   "status": "partial",
   "theorems": [
    "Sleqp.C43_step_partial",
    "Sleqp.C43_terminates",
    "Sleqp.C43_progress",
    "Sleqp.C43_full_partial",
    "Sleqp.C43_zero_violated",
    "Sleqp.C43_full_violated",
    "Sleqp.C43_step_near",
    "Sleqp.C43_terminates_near",
    "Sleqp.C43_progress_near"
   ],
   "note": "Exact arithmetic, the Euclidean norm is a number whose square is right. Proved: step, trust region, sufficient decrease, merit value, termination, and that the search does not give up under a condition on gain and curvature, exactly with drop tolerance zero and up to stated errors with any tolerance. When it gives up the merit value returned is wrong (C43_zero_violated), and full_step is reported for a step shortened to the trust region (C43_full_violated)."
  },
  {
   "property": "C44",
   "status": "partial",
   "theorems": [
    "Sleqp.C44_step_partial",
    "Sleqp.C44_not_worse_partial",
    "Sleqp.C44_bounds_partial",
    "Sleqp.C44_terminates",
    "Sleqp.C44_worse_violated",
    "Sleqp.C44_step_near_partial",
    "Sleqp.C44_bounds_near_partial",
    "Sleqp.C44_terminates_near"
   ],
   "note": "Exact arithmetic, symmetric Hessian. Proved: segment, merit value, Armijo bound, fallback, termination, bounds, exactly with drop tolerance zero and up to stated errors with any tolerance. \"Never worse\" needs a nonpositive slope, because the slope in the code lacks the penalty parameter (C44_worse_violated)."
  },
  {
   "property": "C45",
   "status": "partial",
   "theorems": [
    "Sleqp.C45_minimum_partial",
    "Sleqp.C45_not_worse_partial",
    "Sleqp.C45_room",
    "Sleqp.C45_minimum_violated"
   ],
   "note": "Exact arithmetic, drop tolerance zero, symmetric Hessian, qsort is any function returning a sorted permutation. Global minimality is proved when the entries skipped by the collecting loop are irrelevant (Covered); without it the claim is false (C45_minimum_violated)."
  },
  {
   "property": "C46",
   "status": "proved",
   "theorems": [
    "Sleqp.C46_update",
    "Sleqp.C46_monotone",
    "Sleqp.C46_run"
   ],
   "note": "For arbitrary results of the linear programs. Floating-point overflow of the penalty is not modelled."
  },
  {
   "property": "C47",
   "status": "partial",
   "theorems": [
    "Sleqp.C47_length_partial",
    "Sleqp.C47_bound_violated"
   ],
   "note": "Safety and maximality for points within bounds whose direction does not point outwards at an attained bound; refuted otherwise."
  },
  {
   "property": "C48",
   "status": "partial",
   "theorems": [
    "Sleqp.C48_drop_violated",
    "Sleqp.C48_step_partial",
    "Sleqp.C48_terminates_partial",
    "Sleqp.C48_stationary_partial",
    "Sleqp.C48_dual_partial",
    "Sleqp.C48_rayleigh_partial",
    "Sleqp.C48_region_partial"
   ],
   "note": "The trust region is respected for every drop tolerance and whatever Hessian products and projections are returned (C48_region_partial). The rest is in exact arithmetic with cut-off zero for small entries. Besides the stated property: the method ends after at most n + 1 passes (conjugacy of the directions), unless cut short the step is on the boundary or stationary up to the tolerance, the multiplier is nonnegative and only given on the boundary, the Rayleigh quotients are attained. With a positive drop tolerance the step can leave the null space (C48_drop_violated)."
  },
  {
   "property": "C49",
   "status": "partial",
   "theorems": [
    "Sleqp.C49_user_partial",
    "Sleqp.C49_regular_partial",
    "Sleqp.C49_regular_violated",
    "Sleqp.C49_dynamic_violated",
    "Sleqp.C49_operations"
   ],
   "note": "All flags creatable through the public API survive every chain of wrappers; refuted for flag combinations of internal functions (SR1) and for dynamic functions."
  },
  {
   "property": "C50",
   "status": "partial",
   "theorems": [
    "Sleqp.C50_history",
    "Sleqp.C50_accepted",
    "Sleqp.C50_ttl",
    "Sleqp.C50_remaining",
    "Sleqp.C50_exhausted",
    "Sleqp.C50_deviation_partial",
    "Sleqp.C50_deviation_violated",
    "Sleqp.C50_elapsed_violated",
    "Sleqp.C50_elapsed_partial",
    "Sleqp.C50_solver_elapsed_violated",
    "Sleqp.C50_difference_violated"
   ],
   "note": "Totals, counts, averages, variances, remaining and exhausted time for all histories; refuted for the elapsed time of a running timer, the seconds reported for the last solve, the measured differences and the deviation after credits."
  },
  {
   "property": "C51",
   "status": "partial",
   "theorems": [
    "Sleqp.C51_unbounded_partial",
    "Sleqp.C51_infeasible_start_violated",
    "Sleqp.C51_stale_residual_violated"
   ],
   "note": "holds for the stored residual and for runs whose last step was rejected; violated at infeasible starts and after accepted steps"
  },
  {
   "property": "C52",
   "status": "partial",
   "theorems": [
    "Sleqp.C52_accept_decreases_partial",
    "Sleqp.C52_run_monotone_partial",
    "Sleqp.C52_window_run_bounded_partial",
    "Sleqp.C52_mixed_penalty_violated"
   ],
   "note": "holds for steps computed at an unchanged penalty; violated when the penalty is raised while computing the step"
  },
  {
   "property": "C53",
   "status": "partial",
   "theorems": [
    "Sleqp.C53_counters_partial",
    "Sleqp.C53_uncounted_violated"
   ],
   "note": "counters never exceed the iterations and add up if no correction is discarded; violated otherwise"
  },
  {
   "property": "C54",
   "status": "partial",
   "theorems": [
    "Sleqp.C54_initial_radii",
    "Sleqp.C54_no_variables_violated"
   ],
   "note": "proved for problems with at least one variable; the initial radius of an empty problem is undefined (C54_no_variables_violated)"
  },
  {
   "property": "C55",
   "status": "partial",
   "theorems": [
    "Sleqp.C55_first_restoration_partial",
    "Sleqp.C55_stale_residual_used",
    "Sleqp.C55_second_restoration_violated"
   ],
   "note": "proved for the first restoration phase; later phases start from the stale residual (C55_second_restoration_violated)"
  },
  {
   "property": "C57",
   "status": "partial",
   "theorems": [
    "Sleqp.C57_infinite_partial",
    "Sleqp.C57_finite",
    "Sleqp.C57_free_variable_violated"
   ],
   "note": "Holds for weights at most 1 (C57_infinite_partial); fails for all weights from 2 on (C57_finite, C57_free_variable_violated)."
  },
  {
   "property": "C58",
   "status": "partial",
   "theorems": [
    "Sleqp.C58_nominal",
    "Sleqp.C58_gradient_violated",
    "Sleqp.C58_gradient_partial",
    "Sleqp.C58_jacobian_partial",
    "Sleqp.C58_jacobian_violated"
   ],
   "note": "Nominal weights proved (C58_nominal). Gradient and Jacobian weights normalise only with respect to the documented scaling, and have the opposite of the required effect with the applied one."
  },
  {
   "property": "C59",
   "status": "partial",
   "theorems": [
    "Sleqp.C59_gradient_partial",
    "Sleqp.C59_gradient_violated"
   ],
   "note": "The reported gradient is the true one times 2^(-objW) (C59_gradient_partial), which is right iff objW = 0; witness C59_gradient_violated."
  },
  {
   "property": "C56",
   "status": "partial",
   "theorems": [
    "Sleqp.C56_accepted_partial",
    "Sleqp.C56_accepted_violated",
    "Sleqp.C56_finished_partial",
    "Sleqp.C56_finished_violated"
   ],
   "note": "Holds without scaling and preprocessing, and for point, values and multipliers of the finished event; refuted with scaling and for the polished working set. The restoration of preprocessed iterates is a parameter."
  },
  {
   "property": "C60",
   "status": "partial",
   "theorems": [
    "Sleqp.C60_value",
    "Sleqp.C60_range",
    "Sleqp.C60_zero_violated"
   ],
   "note": "Value and range of the displayed time proved for all times; refuted for time zero (uninitialised width)."
  },
  {
   "property": "C61",
   "status": "partial",
   "theorems": [
    "Sleqp.C61_file_partial",
    "Sleqp.C61_error_partial",
    "Sleqp.C61_silent_violated",
    "Sleqp.C61_indented_violated",
    "Sleqp.C61_key_only_violated",
    "Sleqp.C61_unreachable_violated"
   ],
   "note": "Well-formed files refine sequences of updates; unreadable numbers and enumeration names are reported with the earlier updates kept. Refuted for Boolean values, unknown keys, leading white space, missing values and the setting whose name contains blanks. strtol/strtod are parameters; lines fit the buffer."
  },
  {
   "property": "C62",
   "status": "proved",
   "theorems": [
    "Sleqp.C62_reset",
    "Sleqp.C62_scale",
    "Sleqp.C62_zero",
    "Sleqp.C62_add_scaled",
    "Sleqp.C62_copy",
    "Sleqp.C62_sequence",
    "Sleqp.C62_sequence_exact"
   ],
   "note": "Exact arithmetic. One theorem per operation with drop tolerance zero, and one over all sequences of operations for every tolerance, with the errors it causes. The Hessian product is an assumption on the callback."
  },
  {
   "property": "C63",
   "status": "proved",
   "theorems": [
    "Sleqp.C63_func",
    "Sleqp.C63_linear",
    "Sleqp.C63_quadratic",
    "Sleqp.C63_linear_near",
    "Sleqp.C63_quadratic_near"
   ],
   "note": "Exact arithmetic; bounds finite. With a drop tolerance the values hold up to the stated errors."
  },
  {
   "property": "C64",
   "status": "partial",
   "theorems": [
    "Sleqp.C64_cauchy_partial",
    "Sleqp.C64_cauchy_violated"
   ],
   "note": "Proved for calls that no limit cuts short. False when the iteration limit is reached: the zero step is returned."
  },
  {
   "property": "C65",
   "status": "partial",
   "theorems": [
    "Sleqp.C65_partial",
    "Sleqp.C65_room_violated",
    "Sleqp.C65_fixed_violated",
    "Sleqp.C65_bounds_violated"
   ],
   "note": "The analysis never fails for problems with a feasible point and exact tolerances; building the new problem succeeds if the rows with a removed bound are not more than the variables with a removed bound (or no variable bound is removed). Violated in general: too little room for the linear bounds (heap overflow without assertions), singleton row on a fixed variable, contradicting singleton rows."
  },
  {
   "property": "C66",
   "status": "proved",
   "theorems": [
    "Sleqp.C66_matrix",
    "Sleqp.C66_set_iterate",
    "Sleqp.C66_history",
    "Sleqp.C66_min_norm",
    "Sleqp.C66_lsq",
    "Sleqp.C66_project",
    "Sleqp.C66_box_min_norm",
    "Sleqp.C66_box_lsq",
    "Sleqp.C66_box_project",
    "Sleqp.C66_free",
    "Sleqp.C66_reduced_matrix",
    "Sleqp.C66_reduced_set_iterate",
    "Sleqp.C66_reduced_history",
    "Sleqp.C66_reduced_min_norm",
    "Sleqp.C66_reduced_min_norm_exact",
    "Sleqp.C66_reduced_lsq",
    "Sleqp.C66_reduced_project_exact"
   ],
   "note": "Standard, reduced, box-constrained and unconstrained variants. The factorization is a parameter with the contract that the systems it is given are solved (back ends are not modelled). For the reduced variant minimum norm and projection are exact for drop tolerance 0; C66_reduced_min_norm states the result for every tolerance. Return codes of a failing factorization, and the state after such a failure, are not modelled. The direct (QR) variant is C67."
  },
  {
   "property": "C67",
   "status": "partial",
   "theorems": [
    "Sleqp.C67_matrix_partial",
    "Sleqp.C67_min_norm",
    "Sleqp.C67_lsq",
    "Sleqp.C67_project",
    "Sleqp.C67_columns_violated",
    "Sleqp.C67_overrun_violated"
   ],
   "note": "The three services are proved for every matrix given to a correct QR factorization. The set-up is proved for working sets with at most as many entries as constraints and no active constraint depending on a variable left of the first active one; for the others the code is wrong (C67_columns_violated, C67_overrun_violated). QR back ends are not modelled."
  },
  {
   "property": "C68",
   "status": "partial",
   "theorems": [
    "Sleqp.C68_rhs",
    "Sleqp.C68_correction",
    "Sleqp.C68_step",
    "Sleqp.C68_trial_point",
    "Sleqp.C68_corrected_point",
    "Sleqp.C68_linearised",
    "Sleqp.C68_dynamic_partial",
    "Sleqp.C68_dynamic_violated"
   ],
   "note": "Proved for exactly evaluated functions. For functions evaluated with errors (dynamic functions) the code computes the corrected step but never applies it (C68_dynamic_violated). Variable bounds whose distance to zero is positive but at most the zero tolerance are excluded (clip's own assert can fail there, see C05)."
  },
  {
   "property": "C69",
   "status": "proved",
   "theorems": [
    "Sleqp.C69_rhs",
    "Sleqp.C69_radius",
    "Sleqp.C69_newton_in_region",
    "Sleqp.C69_work_step",
    "Sleqp.C69_offset"
   ],
   "note": "The minimum-norm service is a parameter with the specification proved in C66/C67; the square root is exact. Tolerances (eps) above 1/5 are excluded."
  },
  {
   "property": "C70",
   "status": "partial",
   "theorems": [
    "Sleqp.C70_drop_violated",
    "Sleqp.C70_direction_partial",
    "Sleqp.C70_stationary_partial",
    "Sleqp.C70_multipliers",
    "Sleqp.C70_objective"
   ],
   "note": "With the Steihaug solver as trust-region solver (the TRlib back end is not modelled), zero_eps = 0 and exact arithmetic. A time limit is reported as an error. With a positive drop tolerance the step can move an active constraint (C70_drop_violated)."
  },
  {
   "property": "C71",
   "status": "partial",
   "theorems": [
    "Sleqp.C71_solution_partial",
    "Sleqp.C71_solve_partial",
    "Sleqp.C71_zero_gradient_violated",
    "Sleqp.C71_boundary_violated"
   ],
   "note": "Proved for tolerance eps = 0 and a right-hand side that is not perpendicular to the range of the matrix; with eps > 0 for the runs that return. Both restrictions are necessary: the negations are proved (division by zero for a zero gradient; failed assertion with the default eps). zero_eps = 0, exact arithmetic."
  },
  {
   "property": "C72",
   "status": "partial",
   "theorems": [
    "Sleqp.C72_direction_partial",
    "Sleqp.C72_decrease_partial",
    "Sleqp.C72_objective",
    "Sleqp.C72_stationary_violated"
   ],
   "note": "The properties of a returned direction are proved for all tolerances eps ≤ 1/5; that a direction inside the trust region is returned and that the objective decreases for eps = 0. Both for gradients not perpendicular to the null space: otherwise the code divides by zero, the negation is proved. The minimum-norm and projection services are those proved correct in C66 (and in part in C67). zero_eps = 0, exact arithmetic."
  },
  {
   "property": "C73",
   "status": "partial",
   "theorems": [
    "Sleqp.C73_step",
    "Sleqp.C73_value",
    "Sleqp.C73_violation",
    "Sleqp.C73_reduction",
    "Sleqp.C73_violation_antitone",
    "Sleqp.C73_set_iterate",
    "Sleqp.C73_total",
    "Sleqp.C73_basis_partial",
    "Sleqp.C73_basis_toggle_violated"
   ],
   "note": "The statements on steps, values, violations and totality are proved in full, up to steps of absolute value at most zero_eps that are dropped from the sparse result. That only saved bases are restored is proved for settings unchanged during the run; otherwise the negation is proved. The LP back end is a parameter satisfying the definition of an optimal basic solution."
  },
  {
   "property": "C74",
   "status": "partial",
   "theorems": [
    "Sleqp.C74_working_set_partial",
    "Sleqp.C74_constraints_partial",
    "Sleqp.C74_fixed_violated",
    "Sleqp.C74_equation_violated"
   ],
   "note": "Proved unless a variable with equal bounds is basic in the answer of the LP solver; there the negation is proved: the working set has too many entries and the assert fails. Equations are in the working set as equations only if the problem was not solved again in reduced form; otherwise the negation is proved. The bounds of variables are assumed to be further than the radius from the threshold of infinity."
  },
  {
   "property": "C75",
   "status": "partial",
   "theorems": [
    "Sleqp.C75_supported",
    "Sleqp.C75_stationary_partial",
    "Sleqp.C75_reduced_violated"
   ],
   "note": "Support is proved in full. Stationarity is proved if all multipliers of the linear program are smaller than the penalty parameter (then the problem is not solved again in reduced form). For problems solved again in reduced form the negation is proved: the working set is that of the reduced problem, the multipliers are those of the problem before."
  },
  {
   "property": "C76",
   "status": "partial",
   "theorems": [
    "Sleqp.C76_direction_partial",
    "Sleqp.C76_descent_partial",
    "Sleqp.C76_penalty",
    "Sleqp.C76_criticality",
    "Sleqp.C76_total_partial",
    "Sleqp.C76_reset_violated"
   ],
   "note": "Proved unless the penalty parameter is reset. After a reset the step and the working set are read from the linear program for the penalty parameter before; the negation is proved with a step that increases the linear model. Variables with equal bounds are excluded (see C74). That the computation succeeds is proved for LP solvers that solve all feasible bounded linear programs."
  },
  {
   "property": "C77",
   "status": "partial",
   "theorems": [
    "Sleqp.C77_near_partial",
    "Sleqp.C77_simple_partial",
    "Sleqp.C77_newton_partial",
    "Sleqp.C77_exact_partial",
    "Sleqp.C77_refine",
    "Sleqp.C77_exact_violated",
    "Sleqp.C77_refine_violated",
    "Sleqp.C77_failed_violated"
   ],
   "note": "Proved without parametric Cauchy steps, for zero_eps = 0 (without Newton step for any zero_eps, up to the stated errors), for constraints whose linearisation stays finite in the trust region. Not larger than the current merit value: unless the penalty parameter was reset (see C76) or, with Newton step, the slope of the line search is positive (see C44). With Newton step, the Cauchy line search must not give up (see C43). Negations proved: with the exact line search the predicted value is that of a step outside the variable bounds; the refinement for dynamic functions does not end where the predicted reduction is zero and the error estimate positive; for dynamic functions the report of a failed Newton step is that of the first pass."
  },
  {
   "property": "C78",
   "status": "partial",
   "theorems": [
    "Sleqp.C78_verdict_partial",
    "Sleqp.C78_skip",
    "Sleqp.C78_accepts_partial",
    "Sleqp.C78_detects_first_partial",
    "Sleqp.C78_detects_second_partial",
    "Sleqp.C78_rejected_violated",
    "Sleqp.C78_bounds_violated",
    "Sleqp.C78_hessian_violated",
    "Sleqp.C78_lsq_partial",
    "Sleqp.C78_lsq_violated",
    "Sleqp.C78_restoration_violated"
   ],
   "note": "Proved for zero_eps = 0 and functions which do not reject the starting point: the verdict, the points passed to the function and their order, acceptance of exact derivatives, and bounds on the errors which pass (over the reals, by the mean value theorem). Negations proved: second derivatives are taken at the perturbed points, so that exact Hessians are reported as invalid and wrong Hessians at the starting point pass; variables whose perturbed point is rejected pass; points outside the variable bounds are evaluated. For least-squares functions the verdict about second derivatives is characterized, and affine residuals pass; negations proved: the check compares the Gauss-Newton matrix with differences of the gradient, so that least-squares functions with exact products are reported as invalid, and so are problems with exact derivatives once the solver enters a restoration phase."
  },
  {
   "property": "C79",
   "status": "partial",
   "theorems": [
    "Sleqp.C79_forward_partial",
    "Sleqp.C79_back_partial",
    "Sleqp.C79_fallback_partial",
    "Sleqp.C79_direction_violated",
    "Sleqp.C79_forward_violated",
    "Sleqp.C79_line_search_violated",
    "Sleqp.C79_stale_violated",
    "Sleqp.C79_near_partial"
   ],
   "note": "Proved: number of linear programs, radii, steps, sufficient decrease and merit values when tracking back; when searching forward everything but gradient and Jacobian product and the exact merit value (which is an upper bound). The fallback to the line search is proved for a line search set to the current iterate. For zero_eps = 0 exactly, for other values of zero_eps up to an error of penalty parameter times number of constraints times twice zero_eps (C79_near_partial). Negations proved: gradient and Jacobian products of the initial step are kept, so that the direction is inconsistent and longer steps are missed; the line search is called before it is given an iterate (null pointer in the first iteration, data of an earlier iterate afterwards)."
  },
  {
   "property": "C80",
   "status": "partial",
   "theorems": [
    "Sleqp.C80_highs",
    "Sleqp.C80_highs_coeffs",
    "Sleqp.C80_soplex",
    "Sleqp.C80_gurobi_partial",
    "Sleqp.C80_gurobi_violated",
    "Sleqp.C80_soplex_tolerances_violated"
   ],
   "note": "HiGHS and SoPlex: proved (refinement: same feasible points and objective). Gurobi: proved if every position ever stored is stored in the matrix set last; the negation is proved for a shrinking sparsity pattern. Negation proved for the tolerances of SoPlex, which are only set if assertions are compiled in."
  },
  {
   "property": "C81",
   "status": "partial",
   "theorems": [
    "Sleqp.C81_highs_set",
    "Sleqp.C81_highs_saved",
    "Sleqp.C81_soplex_set",
    "Sleqp.C81_soplex_saved",
    "Sleqp.C81_gurobi_set_partial",
    "Sleqp.C81_gurobi_saved",
    "Sleqp.C81_gurobi_rows_violated",
    "Sleqp.C81_gurobi_basic_rows_violated",
    "Sleqp.C81_gurobi_zero_violated",
    "Sleqp.C81_highs_reported",
    "Sleqp.C81_soplex_reported",
    "Sleqp.C81_gurobi_reported"
   ],
   "note": "HiGHS and SoPlex: proved. Gurobi: proved for saved bases and for the variables of given bases except for the status zero. Negations proved for Gurobi: rows of a given basis are stored with codes of the wrong enumeration (rows at bounds become basic, basic rows get an unknown code); free nonbasic variables become variables at the upper bound."
  },
  {
   "property": "C82",
   "status": "partial",
   "theorems": [
    "Sleqp.C82_start",
    "Sleqp.C82_initial_rejected_violated",
    "Sleqp.C82_iteration_partial",
    "Sleqp.C82_no_error",
    "Sleqp.C82_solve_partial",
    "Sleqp.C82_callback_violated",
    "Sleqp.C82_soc_rejected_violated",
    "Sleqp.C82_soc_dynamic_violated",
    "Sleqp.C82_soc_reason_violated"
   ],
   "note": "Proved for every solve without the combination of an accepted-iterate callback and preprocessing, and without second-order corrections after trial points rejected by the function or with dynamic functions. Negations proved for these cases (function left at the old iterate; stale constraint values; Hessian products at the trial point), for evaluations at a rejected initial point, and for the reason given for corrections."
  },
  {
   "property": "C83",
   "status": "partial",
   "theorems": [
    "Sleqp.C83_simple_partial",
    "Sleqp.C83_newton_partial",
    "Sleqp.C83_weights",
    "Sleqp.C83_dynamic_partial",
    "Sleqp.C83_penalty_violated",
    "Sleqp.C83_rejected_violated",
    "Sleqp.C83_stale_violated",
    "Sleqp.C83_trial_violated"
   ],
   "note": "Proved for zero_eps = 0 if the penalty parameter is kept, for steps with Newton step (default line search) and without, and for dynamic functions if both values compared are as precise as required. Negations proved: a change of the penalty parameter makes the solver compare values for different parameters (a step increasing objective, violation and penalty functions is accepted with a large ratio; a very good step is rejected); with dynamic functions the value compared is the one before the refinement, and the trial point may be evaluated with a much larger error."
  },
  {
   "property": "C84",
   "status": "partial",
   "theorems": [
    "Sleqp.SolverSetup.C84_primal",
    "Sleqp.SolverSetup.C84_solution_partial",
    "Sleqp.SolverSetup.C84_objective_violated",
    "Sleqp.SolverSetup.C84_kind",
    "Sleqp.SolverSetup.C84_quasi_newton_partial",
    "Sleqp.SolverSetup.C84_quasi_newton_violated",
    "Sleqp.SolverSetup.C84_dynamic_partial",
    "Sleqp.SolverSetup.C84_dynamic_violated"
   ],
   "note": "Proved: round trip of the starting point for all combinations, returned point and objective value for all combinations except quasi-Newton methods on scaled least-squares functions, the pairs of differences without fixed variables, start-up of dynamic functions without quasi-Newton methods. The excluded cases are violated by the code, proved for all problems. Only the point and the objective of an iterate are followed; multipliers are C33 and C38."
  },
  {
   "property": "C85",
   "status": "partial",
   "theorems": [
    "Sleqp.C85_reject",
    "Sleqp.C85_cons",
    "Sleqp.C85_grad",
    "Sleqp.C85_hess",
    "Sleqp.C85_obj_partial",
    "Sleqp.C85_jacobian",
    "Sleqp.C85_linear_coeffs",
    "Sleqp.C85_bounds_partial",
    "Sleqp.C85_duals",
    "Sleqp.C85_message_partial",
    "Sleqp.C85_result",
    "Sleqp.C85_states",
    "Sleqp.C85_obj_violated",
    "Sleqp.C85_message_violated",
    "Sleqp.C85_bounds_violated"
   ],
   "note": "Proved: rejection, constraint values, gradient, Hessian products, Jacobian and linear coefficients, multipliers, states and result codes in full; the objective unless it is asked for, then a Hessian product, then again at a point which is not a trial point; moved bounds for constants of at most inf/2; the printed objective for minimisation. The excluded cases are violated by the code. The AMPL library is an oracle; that its products with the Hessian refer to the points evaluated last is an assumption. Conversion to sparse vectors (C03) is left out."
  },
  {
   "property": "C86",
   "status": "proved",
   "theorems": [
    "Sleqp.C86_answer"
   ],
   "note": "The question is part of the interface of Cauchy solvers but not used by the solver itself. Debug assertions on the order of bounds and point are not modelled. At degenerate vertices a basic slack may be zero; the statement is about the basis, as in the code."
  },
  {
   "property": "C87",
   "status": "partial",
   "theorems": [
    "Sleqp.C87_once_partial",
    "Sleqp.C87_twice_violated",
    "Sleqp.C87_limit_twice_violated"
   ],
   "note": "Proved for lists without repetitions; repetitions are undefined behaviour, proved for all settings and limits. Parsing of values is done by the AMPL library and not modelled."
  },
  {
   "property": "C88",
   "status": "partial",
   "theorems": [
    "Sleqp.C88_fact",
    "Sleqp.C88_lapack",
    "Sleqp.C88_ma27",
    "Sleqp.C88_mumps",
    "Sleqp.C88_umfpack_partial",
    "Sleqp.C88_ma57_partial",
    "Sleqp.C88_ma86_partial",
    "Sleqp.C88_cholmod_partial",
    "Sleqp.C88_ma86_violated",
    "Sleqp.C88_ma57_violated",
    "Sleqp.C88_cholmod_violated",
    "Sleqp.C88_umfpack_violated",
    "Sleqp.C88_spqr_partial",
    "Sleqp.C88_spqr_violated",
    "Sleqp.C88_spqr_stale_violated"
   ],
   "note": "Proved in full for LAPACK, MA27 and MUMPS; for UMFPACK as long as no solve fails; for MA57 without singular matrices, refining at least once; for MA86 and MA97 if all failures are failed allocations; for CHOLMOD with positive definite matrices; for SPQR if it fails for singular matrices and its products and solves do not fail. The excluded cases are violated by the code. The libraries are oracles with their documented contract. Allocation failures, leaks (CHOLMOD loses a factor per matrix, MA97 never finalises its data) and condition estimates are not modelled."
  },
  {
   "property": "C89",
   "status": "partial",
   "theorems": [
    "Sleqp.C89_ma27",
    "Sleqp.C89_ma57_partial",
    "Sleqp.C89_ma57_violated"
   ],
   "note": "Proved in full for MA27, and for MA57 if it forecasts at least five numbers of each kind; with smaller forecasts the loop does not end, as proved."
  },
  {
   "property": "C90",
   "status": "partial",
   "theorems": [
    "Sleqp.C90_spqr_partial",
    "Sleqp.C90_factors",
    "Sleqp.C90_violated",
    "Sleqp.C90_stale_violated"
   ],
   "note": "Proved if SPQR keeps the order of the columns, fails for matrices without full rank, and its products and solves do not fail. The excluded cases are violated by the code. SPQR is an oracle with its documented contract."
  },
  {
   "property": "C91",
   "status": "partial",
   "theorems": [
    "Sleqp.C91_served_partial",
    "Sleqp.C91_solution_partial",
    "Sleqp.C91_created",
    "Sleqp.C91_reusable_partial",
    "Sleqp.C91_violated"
   ],
   "note": "Proved for libraries which never ask for the objective; that request is answered wrongly, as proved. The library is an oracle; that trlib solves the subproblem is an assumption of C91_solution_partial. The Rayleigh quotient, the state after a time limit and the messages are not modelled."
  },
  {
   "property": "C92",
   "status": "partial",
   "theorems": [
    "Sleqp.C92_safe",
    "Sleqp.C92_exact",
    "Sleqp.C92_replace",
    "Sleqp.C92_structures_partial",
    "Sleqp.C92_ma97_violated",
    "Sleqp.C92_cholmod_violated"
   ],
   "note": "All structures but one are sound, and the general theorem applies to them; MA97 leaks and CHOLMOD overwrites a reference, as proved. That the functions of the library follow the rules is proved for the pattern of the setters only; failing allocations (partly constructed objects), memory held inside third-party libraries and pointers which do not own their target are not modelled."
  },
  {
   "property": "C93",
   "status": "partial",
   "theorems": [
    "Sleqp.C93_vector_partial",
    "Sleqp.C93_sparse_vector_violated",
    "Sleqp.C93_number_partial",
    "Sleqp.C93_jacobian",
    "Sleqp.C93_hessian",
    "Sleqp.C93_results"
   ],
   "note": "Jacobians, Hessians and results are proved without restriction. Vectors and numbers: dense arrays and arrays of other classes; for sparse arrays the code is wrong, as proved. Not modelled: complex arrays, the call of MATLAB itself, and errors raised there."
  },
  {
   "property": "C94",
   "status": "partial",
   "theorems": [
    "Sleqp.C94_start_partial",
    "Sleqp.C94_start_violated",
    "Sleqp.C94_problem_partial",
    "Sleqp.C94_upper_violated"
   ],
   "note": "Proved for dense arrays of doubles and cell arrays of these, and for constraints given by their lower bounds (or lower and upper bounds); in the other cases the code is wrong, as proved."
  },
  {
   "property": "C95",
   "status": "partial",
   "theorems": [
    "Sleqp.C95_options_partial",
    "Sleqp.C95_resolves_violated",
    "Sleqp.C95_logical_violated",
    "Sleqp.C95_range_violated"
   ],
   "note": "Exact characterisation of the accepted options and their effect, for all options with a number; the settings for which there is no option, logical values and the undefined conversions are violations, as proved."
  },
  {
   "property": "C96",
   "status": "partial",
   "theorems": [
    "Sleqp.C96_gradient",
    "Sleqp.C96_jacobian_partial",
    "Sleqp.C96_values_partial",
    "Sleqp.C96_iterate",
    "Sleqp.C96_linear_violated",
    "Sleqp.C96_dynamic_violated",
    "Sleqp.C96_residuals_violated",
    "Sleqp.C96_fixed_violated",
    "Sleqp.C96_restoration_violated",
    "Sleqp.C96_restoration_partial",
    "Sleqp.C96_phase_violated",
    "Sleqp.C96_stale_violated"
   ],
   "note": "Proved for gradients without restriction; for Jacobians and constraint values without linear constraints, and with the restrictions for dynamic and least-squares functions stated in the theorems; in the excluded cases the code is wrong, as proved. Not modelled: the space for directions and products the library itself fills."
  },
  {
   "property": "C97",
   "status": "partial",
   "theorems": [
    "Sleqp.C97_suit",
    "Sleqp.C97_refused_iff",
    "Sleqp.C97_default",
    "Sleqp.C97_ignored",
    "Sleqp.C97_restoration",
    "Sleqp.C97_lsqr_violated"
   ],
   "note": "Proved, but for LSQR: a least-squares problem is refused if its Hessians are approximated (C97_lsqr_violated). Whether the flags of a function are right is the subject of C49."
  },
  {
   "property": "C98",
   "status": "partial",
   "theorems": [
    "Sleqp.C98_phases_partial",
    "Sleqp.C98_point",
    "Sleqp.C98_values",
    "Sleqp.C98_feasible"
   ],
   "note": "Proved for all sequences of phases, with the restrictions of C82 (no callback together with preprocessing; no second-order correction after a rejected trial point or for dynamic functions), where the code evaluates at wrong points. Residuals cached by the least-squares layer across phases are the subject of C55."
  },
  {
   "property": "C99",
   "status": "partial",
   "theorems": [
    "Sleqp.C99_vector",
    "Sleqp.C99_array",
    "Sleqp.C99_callbacks",
    "Sleqp.C99_matrix_partial",
    "Sleqp.C99_unsorted_violated",
    "Sleqp.C99_residuals_violated",
    "Sleqp.C99_start_violated",
    "Sleqp.C99_problem_partial",
    "Sleqp.C99_lengths_violated",
    "Sleqp.C99_linear_violated"
   ],
   "note": "The code violates the rest: bounds, starting points and residuals of the wrong length are accepted (missing numbers become zero) or written out of range, linear constraints with one bound left out get zero for it, and sparse matrices whose columns are not in order become invalid. NaN is not part of the arrays of the model."
  },
  {
   "property": "C100",
   "status": "partial",
   "theorems": [
    "Sleqp.C100_evaluations_partial",
    "Sleqp.C100_rows",
    "Sleqp.C100_float_violated",
    "Sleqp.C100_combined_violated",
    "Sleqp.C100_order_violated",
    "Sleqp.C100_complex_violated",
    "Sleqp.C100_complex_args_violated",
    "Sleqp.C100_args_violated",
    "Sleqp.C100_identity_violated",
    "Sleqp.C100_missing_violated",
    "Sleqp.C100_views_violated"
   ],
   "note": "Proved for every sequence of requests for the combinations of MinProb.Supported. The code violates the rest: differences of objectives returning plain Python numbers fail, extra arguments are mangled for jac=True, dropped for complex steps and handed to the constraints, Hessians by complex steps always fail, products of an identity Hessian fail with constraints, and central differences of functions returning views of their argument are silently zero. The user's functions are assumed pure, and their derivatives to have the right shapes."
  },
  {
   "property": "C101",
   "status": "partial",
   "theorems": [
    "Sleqp.C101_feasible_partial",
    "Sleqp.C101_strategy_violated",
    "Sleqp.C101_bounds_violated",
    "Sleqp.C101_linear_violated",
    "Sleqp.C101_scalar_violated",
    "Sleqp.C101_vector_violated"
   ],
   "note": "Proved for bounds with one number per variable and value, functions of dictionaries with one value and second derivatives given or by differences. The code violates the rest: one number as bound of all variables changes the number of variables, a bound of linear constraints left out silently becomes zero, numbers as bounds and SciPy's default for second derivatives are refused, and functions of dictionaries with several values fail."
  },
  {
   "property": "C102",
   "status": "partial",
   "theorems": [
    "Sleqp.C102_numbers_partial",
    "Sleqp.C102_vectors",
    "Sleqp.C102_integers",
    "Sleqp.C102_codes",
    "Sleqp.C102_direct",
    "Sleqp.C102_stale_violated",
    "Sleqp.C102_multipliers_violated",
    "Sleqp.C102_merit_violated",
    "Sleqp.C102_restoration_violated",
    "Sleqp.C102_rayleigh_violated"
   ],
   "note": "Proved for the vectors in general, and for the numbers as far as the code keeps them current: all of them after solves that end optimal, the feasibility residual also after local infeasibility or a rejected step. The code violates the rest: after an accepted step the scalar residuals and the merit value are those of the previous point, after a rejected step the slackness and stationarity residuals are those for the previous multipliers, the merit value ignores a changed penalty parameter, queries in and after a restoration phase report the data of the optimization phase from before it, and the Rayleigh quotients are indeterminate for Gauss-Newton and for trlib before its first solve."
  },
  {
   "property": "C103",
   "status": "partial",
   "theorems": [
    "Sleqp.C103_normal",
    "Sleqp.C103_cause_partial",
    "Sleqp.C103_blame",
    "Sleqp.C103_library",
    "Sleqp.C103_bad_result",
    "Sleqp.C103_quiet_partial",
    "Sleqp.C103_unregister_violated",
    "Sleqp.C103_one_shot_violated",
    "Sleqp.C103_falsy_violated",
    "Sleqp.C103_message_violated",
    "Sleqp.C103_create_violated"
   ],
   "note": "Proved after all histories: a normal return means that nothing was raised, no exception is blamed wrongly, errors of the library keep their kind and message; the chain of causes is complete for callbacks that do not unregister themselves before raising and for exceptions that are true in Python. The code violates the rest: exceptions of callbacks that have unregistered themselves, of values that are false, and those raised at the creation of the solver are lost; a callback that merely unregisters itself can make solve fail; the message of evaluation errors is indeterminate."
  },
  {
   "property": "C104",
   "status": "partial",
   "theorems": [
    "Sleqp.C104_reset_partial",
    "Sleqp.C104_infeasible",
    "Sleqp.C104_history_partial",
    "Sleqp.C104_window_violated",
    "Sleqp.C104_minstep_violated",
    "Sleqp.C104_multipliers_violated",
    "Sleqp.C104_restoration_violated"
   ],
   "note": "Proved for all histories of solves and resets with the direct step rule and without restoration, provided the multipliers left in the iterate do not change the optimality of the initial point; and for every session whose step rules and start are those of a new solver. The code violates the rest: step rules with a memory are never reset, the multipliers and the point of the last restoration phase survive. The memory of the LP solver and the numerical details of the steps are not modelled."
  },
  {
   "property": "C105",
   "status": "partial",
   "theorems": [
    "Sleqp.C105_resume_partial",
    "Sleqp.C105_start_partial",
    "Sleqp.C105_restart_violated",
    "Sleqp.C105_sum_violated"
   ],
   "note": "Proved for the solver of a single problem inside: a run that reaches its limit without an abort request in its last iteration, followed by a further run, is the run with the sum of the limits. The code violates the property for the solver as a whole: each solve goes back to the initial point (or the point of the last restoration phase) and the current solution is lost."
  },
  {
   "property": "C106",
   "status": "partial",
   "theorems": [
    "Sleqp.C106_unscaled_partial",
    "Sleqp.C106_scaled_partial",
    "Sleqp.C106_tight_partial",
    "Sleqp.C106_feasibility_violated",
    "Sleqp.C106_stationarity_violated",
    "Sleqp.C106_slackness_violated"
   ],
   "note": "Proved without scaling, and with any scaling for tolerances multiplied by the scales of constraints, gradient components and complementarity products; hence with the tolerances of the settings if the weights only tighten the tests. The code violates the property for other weights since it tests the scaled residuals only. Preprocessing is not included (C38 covers the exact case), nor rounding and residuals that are not numbers."
  },
  {
   "property": "C107",
   "status": "partial",
   "theorems": [
    "Sleqp.C107_listed_partial",
    "Sleqp.C107_exact_partial",
    "Sleqp.C107_empty_partial",
    "Sleqp.C107_tolerance_violated"
   ],
   "note": "Proved: every constraint violated by more than the tolerance is listed, once, in increasing order; listed constraints are violated; for the tolerance 0 the list is exact. The code violates the rest: the tolerance is passed on but never used, so a solution reported as optimal may have violated constraints."
  },
  {
   "property": "C108",
   "status": "partial",
   "theorems": [
    "Sleqp.C108_create",
    "Sleqp.C108_calls_partial",
    "Sleqp.C108_accepted_partial",
    "Sleqp.C108_accepted_violated"
   ],
   "note": "Proved: acceptance of a problem exactly if the required callbacks are handles; for every history of evaluations the right callback with the right arguments. The code violates the rest: with preprocessing (and, see C56, with scaling) the callback for accepted iterates gets components of the internal problem at wrong positions. Conversion of the results is C93, of the problem data C94. That an error in a callback aborts the solve is not part of the model."
  },
  {
   "property": "C109",
   "status": "partial",
   "theorems": [
    "Sleqp.C109_safe_partial",
    "Sleqp.C109_leak_violated",
    "Sleqp.C109_released_partial",
    "Sleqp.C109_dynamic_violated",
    "Sleqp.C109_failure_violated"
   ],
   "note": "Proved: no call touches freed memory, and the cleanup functions of regular and least-squares functions release exactly what these own. The code violates the rest: the function and the settings are never released, failed calls release nothing, and the cleanup of dynamic functions destroys arrays twice. What the solver itself allocates is C92."
  },
  {
   "property": "C110",
   "status": "partial",
   "theorems": [
    "Sleqp.C110_within_partial",
    "Sleqp.C110_scaled",
    "Sleqp.C110_preprocessed_partial",
    "Sleqp.C110_check_violated",
    "Sleqp.C110_preprocess_violated"
   ],
   "note": "Proved for all histories of solves, phases and checks: every value set for a reason other than checking derivatives is within the variable bounds of the problem handed to the solver (none of them closer to zero than the tolerance), and within those of the original problem with scaling, and with preprocessing if no variable bound is removed. The code violates the rest: derivative checks leave the bounds, and with preprocessing the bounds implied by linear constraints are removed, so that iterations evaluate outside of them."
  },
  {
   "property": "C111",
   "status": "partial",
   "theorems": [
    "Sleqp.C111_feasible_partial",
    "Sleqp.C111_feasible_violated"
   ],
   "note": "Proved from the data read by the AMPL library to the created problem, for bounds which are infinite or ordinary numbers (smaller than half the number representing infinity, not within the tolerance of zero), also after the constants of linear constraints were subtracted. Violated for linear constraints without upper bound with huge constants: these are subtracted from the infinite upper bound."
  },
  {
   "property": "C112",
   "status": "partial",
   "theorems": [
    "Sleqp.C112_run",
    "Sleqp.C112_error_partial",
    "Sleqp.C112_identifiers",
    "Sleqp.C112_wrong_call",
    "Sleqp.C112_status",
    "Sleqp.C112_states",
    "Sleqp.C112_results_partial",
    "Sleqp.C112_percent_violated",
    "Sleqp.C112_name_violated"
   ],
   "note": "Proved: dispatch, identifiers, numbers of the enumerations and contents of the returned structure, and errors whose message has no percent sign. Violated: the message is used as format text, so that a percent sign in the report of an exception leads to undefined behaviour; the multipliers of the variables are returned under a misspelt name."
  },
  {
   "property": "C113",
   "status": "partial",
   "theorems": [
    "Sleqp.C113_exit",
    "Sleqp.C113_error_partial",
    "Sleqp.C113_solution_partial",
    "Sleqp.C113_message",
    "Sleqp.C113_texts",
    "Sleqp.C113_states_violated",
    "Sleqp.C113_early_violated"
   ],
   "note": "Proved: exit code, failures of the solve, and the contents of the solution file on the assumption that the AMPL library copies the states handed over. Violated: the library keeps pointers to these states, which are released before the file is written; failures before the solve (for instance contradictory bounds) write no solution file."
  },
  {
   "property": "C114",
   "status": "partial",
   "theorems": [
    "Sleqp.C114_matrix_partial",
    "Sleqp.C114_vector",
    "Sleqp.C114_print",
    "Sleqp.C114_small_violated",
    "Sleqp.C114_matrix_print"
   ],
   "note": "Proved for vectors with a relative error of half a unit in the 14th digit; for matrices printed in readable form with a relative error of half a unit in the sixth digit; for matrices in the Matrix Market format: sizes, positions, uniqueness, and values up to an absolute error of half a unit in the sixth digit after the decimal point. Violated for small values of matrices in this format, which are written as zero."
  },
  {
   "property": "C115",
   "status": "partial",
   "theorems": [
    "Sleqp.C115_delivery",
    "Sleqp.C115_trace",
    "Sleqp.C115_quiet",
    "Sleqp.C115_python_partial",
    "Sleqp.C115_loaded",
    "Sleqp.C115_custom_violated",
    "Sleqp.C115_import_violated"
   ],
   "note": "Proved for the library, and for Python when the level set last is one of those of the logging module. Violated: other levels raise an error after the level of the logger, but not that of the library, was changed; when the logger was asked for before the module is loaded, the handler is not installed."
  },
  {
   "property": "C116",
   "status": "partial",
   "theorems": [
    "Sleqp.C116_names",
    "Sleqp.C116_values",
    "Sleqp.C116_defaults",
    "Sleqp.C116_assign",
    "Sleqp.C116_history",
    "Sleqp.C116_create",
    "Sleqp.C116_copy_partial",
    "Sleqp.C116_mixed_violated",
    "Sleqp.C116_foreign_violated",
    "Sleqp.C116_truth_violated",
    "Sleqp.C116_missing_violated"
   ],
   "note": "Proved: names, values, defaults, assignments with their frame, histories, creation; copies of readable settings. Violated: the mixed estimation of multipliers cannot be read or named, members of other enumerations are accepted, any text switches a flag on, four settings are missing."
  },
  {
   "property": "C117",
   "status": "partial",
   "theorems": [
    "Sleqp.C117_create",
    "Sleqp.C117_weights",
    "Sleqp.C117_nominal_partial",
    "Sleqp.C117_gradient_partial",
    "Sleqp.C117_jacobian_partial",
    "Sleqp.C117_conversion_partial",
    "Sleqp.C117_conversion_violated",
    "Sleqp.C117_sizes",
    "Sleqp.C117_strided_violated",
    "Sleqp.C117_empty_violated",
    "Sleqp.C117_again_violated",
    "Sleqp.C117_setter_violated",
    "Sleqp.C117_print_violated"
   ],
   "note": "Proved: creation, single weights with their frame, contiguous arrays of nominal values, gradients, the first Jacobian, sizes after any calls. Violated: sections of arrays are read as if contiguous, empty arrays raise an exception, a second Jacobian overruns the first, assigning all weights always fails, printing fails, conversions are not inverse to each other."
  },
  {
   "property": "C118",
   "status": "partial",
   "theorems": [
    "Sleqp.PyRefs.C118_lifetime",
    "Sleqp.PyRefs.C118_view_partial",
    "Sleqp.C118_state_partial",
    "Sleqp.C118_changed_violated",
    "Sleqp.C118_dangling_violated",
    "Sleqp.C118_empty_violated",
    "Sleqp.C118_index_violated"
   ],
   "note": "Proved: lifetimes for all sequences; a Jacobian handed out keeps its values as long as the library does not assign another one to the iterate. Violated: later iterations change it, or leave it referring to released memory; an empty Jacobian cannot be obtained; indices of states are not checked."
  },
  {
   "property": "C119",
   "status": "partial",
   "theorems": [
    "Sleqp.C119_back_partial",
    "Sleqp.C119_forward_partial",
    "Sleqp.C119_trust_violated",
    "Sleqp.C119_near_partial"
   ],
   "note": "Proved: the trial point for smaller radii (all of the statement) and for larger ones (bounds, radius of the linear program, working set; the value predicted is an upper bound and not larger than the current merit value). Violated: the step may leave the trust region, the value predicted is not that of the step, and the multipliers are those of another working set; no radius accepted: see C79. With a positive zero_eps the same holds up to explicit errors (C119_near_partial, without the value predicted for larger radii). Missing: Newton steps."
  },
  {
   "property": "C120",
   "status": "partial",
   "theorems": [
    "Sleqp.C120_belongs_partial",
    "Sleqp.C120_lag_partial",
    "Sleqp.C120_multipliers_violated",
    "Sleqp.C120_optimality_violated"
   ],
   "note": "Proved: after any history, multipliers and working set are those computed at the point if any were computed there (the last step was rejected); otherwise exactly those of the point before the previous one. Violated: after an accepted step they belong to an earlier point, both in the solution returned and in the test for optimality."
  },
  {
   "property": "C121",
   "status": "partial",
   "theorems": [
    "Sleqp.C121_line_partial",
    "Sleqp.C121_soc_violated",
    "Sleqp.C121_unchanged_violated",
    "Sleqp.C121_summary_partial",
    "Sleqp.C121_original_violated"
   ],
   "note": "Proved: the columns for steps and working sets of all lines after the first accepted step in terms of the points visited; the summary of runs with status optimal without scaling, and with scaling except for the residuals of the user's problem. Violated: the length shown for corrected steps is that of the rejected step; '--' is shown for a working set that differs from that of the line before; the residuals described as original are those of the scaled problem. Missing: summaries for other statuses (numbers of the previous point, see C102)."
  },
  {
   "property": "C122",
   "status": "partial",
   "theorems": [
    "Sleqp.C122_deadline_partial",
    "Sleqp.C122_unlimited_partial",
    "Sleqp.C122_loop_partial",
    "Sleqp.C122_newton_violated",
    "Sleqp.C122_idle_violated",
    "Sleqp.C122_stale_violated",
    "Sleqp.C122_loop_violated"
   ],
   "note": "Proved: every part gets a limit; by how much each of these limits may end too late (time between LP solves and in reduced problems; for Newton steps the time since the reading before the Cauchy step); without limits from the beginning no part gets one; when exactly the loops stop. Violated: Newton steps are given the time their Cauchy step has already used; time between LP solves is not counted; LP libraries keep the limit of an earlier solve; the loops count the time of the previous one."
  },
  {
   "property": "C123",
   "status": "partial",
   "theorems": [
    "Sleqp.C123_trial_partial",
    "Sleqp.C123_history_partial",
    "Sleqp.C123_newton_violated"
   ],
   "note": "Proved: whatever runs out of time except a Newton step, all timers are ready again afterwards, so that trial points pass all assertions of timers; with Gauss-Newton steps for all histories. Violated: a Newton step which runs out of time leaves two timers running, and the next one fails with an assertion."
  },
  {
   "property": "C124",
   "status": "partial",
   "theorems": [
    "Sleqp.C124_merit_partial",
    "Sleqp.C124_ratio_partial",
    "Sleqp.C124_nonlinearity_partial",
    "Sleqp.C124_curvature_partial",
    "Sleqp.C124_percent_partial",
    "Sleqp.C124_soc_partial",
    "Sleqp.C124_linear_violated",
    "Sleqp.C124_percent_violated",
    "Sleqp.C124_rejected_violated"
   ],
   "note": "Proved: merit values shown are those of penalty function and quadratic model (any drop tolerance); the ratio is that of the direct step rule if this is given the quadratic model value; nonlinearity line (drop tolerance zero), its bounds and its meaning for quadratic functions; percentages for current values other than zero; lines about corrected points. Violated: with the linear model another ratio is shown than used; a current value zero gives 0 %; points rejected by the user's function are reported with values of an earlier point."
  },
  {
   "property": "C125",
   "status": "partial",
   "theorems": [
    "Sleqp.C125_limit_partial",
    "Sleqp.C125_stopped_partial",
    "Sleqp.C125_unlimited_partial",
    "Sleqp.C125_history_partial",
    "Sleqp.C125_again_violated",
    "Sleqp.C125_check_violated"
   ],
   "note": "Proved: with the time of earlier solves deducted from L, no iteration begins and no limit of a trial point ends later than the deadline plus the longest time a pass spends outside of iterations; a stop for lack of time is justified by the total time; unlimited solves; histories of solves pass the timer's assertions. Violated: the timer of the solver is never reset, so that earlier solves use up the limit; time outside of iterations, e.g. of the derivative check, is not counted until the next pass."
  },
  {
   "property": "C126",
   "status": "partial",
   "theorems": [
    "Sleqp.C126_history_partial",
    "Sleqp.C126_guarded_partial",
    "Sleqp.C126_error_violated",
    "Sleqp.C126_function_violated",
    "Sleqp.C126_timeout_violated"
   ],
   "note": "Only timers are modelled: whether those started are stopped. Proved: histories of solves without errors and without time-outs of Newton steps pass all assertions and leave running at most timers that are reset before use; timers of problem solver, EQP solver and LPs are always stopped. Violated: after any error each further solve fails an assertion, as does any run of another solver calling the function that failed; after a time-out of a Newton step so does every later Newton step."
  },
  {
   "property": "C127",
   "status": "partial",
   "theorems": [
    "Sleqp.C127_separate_partial",
    "Sleqp.C127_finished_partial",
    "Sleqp.C127_log_partial",
    "Sleqp.C127_sharing_violated",
    "Sleqp.C127_clock_violated"
   ],
   "note": "Proved for all schedules: threads sharing no objects see their own errors, counts and times only, as if they were alone; with shared objects, too, the conversion of times is mutually exclusive and log lines show their own times. Violated: reference counts of shared objects (e.g. the same settings for solvers in two threads) are not atomic, so that a schedule frees them while in use; timers read the processor time of the process, so that other threads use up time limits."
  },
  {
   "property": "C128",
   "status": "partial",
   "theorems": [
    "Sleqp.C128_held_partial",
    "Sleqp.C128_switch_partial",
    "Sleqp.C128_revoked_violated",
    "Sleqp.C128_creation_violated",
    "Sleqp.C128_switching_violated",
    "Sleqp.C128_callbacks_partial",
    "Sleqp.C128_order_violated",
    "Sleqp.C128_dispatch_violated"
   ],
   "note": "Proved for histories in which operations are not interrupted by other threads and the release is not revoked during a solve without the lock: all calls hold the lock, and switching reaches everything alive and keeps the set of callbacks. Violated: revoking the release during such a solve; creating a problem or beginning a solve while another thread switches; the order of three or more callbacks changes, and a callback that switches may be called twice while another one is left out."
  },
  {
   "property": "C129",
   "status": "partial",
   "theorems": [
    "Sleqp.C129_told_partial",
    "Sleqp.C129_eval",
    "Sleqp.C129_runs_partial",
    "Sleqp.C129_refused",
    "Sleqp.C129_weights_violated",
    "Sleqp.C129_values_violated"
   ],
   "note": "Proved: histories without error tell the function exactly what was set; proper results are taken over exactly; results without objective value, error or constraint values, and errors outside their bounds, are refused. Violated: setting weights of constraints always raises an exception, so that no such problem with constraints can be solved; the number of constraint values is not checked. An error that is NaN passes (see C23). The behaviour of Cython's own arrays (they have no method view) is an assumption of the model: Cython is not part of the repository."
  },
  {
   "property": "C130",
   "status": "partial",
   "theorems": [
    "Sleqp.PyHess.C130_method_partial",
    "Sleqp.PyHess.C130_default",
    "Sleqp.PyHess.C130_valid_partial",
    "Sleqp.PyHess.C130_exception_partial",
    "Sleqp.PyHess.C130_steps_partial",
    "Sleqp.PyHess.C130_lsq_violated",
    "Sleqp.PyHess.C130_attribute_violated",
    "Sleqp.PyHess.C130_end_violated"
   ],
   "note": "Proved for ordinary and dynamic problems, methods which push positive ends, and exceptions other than AttributeError. For least-squares problems the method is never called (C130_lsq_violated); an AttributeError raised inside the method is lost and leaves an incomplete structure (C130_attribute_violated); a first block with a negative end is accepted (C130_end_violated)."
  },
  {
   "property": "C131",
   "status": "partial",
   "theorems": [
    "Sleqp.C131_direction_valid",
    "Sleqp.C131_direction_reset",
    "Sleqp.C131_working_set_partial",
    "Sleqp.C131_leak_violated",
    "Sleqp.C131_equality_violated",
    "Sleqp.C131_variables_violated",
    "Sleqp.C131_newton_partial",
    "Sleqp.C131_direction_near",
    "Sleqp.C131_trial_partial",
    "Sleqp.C131_trial_newton_partial",
    "Sleqp.C131_solver_partial",
    "Sleqp.C131_solver_checks_partial",
    "Sleqp.C131_trlib_partial",
    "Sleqp.C131_trlib_violated"
   ],
   "note": "The check of a direction is proved exact, with the Jacobian product cut off at the drop tolerance. Trial directions pass it for any drop tolerance if no Newton step is made; Cauchy, Newton and trial directions with Newton steps pass for a zero drop tolerance (missing: a positive one). The check of the working set has no false alarms; accepted steps keep the constraints active at one bound. The trust-region solver with its checks equals the one without for a zero drop tolerance. The check of steps computed by trlib accepts optimal steps, and only these for a zero tolerance, but for a positive one it accepts any step in a small trust region (C131_trlib_violated). A refused direction loses one or two vectors (C131_leak_violated), constraints active at both bounds are not checked (C131_equality_violated) nor are variables (C131_variables_violated)."
  },
  {
   "property": "C132",
   "status": "partial",
   "theorems": [
    "Sleqp.C132_report_partial",
    "Sleqp.C132_spectrum_partial",
    "Sleqp.C132_psd_partial",
    "Sleqp.C132_interior_violated"
   ],
   "note": "Proved for the conjugate-gradient solver and a zero drop tolerance: no assertion fails, the residuum of feasibility is zero, the residuum of stationarity is right for steps with a multiplier and for zero steps, warnings about negative curvature are justified. For nonzero steps without multiplier, such as all minimisers inside the trust region, −1 is taken for the multiplier and the warning appears for right steps (C132_interior_violated)."
  },
  {
   "property": "C133",
   "status": "partial",
   "theorems": [
    "Sleqp.C133_warnings_partial",
    "Sleqp.C133_lsq_violated",
    "Sleqp.C133_dynamic_violated"
   ],
   "note": "Proved for all setups without flags set by the user: the warning about scaling is right, that about quasi-Newton methods appears exactly if second derivatives are checked and a quasi-Newton method is used or the function is a least-squares function, and that about dynamic functions exactly if first derivatives are checked and the function is dynamic without a quasi-Newton method. For least-squares functions the warning states a quasi-Newton method which is not used (C133_lsq_violated); for dynamic functions with a quasi-Newton method there is none (C133_dynamic_violated)."
  },
  {
   "property": "C134",
   "status": "partial",
   "theorems": [
    "Sleqp.C134_print",
    "Sleqp.C134_str_partial",
    "Sleqp.C134_empty_violated"
   ],
   "note": "Proved for all working sets which represent a list of entries (which by C30 are all reachable ones), in the library and in Python. Objects created by WorkingSet() follow a null pointer when printed or asked for the numbers of variables and constraints (C134_empty_violated)."
  },
  {
   "property": "C135",
   "status": "partial",
   "theorems": [
    "Sleqp.C135_optimal",
    "Sleqp.C135_highs_partial",
    "Sleqp.C135_soplex",
    "Sleqp.C135_gurobi_partial",
    "Sleqp.C135_beyond",
    "Sleqp.C135_absent",
    "Sleqp.C135_highs_order"
   ],
   "note": "Proved for SoPlex, and for Gurobi under the condition of C80 on stored positions. For HiGHS the array for the multipliers of constraints is also given for the values of constraints, so that they are right only if the library copies the multipliers later (proved for every such order; C135_highs_order shows that the condition is needed). That a library finds a solution with multipliers of the program it holds is assumed."
  }
 ]
}