{"id": "C01", "title": "Tolerance comparisons are consistent", "statement": "For every eps in [0,1): comparing two values with the library's tolerance predicates gives exactly one of less / equal / greater; equality is reflexive and symmetric; 'less or equal' is the negation of 'greater' and 'greater or equal' the negation of 'less'; less(x,y) iff greater(y,x); the one-argument sign predicates agree with comparison against 0. A value is finite exactly if its magnitude is below half the library's infinity value.", "quantifier": "all pairs of finite values and all tolerances 0 <= eps < 1", "why_tests_cant": "The claim ranges over a continuum of pairs, including those that straddle the tolerance by less than any sampled step.", "anchors": ["src/main/cmp.c: sleqp_is_eq, sleqp_is_lt, sleqp_is_gt, sleqp_is_leq, sleqp_is_geq, sleqp_is_neg, sleqp_is_pos, sleqp_is_zero"]}
{"id": "C02", "title": "Every sparse vector produced through the API is well formed", "statement": "Starting from any created vector, after any sequence of successful push / clear / reserve / resize / scale / copy / add / clip / concatenate / remove-entries calls, the vector still has strictly increasing in-range indices and never more entries than its capacity; a call that would break this is refused (assertion) rather than executed.", "quantifier": "all operation sequences, dimensions and values", "why_tests_cant": "The reachable states are unbounded; a corrupting call sequence may be arbitrarily long.", "anchors": ["src/main/sparse/vec.c: sleqp_vec_push, sleqp_vec_resize, sleqp_vec_reserve, sleqp_vec_add_scaled, sleqp_vec_clip, sleqp_vec_is_valid"]}
{"id": "C03", "title": "Sparse vector arithmetic means dense arithmetic", "statement": "For well formed vectors of equal dimension, scaled addition, dot product, scaling, element access, fill, concatenation, infinity norm and squared norm return what the same operation on the dense coordinates returns (up to dropping entries of magnitude at most the caller's zero tolerance), and never write past the capacity they reserved.", "quantifier": "all vectors, all sparsity patterns, all scale factors and all zero tolerances >= 0", "why_tests_cant": "The merge loops behave differently for each interleaving of the two index patterns; there are exponentially many.", "anchors": ["src/main/sparse/vec.c: sleqp_vec_add_scaled, sleqp_vec_dot, sleqp_vec_scale, sleqp_vec_at, sleqp_vec_value_at, sleqp_vec_inf_norm, sleqp_vec_concat, sleqp_vec_fill"]}
{"id": "C04", "title": "Raw/sparse conversion round trip", "statement": "Writing a dense array into a sparse vector and reading it back returns the array exactly when the zero tolerance is 0, and otherwise changes only entries of magnitude at most the tolerance (to 0). Reading a sparse vector into an array and back loses nothing but explicit zeros.", "quantifier": "all arrays and tolerances", "why_tests_cant": "All lengths and zero patterns.", "anchors": ["src/main/sparse/vec.c: sleqp_vec_set_from_raw, sleqp_vec_to_raw"]}
{"id": "C05", "title": "Clipping projects onto the box", "statement": "For lb <= ub, clipping a vector returns, in every coordinate, min(max(x,lb),ub) when the zero tolerance is 0; the result lies in the box, points already in the box are unchanged, and the reserved capacity always suffices. With a positive tolerance every coordinate is either that value or a 0 replacing a value of magnitude at most the tolerance.", "quantifier": "all x, lb <= ub, sparsity patterns, tolerances", "why_tests_cant": "Three-way merge with exponentially many index interleavings.", "anchors": ["src/main/sparse/vec.c: sleqp_vec_clip, sleqp_vec_is_boxed"]}
{"id": "C06", "title": "Finiteness check sees every entry", "statement": "The vector finiteness check reports true exactly when every stored entry is finite, so that non-finite user values are always detected. (The code violates this: the last stored entry is never inspected.)", "quantifier": "all vectors", "why_tests_cant": "Needs the check on every position of every length.", "anchors": ["src/main/sparse/vec.c: sleqp_vec_is_finite", "src/main/sparse/mat.c: sleqp_mat_is_finite"]}
{"id": "C07", "title": "Removing and re-inserting entries are inverse", "statement": "Deleting a set of coordinates from a vector and later re-inserting them with their fixed values restores the original vector whenever it had these values at these coordinates; inserting then deleting always restores. Both produce well formed vectors of the right dimension. Deleting rows and columns of a matrix keeps exactly the other entries, in order.", "quantifier": "all vectors and all sets of removed indices", "why_tests_cant": "Exponentially many index subsets; index shifting bugs show only for particular patterns.", "anchors": ["src/main/sparse/vec.c: sleqp_vec_remove_entries", "src/main/preprocessor/preprocessing.c: sleqp_preprocessing_merge_entries, sleqp_preprocessing_add_zero_entries"]}
{"id": "C08", "title": "Sparse matrix products are the dense products and adjoint to each other", "statement": "For every well formed matrix, the product with a vector and the product of the transpose with a vector equal the dense products, hence <A x, y> = <x, A^T y>; transposing a matrix gives entry (j,i) = entry (i,j) and is well formed. Scaling a matrix scales every entry.", "quantifier": "all matrices, shapes, patterns and vectors", "why_tests_cant": "All shapes and sparsity patterns.", "anchors": ["src/main/sparse/mat.c: sleqp_mat_mult_vec, sleqp_mat_mult_vec_trans, sleqp_mat_value_at, sleqp_mat_trans"]}
{"id": "C09", "title": "Matrix assembly keeps the matrix well formed and places entries where the caller asked", "statement": "Any sequence of successful reserve/push/push-column/resize/clear calls that fills columns in order and rows increasing within a column leaves a well formed compressed-column matrix whose value at (i,j) is the pushed value, or 0 if nothing was pushed.", "quantifier": "all call sequences that follow the assembly protocol", "why_tests_cant": "Unbounded histories of operations.", "anchors": ["src/main/sparse/mat.c: sleqp_mat_push, sleqp_mat_push_col, sleqp_mat_reserve, sleqp_mat_resize, sleqp_mat_is_valid"]}
{"id": "C10", "title": "Stacking constraint Jacobians", "statement": "Stacking two matrices vertically gives exactly the rows of the first followed by the rows of the second, whatever the result matrix contained before. (The code violates the last part: a result matrix with more columns and old entries is corrupted.)", "quantifier": "all pairs of matrices with equal column counts and all previous contents of the result", "why_tests_cant": "Depends on arbitrary previous contents of the reused output object.", "anchors": ["src/main/sparse/mat.c: sleqp_mat_vstack"]}
{"id": "C11", "title": "Sparse equality is dense equality", "statement": "Comparing two sparse vectors (matrices) with tolerance 0 returns true exactly when all their dense entries agree, and is symmetric. (The matrix comparison violates this when explicit zeros are stored.)", "quantifier": "all pairs and patterns", "why_tests_cant": "All interleavings of patterns, including explicitly stored zeros.", "anchors": ["src/main/sparse/vec.c: sleqp_vec_eq", "src/main/sparse/mat.c: sleqp_mat_eq"]}
{"id": "C12", "title": "Reported feasibility residual is the worst violation", "statement": "The feasibility residual of an iterate equals the largest amount by which any constraint value leaves [lb,ub] (0 if none); it is at most tol iff every constraint is within tol of its interval; total violation is the sum, is 0 iff the point is feasible and bounds the worst one from above.", "quantifier": "all constraint values, bounds and sparsity patterns", "why_tests_cant": "Three-way merge over arbitrary patterns and signs.", "anchors": ["src/main/feas.c: sleqp_max_violation, sleqp_total_violation, sleqp_violation_values, sleqp_feasibility_residuals", "src/main/iterate.c: sleqp_iterate_feasibility_residuum"]}
{"id": "C13", "title": "Violated-constraint multipliers have the right sign", "statement": "The multiplier vector of violated constraints is +1 exactly on constraints above their upper bound, -1 exactly on those below their lower bound and 0 elsewhere, so that its product with a direction is the derivative of the total violation at points where no constraint is exactly at a bound.", "quantifier": "all values, bounds, patterns", "why_tests_cant": "All patterns and signs.", "anchors": ["src/main/feas.c: sleqp_violated_cons_multipliers"]}
{"id": "C14", "title": "Optimal status certifies approximate KKT conditions", "statement": "When an iterate is reported optimal, its feasibility residual is at most the feasibility tolerance, its complementarity residual below the slackness tolerance and its stationarity residual below the stationarity tolerance. (With NaN residuals the code violates this: a NaN passes.)", "quantifier": "all iterates, including ones with NaN data, all tolerances", "why_tests_cant": "Requires reasoning about all residual values including NaN.", "anchors": ["src/main/iterate.c: sleqp_iterate_is_optimal, sleqp_iterate_is_feasible, sleqp_iterate_slackness_residuum, sleqp_iterate_stationarity_residuum"]}
{"id": "C15", "title": "Complementarity residual vanishes exactly at complementary pairs", "statement": "The slackness residual is 0 iff for every constraint/variable the multiplier is 0 or the value is at (or beyond) the bound selected by the multiplier's sign.", "quantifier": "all values, bounds, multipliers and patterns", "why_tests_cant": "All patterns.", "anchors": ["src/main/iterate.c: slack_residuum, sleqp_iterate_slackness_residuum"]}
{"id": "C16", "title": "Merit function is an exact penalty model", "statement": "The merit value is objective + penalty * total violation: never below the objective, equal to it iff feasible (penalty > 0), nondecreasing in the penalty; the linear and quadratic models agree with it at the zero step, and the linear model is convex along every direction.", "quantifier": "all iterates, directions, penalties > 0", "why_tests_cant": "Continuum of values.", "anchors": ["src/main/merit.c: sleqp_merit_func, sleqp_merit_linear, sleqp_merit_quadratic"]}
{"id": "C17", "title": "An accepted step decreases the merit function", "statement": "With the direct step rule and a predicted decrease above rounding level, a step is accepted only if the actual merit decrease is at least the required fraction of the predicted one; in particular accepted merit values strictly decrease. (For a predicted decrease of 0 the code violates this: an increase can be accepted.)", "quantifier": "all merit values, predictions and thresholds", "why_tests_cant": "The failing inputs are a tiny neighbourhood of 0 in the predicted reduction.", "anchors": ["src/main/util.c: sleqp_reduction_ratio", "src/main/step/step_rule_direct.c: step_rule_direct_apply"]}
{"id": "C18", "title": "Nonmonotone step rules never lose the initial merit", "statement": "With the window and the minimum-step rules, along any run each accepted merit value is below the largest remembered merit value, hence never above the merit value of the first iterate; the window rule's reference is the maximum over exactly the last N accepted values.", "quantifier": "all sequences of trial merit values, all window sizes", "why_tests_cant": "Histories of unbounded length and a wrapping ring buffer.", "anchors": ["src/main/step/step_rule_window.c", "src/main/step/step_rule_minstep.c"]}
{"id": "C19", "title": "Trust region radii stay positive and shrink on rejection", "statement": "Both trust radii stay strictly positive for ever; a rejected step never enlarges the LP radius and at least halves the EQP radius when the ratio is below the expansion thresholds; hence after finitely many consecutive rejections the EQP radius falls below any dead-point bound; an accepted step never shrinks the EQP radius.", "quantifier": "all run histories, step norms and ratios", "why_tests_cant": "Unbounded histories, limit statement.", "anchors": ["src/main/problem_solver/trust_radius.c"]}
{"id": "C20", "title": "Solve loop respects its limits and never returns 'running'", "statement": "For every problem behaviour, a solve with a finite iteration limit performs at most that many iterations, terminates, and returns a final status; 'iteration limit' is returned only if the limit was reached, 'time limit' only if the time was exhausted; dead-point status only if a radius fell to its bound.", "quantifier": "all sequences of per-iteration outcomes, limits and timings", "why_tests_cant": "Arbitrary behaviours of user callbacks and timings.", "anchors": ["src/main/problem_solver/solve.c: sleqp_problem_solver_solve"]}
{"id": "C21", "title": "Requested aborts are honoured", "statement": "If abort is requested during iteration k, no further iteration is performed and the solve ends; requests are cleared at the next solve. (A request made through the solver while it is in the restoration phase is lost by the code.)", "quantifier": "all points in a run at which the abort is requested", "why_tests_cant": "Any interleaving of the request with the run.", "anchors": ["src/main/problem_solver/solve.c", "src/main/solver/solve.c", "src/main/solver/solver.c: sleqp_solver_abort"]}
{"id": "C22", "title": "Two-phase control terminates with a sound status", "statement": "The outer loop alternating optimization and restoration ends after finitely many phases for a finite iteration budget; 'optimal' and 'unbounded' come only from an optimization phase; limits (iteration, time, dead point) are passed through; restoration is entered only on local infeasibility and when enabled; with restoration disabled the outcome is that of the single optimization phase.", "quantifier": "all sequences of phase outcomes", "why_tests_cant": "All behaviours of the phase solvers.", "anchors": ["src/main/solver/solve.c", "src/main/solver/phase.c"]}
{"id": "C23", "title": "Dynamic functions never deliver values coarser than requested", "statement": "After any history of set-point / set-error-bound / set-weights / evaluate calls, a successful evaluation returns an error estimate in [0, current bound], and repeated evaluation without changes returns the same values without calling the user again. (The code violates freshness: changing the weights does not invalidate the cached values.)", "quantifier": "all call histories and user responses", "why_tests_cant": "Unbounded histories of cache operations.", "anchors": ["src/main/dyn.c"]}
{"id": "C24", "title": "Least-squares functions are consistent", "statement": "Objective, gradient and Hessian product derived from residuals satisfy f = 1/2 |r|^2, grad = J^T r, and d^T H d = |J d|^2 + lm |d|^2 >= 0; the residual used is always that of the latest point for every history of set-value/eval calls whose user callbacks succeed.", "quantifier": "all residuals, Jacobians, directions, and call histories", "why_tests_cant": "Continuum and unbounded histories.", "anchors": ["src/main/lsq.c"]}
{"id": "C25", "title": "Restoration problem is exact", "statement": "The feasibility-restoration objective is nonnegative and is 0 at (x,s) within its bounds iff s = c(x), so its zero points are exactly the feasible points of the original; forward and adjoint products are transposes of each other; lifting a point and restoring it returns the point; the lifted start is within the lifted bounds.", "quantifier": "all problems, points, directions", "why_tests_cant": "All dimensions and values.", "anchors": ["src/main/restoration.c"]}
{"id": "C26", "title": "Damped BFGS keeps a positive definite symmetric Hessian model", "statement": "After any history of accepted pairs (with nonzero steps) the damped BFGS product is linear and symmetric, d^T B d > 0 for all d != 0, none of the divisions is by zero, and the newest (damped) secant equation holds. (Undamped BFGS violates definiteness for pairs with nonpositive curvature.)", "quantifier": "all histories of steps and gradients, all directions, all buffer sizes", "why_tests_cant": "Unbounded update histories.", "anchors": ["src/main/quasi_newton/bfgs.c"]}
{"id": "C27", "title": "SR1 Hessian model is symmetric and satisfies the newest secant equation", "statement": "After any history the SR1 product is linear and symmetric, never divides by zero, and maps the newest step to the newest gradient difference unless that update was skipped by the safeguard, in which case the previous model is kept.", "quantifier": "all histories, directions, buffer sizes", "why_tests_cant": "Unbounded histories.", "anchors": ["src/main/quasi_newton/sr1.c"]}
{"id": "C28", "title": "Quasi-Newton memory holds exactly the latest pairs in order", "statement": "After any sequence of pushes and resets the ring buffer holds exactly the last min(n, size) pushed pairs since the last reset, oldest first.", "quantifier": "all push/reset sequences and sizes", "why_tests_cant": "Index arithmetic with wrap-around over unbounded histories.", "anchors": ["src/main/quasi_newton/sr1.c: data_index, sr1_push", "src/main/quasi_newton/bfgs.c: data_index, bfgs_push"]}
{"id": "C29", "title": "Box-constrained Cauchy step solves its LP", "statement": "Without general constraints, for a point within its bounds and radius > 0, the LP step stays in bounds and in the infinity-norm trust region and minimises the linear model among all such steps; the reported objective is its value; active bounds and multipliers satisfy sign conditions and cancel the gradient on active variables.", "quantifier": "all points, bounds, gradients, radii, patterns", "why_tests_cant": "Optimality over a continuum of competitors.", "anchors": ["src/main/cauchy/box_constrained_cauchy.c", "src/main/cauchy/unconstrained_cauchy.c"]}
{"id": "C30", "title": "Working sets are consistent", "statement": "After any sequence of add-variable / add-constraint / reset / copy calls that succeed, the size equals the number of active entries, positions 0..size-1 correspond bijectively to active entries (index and content lookup are inverse), and variables precede constraints.", "quantifier": "all call sequences", "why_tests_cant": "Unbounded histories.", "anchors": ["src/main/working_set.c"]}
{"id": "C31", "title": "Estimated multipliers have admissible signs", "statement": "The least-squares dual estimate is supported by the working set: zero on inactive entries, >= 0 at upper, <= 0 at lower bounds, unchanged from the least-squares solution wherever that solution already was admissible.", "quantifier": "all solutions and working sets", "why_tests_cant": "All sign patterns.", "anchors": ["src/main/dual_estimation/dual_estimation_lsq.c", "src/main/working_set.c: sleqp_working_set_supports_cons_dual"]}
{"id": "C32", "title": "Working-set polishing only removes", "statement": "Polishing returns a working set contained in the original with unchanged states, keeps every entry carrying a nonzero multiplier, and reports the number of removed entries.", "quantifier": "all working sets and multipliers", "why_tests_cant": "All subsets.", "anchors": ["src/main/polish.c"]}
{"id": "C33", "title": "Scaling and unscaling are inverse and preserve the problem", "statement": "Scaling a point, constraint values, gradients, Jacobians, multipliers or a whole iterate and then unscaling gives back the original, bit for bit in structure; the scaled problem has the same feasible points, derivatives (gradient, Jacobian, Hessian products, least-squares residual products) of the scaled functions are consistent with the scaled values, dynamic accuracy requirements are equivalent, and feasibility, stationarity and complementarity of scaled data are equivalent to those of the original data.", "quantifier": "all weights, problems and points", "why_tests_cant": "All integer weights and values.", "anchors": ["src/main/scale.c", "src/main/problem_scaling.c"]}
{"id": "C34", "title": "Scaling treats linear constraints with their own weights", "statement": "The scaled linear coefficient of row i and column j is the original times 2^(var weight j - weight of that linear constraint), so that scaled linear constraint values match, and a scaled problem can be created for every problem with linear constraints. (The code violates this: the weights are looked up at the wrong position whenever the number of general and of linear constraints differ, and creating a scaled problem fails whenever there are linear constraints.)", "quantifier": "all numbers of general and linear constraints", "why_tests_cant": "Only visible for particular constraint counts.", "anchors": ["src/main/scale.c: sleqp_scale_linear_coeffs", "src/main/problem_scaling.c: sleqp_problem_scaling_create"]}
{"id": "C35", "title": "Preprocessing removes variables losslessly", "statement": "Evaluating the preprocessed functions at a reduced point equals evaluating the original at the restored point, and gradients/Jacobians/Hessian products are those of the original restricted to the remaining variables; restoring and transforming points are inverse.", "quantifier": "all fixed sets, points and functions", "why_tests_cant": "Exponentially many fixed sets.", "anchors": ["src/main/preprocessor/fixed_var_func.c", "src/main/preprocessor/restore.c", "src/main/preprocessor/transform.c"]}
{"id": "C36", "title": "Preprocessing preserves the feasible set", "statement": "When preprocessing succeeds, the points satisfying the variable bounds and linear constraints of the original problem are exactly the points which have the recorded values at the fixed variables and whose other coordinates satisfy the bounds and linear constraints of the preprocessed problem; the bounds of general constraints are unchanged. (Points whose coordinates or row activities reach half the value of infinity are not considered.)", "quantifier": "all linear systems and bounds", "why_tests_cant": "Infinite family of systems; needs a convexity argument.", "anchors": ["src/main/preprocessor/preprocessor.c: compute_linear_bounds, compute_variable_bounds, remove_redundant_constraints"]}
{"id": "C37", "title": "Preprocessing reports infeasible only for infeasible problems", "statement": "If preprocessing reports infeasibility then no point (with coordinates and row activities below half the value of infinity) satisfies the variable bounds and linear constraints.", "quantifier": "all linear systems and bounds", "why_tests_cant": "Infinite family of systems.", "anchors": ["src/main/preprocessor/preprocessor.c"]}
{"id": "C38", "title": "Restored multipliers satisfy stationarity", "statement": "After a solve of a preprocessed problem, the multipliers and working set returned for the original problem satisfy the stationarity condition and complementarity of the original problem with signs the working set admits, whenever those of the preprocessed problem do: rows that became variable bounds, rows that force variables and variables fixed by their bounds all receive their multipliers.", "quantifier": "all problems with exact preprocessing, all feasible points, gradients, Jacobians and multipliers of the preprocessed problem", "why_tests_cant": "All sign patterns and values.", "anchors": ["src/main/preprocessor/restore.c: sleqp_restoration_restore_iterate, correct_converted_bound, correct_forcing_constraint, correct_fixed_variables", "src/main/preprocessor/preprocessor.c"]}
{"id": "C39", "title": "Settings are validated and reading returns what was written", "statement": "For every sequence of setting updates, reading a setting returns the last successfully written value (or the default); a refused update (invalid key or invalid enumeration value) reports an error and changes nothing; settings are independent of each other.", "quantifier": "all update sequences", "why_tests_cant": "Unbounded sequences, all integers as keys and values.", "anchors": ["src/main/settings.c"]}
{"id": "C40", "title": "Callback registration behaves like a multiset", "statement": "After any sequence of add/remove calls on one event, exactly the registered-but-not-removed callbacks are called once each per dispatch; removing an unregistered one reports an error and changes nothing. (A callback that removes a callback during dispatch makes the dispatch fail.)", "quantifier": "all add/remove sequences", "why_tests_cant": "Unbounded sequences; removal reorders.", "anchors": ["src/main/callback_handler.c", "src/main/solver/callback.c"]}
{"id": "C41", "title": "Hessian block structure is a partition", "statement": "After any sequence of accepted push-block calls the block ranges and the trailing linear range are disjoint, ordered, within the dimension and cover it; refused calls change nothing.", "quantifier": "all push sequences", "why_tests_cant": "Unbounded sequences.", "anchors": ["src/main/hess_struct.c"]}
{"id": "C42", "title": "Problem creation validates bounds and concatenates constraints", "statement": "Creating a problem fails iff some lower bound exceeds its upper bound; otherwise constraint bounds/values/Jacobian are those of the general constraints followed by the linear ones, infinite bounds become the library's infinity and are still recognised as infinite.", "quantifier": "all bounds and constraint counts", "why_tests_cant": "All sizes and patterns.", "anchors": ["src/main/problem.c"]}
{"id": "C43", "title": "Cauchy line search gives sufficient decrease inside the trust region", "statement": "When the Cauchy line search succeeds, the step is a multiple in (0,1] of the LP step, lies in the trust region, and the decrease predicted by the quadratic model is at least the required fraction of the decrease predicted by the linear model; the returned merit value is that of the returned step. (For the zero-step exit the returned value violates this.)", "quantifier": "all directions, radii, Hessian products and drop tolerances (with a tolerance, decrease and merit value hold up to penalty times number of constraints times tolerance)", "why_tests_cant": "Continuum of inputs and up to thousands of backtracking steps.", "anchors": ["src/main/linesearch.c: sleqp_linesearch_cauchy_step"]}
{"id": "C44", "title": "Trial line search never does worse than the Cauchy step", "statement": "The approximate line search between Cauchy and EQP step returns a point on the connecting segment whose quadratic merit value is at most that of the Cauchy step plus the Armijo term (hence never worse for a descent slope), and falls back to exactly the Cauchy step otherwise.", "quantifier": "all directions, model data and drop tolerances (with a tolerance, merit values and bounds hold up to stated errors)", "why_tests_cant": "Continuum of inputs.", "anchors": ["src/main/linesearch.c: sleqp_linesearch_trial_step"]}
{"id": "C45", "title": "Exact line search finds the global minimum of the piecewise quadratic", "statement": "The exact line search returns the step length in [0,1] minimising the merit model between Cauchy and EQP step. (The code violates this when one of the sparse vectors ends before the other.)", "quantifier": "all breakpoint configurations and patterns", "why_tests_cant": "All orderings of breakpoints and sparsity patterns.", "anchors": ["src/main/linesearch.c: collect_breakpoints, sleqp_linesearch_trial_step_exact"]}
{"id": "C46", "title": "Penalty update is monotone and bounded", "statement": "A penalty update never decreases the penalty, multiplies it by a power of ten at most 10^100, and stops as soon as the linearised violation is removed or sufficiently reduced.", "quantifier": "all sequences of LP violations", "why_tests_cant": "All behaviours of the inner LP.", "anchors": ["src/main/penalty.c", "src/main/trial_point/cauchy_step.c: update_penalty"]}
{"id": "C47", "title": "Maximum step length keeps the point in its box", "statement": "For a point within bounds, moving by the returned fraction (in [0,1]) of the direction stays within bounds, and no larger fraction does. (The code violates this for a coordinate exactly at a bound with an outward direction.)", "quantifier": "all points, directions, bounds", "why_tests_cant": "All patterns and values.", "anchors": ["src/main/util.c: sleqp_max_step_length"]}
{"id": "C48", "title": "Trust-region CG respects the radius and never increases the model", "statement": "For every Hessian, gradient, projection and iteration count, the returned step lies in the trust region, in the null space onto which the method projects, and its quadratic model value is at most 0.", "quantifier": "all symmetric Hessians, gradients, radii, iteration limits", "why_tests_cant": "Continuum of inputs, unbounded iterations.", "anchors": ["src/main/tr/steihaug_solver.c", "src/main/tr/tr_util.c"]}
{"id": "C49", "title": "Function flags survive wrapping", "statement": "Wrapping a user function (scaling, fixing variables) yields a function carrying exactly the inexact/PSD Hessian flags of the user's. (The code violates this: having either flag copies both.)", "quantifier": "all flag combinations and histories of flag changes", "why_tests_cant": "Ranges over all flag words; a single missed combination disables safeguards.", "anchors": ["src/main/func.c: sleqp_func_flags_copy, sleqp_func_has_flags"]}
{"id": "C50", "title": "Time accounting", "statement": "Remaining time is never negative, is unlimited iff no limit was set, never increases as time passes, and the limit counts as exhausted exactly when the elapsed time reached it; the accumulated time equals the sum of completed start/stop intervals for every call history; the elapsed time of a run and the seconds reported for the last solve cover exactly that run. (The code violates the last parts: earlier runs are included.)", "quantifier": "all limits, elapsed times, and start/stop/reset histories", "why_tests_cant": "Arbitrary timings.", "anchors": ["src/main/timer.c: sleqp_timer_remaining_time, sleqp_timer_exhausted_time_limit, sleqp_timer_elapsed"]}
{"id": "C51", "title": "Unbounded status certifies a feasible low point", "statement": "If a solve reports \"unbounded\", the returned iterate is feasible within the tolerance and its objective value is at most the configured lower bound. (The code tests a stored residual that is zero before the first iteration and stale after an accepted step, so an infeasible point can be reported.)", "quantifier": "all run histories, all points and residuals", "why_tests_cant": "Depends on the whole history of accepted and rejected steps.", "anchors": ["src/main/problem_solver/iteration.c", "src/main/problem_solver/problem_solver.c"]}
{"id": "C52", "title": "Accepted steps decrease the merit function", "statement": "Along any run with the direct rule every accepted step strictly decreases the exact penalty merit function at the penalty in force; with the window rule the merit value never exceeds its initial value. (Steps during which the penalty is changed compare values of different merit functions.)", "quantifier": "all run histories and per-iteration outcomes", "why_tests_cant": "Unbounded histories; needs the acceptance test, the update of the stored merit value and the penalty update together.", "anchors": ["src/main/problem_solver/iteration.c", "src/main/step/step_rule_direct.c"]}
{"id": "C53", "title": "Step statistics add up", "statement": "The numbers of accepted, SOC-accepted and rejected steps reported by a solve add up to the number of its iterations. (A second-order correction discarded before evaluation is counted nowhere.)", "quantifier": "all run histories", "why_tests_cant": "All combinations of outcomes per iteration.", "anchors": ["src/main/problem_solver/iteration.c: accept/reject branches"]}
{"id": "C54", "title": "Initial trust radii are usable", "statement": "For every problem the initial trust radii are defined, positive, and the LP radius is smaller than the EQP radius. (A problem without variables fails.)", "quantifier": "all problem dimensions, all initial-radius settings", "why_tests_cant": "All dimensions, including the empty problem produced by preprocessing.", "anchors": ["src/main/problem_solver/trust_radius.c: initial trust radius"]}
{"id": "C55", "title": "Every restoration phase starts from its own starting point", "statement": "When the solver enters a feasibility restoration phase, the objective value and gradient it hands to that phase are those of the restoration objective (half the squared distance of the constraint values to their bounds) at the current point. (Violated from the second restoration phase on: the least-squares layer still holds the residual of the previous phase.)", "quantifier": "all problems, all starting points, all histories of earlier restoration phases", "why_tests_cant": "Requires two restoration phases in one solve; the values are wrong without any error being reported.", "anchors": ["src/main/solver/phase.c: fill_restoration_iterate, toggle_phase", "src/main/lsq.c: compute_lsq_residual", "src/main/restoration.c: sleqp_restoration_func_init"]}
{"id": "C57", "title": "Scaling keeps infinite bounds infinite", "statement": "A variable or constraint bound counts as infinite in the scaled problem exactly if it does in the original problem, so that scaling does not introduce bounds. (The code scales the number used for infinity like any other: from weight 2 on, infinite bounds become finite ones.)", "quantifier": "all weights and bounds", "why_tests_cant": "Depends on the size of the weight relative to the infinity threshold; tests use small weights.", "anchors": ["src/main/problem_scaling.c: sleqp_problem_scaling_flush", "src/main/scale.c: sleqp_scale_point, sleqp_scale_cons_val", "src/main/cmp.c: sleqp_is_finite"]}
{"id": "C58", "title": "Automatic scaling weights normalise", "statement": "Weights set from nominal values map the nominal values to [1/2, 1); weights computed from a gradient or Jacobian map the largest entries (of the gradient, of each row or of each column) to (1/2, 1] in the scaled problem, are limited to [-30, 30], and are computed without error for every valid matrix. (The weights computed from gradients and Jacobians have the wrong sign relative to the scaling that is applied: entries above 1 are made larger.)", "quantifier": "all nominal values, gradients, Jacobians and tolerances", "why_tests_cant": "The effect on conditioning is not an observable failure of a solve.", "anchors": ["src/main/scale.c: sleqp_scaling_set_var_weight_from_nominal, sleqp_obj_scaling_from_grad, sleqp_scaling_from_cons_jac", "src/main/pub_scale.h"]}
{"id": "C59", "title": "Unscaled least-squares results belong to the original objective", "statement": "The objective value, objective gradient and multipliers reported after solving a scaled least-squares problem are those of the original problem. (The code divides the gradient by the objective scale once although it enters twice, so that gradient and multipliers are off by the factor 2^(-objective weight).)", "quantifier": "all objective weights, residuals and points", "why_tests_cant": "Only visible with a nonzero objective weight; tests compare primal values.", "anchors": ["src/main/scale.c: sleqp_scaling_unscale_iterate", "src/main/lsq.c", "src/main/problem_scaling.c: scaled_lsq_residuals"]}
{"id": "C56", "title": "Callbacks get iterates in the user's coordinates", "statement": "The iterate passed to an accepted-iterate callback is the accepted iterate of the problem the user posed (unscaled, with removed variables restored), the one passed to a finished callback is the solution reported by the solver afterwards including its working set. (The code violates both: accepted iterates are passed scaled and preprocessed, and the finished callback sees the working set before polishing.)", "quantifier": "all scalings, iterates and working sets", "why_tests_cant": "a test sees few scalings and usually none; the discrepancy only shows when scaling, preprocessing or polishing is combined with callbacks", "anchors": ["src/main/solver.c: on_problem_solver_accepted_iterate, do_restore_iterate, sleqp_solver_solution", "src/main/solver/solve.c: sleqp_solver_solve", "src/main/problem_solver/step.c: sleqp_problem_solver_accept_step"]}
{"id": "C60", "title": "Displayed times denote the measured times", "statement": "The displayed value multiplied by its unit equals the measured time, and for times of at least a microsecond the value is at least 1 and below the next unit; display uses only initialised data. (The code violates the last part for a time of exactly zero.)", "quantifier": "all measured times", "why_tests_cant": "floating ranges across six units; uninitialised data shows up only by chance", "anchors": ["src/main/timer.c: round_time, round_up_time, round_down_time, sleqp_timer_display"]}
{"id": "C61", "title": "A settings file is applied line by line or refused", "statement": "Reading a settings file performs exactly the updates its lines ask for, in order, as if the setting functions had been called; a line that is not a comment, not empty and does not ask for a valid update (unknown key, unreadable value, missing value) is reported as an error, and every setting can be changed from a file.", "quantifier": "all file contents", "why_tests_cant": "Unbounded files with arbitrary text and white space; the test reads one well-formed file.", "anchors": ["src/main/settings.c: sleqp_settings_read_file, extract_key_value, trim, settings_set_key_value"]}
{"id": "C62", "title": "The parts of a direction always belong to the same step", "statement": "A direction object carries a step together with its objective-gradient product, Jacobian product and Hessian product. After resetting, scaling, zeroing, combining and copying in any order, all parts belong to the same step, namely the one obtained by performing the same operations on the steps: exactly with drop tolerance zero, otherwise up to errors of one tolerance for each Jacobian product and each combination, multiplied with the factors of later operations.", "quantifier": "all directions, factors, Jacobians and Hessian products, all drop tolerances, and all sequences of operations", "why_tests_cant": "A stale part is noticed only if some later computation happens to use it; all sequences of operations and sparsity patterns matter.", "anchors": ["src/main/direction.c: sleqp_direction_reset, sleqp_direction_scale, sleqp_direction_set_zero, sleqp_direction_add_scaled, sleqp_direction_copy"]}
{"id": "C63", "title": "Merit functions equal the exact penalty model", "statement": "The merit value, the linear merit value and the quadratic merit value of a direction are f + penalty * violation, evaluated at the current point, for the linearisation and for the quadratic model at the step of the direction: exactly with drop tolerance zero, otherwise up to the errors of the products and penalty times number of constraints times tolerance.", "quantifier": "all iterates, bounds, penalty parameters, drop tolerances and directions", "why_tests_cant": "Continuum of inputs and all sparsity patterns of constraints, bounds and products.", "anchors": ["src/main/merit.c: sleqp_merit_func, sleqp_merit_linear, sleqp_merit_quadratic"]}
{"id": "C64", "title": "Trust-region steps are at least as good as steepest descent", "statement": "The step returned for a trust-region subproblem has a model value not above that of any multiple of the projected negative gradient within the trust region, for every Hessian, gradient and iteration limit.", "quantifier": "all gradients, symmetric Hessians, orthogonal projections, radii, tolerances and limits", "why_tests_cant": "It is an inequality over all problems and limits; a test sees a few well-conditioned problems for which the limit is not reached.", "anchors": ["src/main/tr/steihaug_solver.c: steihaug_solver_solve", "src/main/tr/tr_util.c: sleqp_tr_compute_bdry_sol"]}
{"id": "C65", "title": "Preprocessing a valid problem does not fail", "statement": "For every valid problem (sorted sparse vectors and matrix, lower bounds not above upper bounds), preprocessing ends with success, or with a report that nothing changed or that the problem is infeasible; no assertion fails, no write goes past the reserved space, and no error is returned.", "quantifier": "all valid problems", "why_tests_cant": "Infinitely many combinations of redundant, forcing, singleton and fixing constraints.", "anchors": ["src/main/preprocessor/preprocessor.c", "src/main/preprocessor/preprocessing_state.c", "src/main/preprocessor/transform.c: replace_redundant_bound"]}
{"id": "C66", "title": "Linear algebra with the working set", "statement": "After any sequence of calls that set an iterate, the services of the augmented Jacobian refer to the gradients A of the active entries (unit vectors for variables, Jacobian rows for constraints) of the last iterate: the minimum-norm service returns the solution of A x = rhs of smallest Euclidean norm, the least-squares service returns multipliers y minimising the norm of A^T y - rhs, and the projection service returns the point of the null space of A closest to rhs (entries up to the drop tolerance being stored as zero). Building the system never overruns an array or fails an assertion. This holds for the standard, the reduced, the box-constrained and the unconstrained variant, and the reuse of the factorization for problems with linear constraints does not change it.", "quantifier": "all working sets (ordered by index for the standard variant), Jacobians, right-hand sides, previous contents of the storage and histories of calls; every factorization that solves the systems given to it; the reduced variant drops small entries also in its intermediate multipliers, so its results are exact for drop tolerance zero", "why_tests_cant": "The optimality conditions compare with every other vector, and the history of working sets (with reuse) is unbounded; unit tests use two or three fixed working sets.", "anchors": ["src/main/aug_jac/standard_aug_jac.c: aug_jac_set_iterate, aug_jac_solve_min_norm, aug_jac_solve_lsq, aug_jac_project_nullspace", "src/main/aug_jac/reduced_aug_jac.c", "src/main/aug_jac/box_constrained_aug_jac.c", "src/main/aug_jac/unconstrained_aug_jac.c"]}
{"id": "C67", "title": "Linear algebra with the working set through a QR factorization", "statement": "With the QR-based augmented Jacobian, setting an iterate builds the transposed matrix of the gradients A of the active entries (unit vectors for variables, Jacobian rows for constraints, in the order of the working set), without running over an array, and from it the minimum-norm service returns the solution of A x = rhs of smallest Euclidean norm, the least-squares service returns multipliers minimising the norm of A^T y - rhs, and the projection service returns the closest point of the null space of A.", "quantifier": "all ordered working sets, Jacobians, right-hand sides and previous contents of the storage; every QR factorization that factors the matrix given to it", "why_tests_cant": "The result compares with every other vector, and the row renumbering depends on how active variables and Jacobian entries interleave; no unit test covers this variant.", "anchors": ["src/main/aug_jac/direct_aug_jac.c: compute_working_jac, direct_aug_jac_set_iterate, direct_aug_jac_solve_min_norm, direct_aug_jac_solve_lsq, direct_aug_jac_project_nullspace", "src/main/fact/fact_qr.c"]}
{"id": "C68", "title": "Trial points and second-order corrections", "statement": "Whatever the step, the trial point lies within the variable bounds and is the current point plus the step, projected. If a second-order correction is made, it is the shortest vector that moves every active entry, in its linearisation, from its value at the trial point to the bound it is active at; the corrected step is the trial step plus the correction, shortened only as far as needed to stay within the variable bounds; and the point the solver goes on with is the current point plus the corrected step.", "quantifier": "all ordered working sets, bounds, points, constraint values, steps and tolerances; every minimum-norm service that is correct on the active gradients; exactly evaluated functions and functions evaluated with errors", "why_tests_cant": "The correction compares with every other vector with the same linearisation, and the assembly of the right-hand side depends on how the stored entries of points and bounds interleave. No unit test looks at a correction, and none uses a function evaluated with errors together with corrections.", "anchors": ["src/main/soc.c: add_variable_entries, add_constraint_entries, sleqp_soc_compute_correction, sleqp_soc_compute_step", "src/main/trial_point.c: compute_trial_iterate_from_step, sleqp_trial_point_solver_compute_trial_point_soc"]}
{"id": "C69", "title": "The step towards the working set leaves exactly the right room for the Newton step", "statement": "Before the equality-constrained step is computed, the solver takes a positive multiple (at most one) of the shortest vector that leads every active entry, in its linearisation, to the bound it is active at. The step is reported to reach the working set only if it is that vector itself; otherwise it has 4/5 of the trust radius. A vector in the null space of the active gradients can be added without leaving the trust region if and only if its length is at most the reduced radius reported, and then every active entry keeps the distance to its bound that the first step reached. The reported slopes of the objective and the constraints, the linearised constraint values and the multipliers of violated constraints belong to this step, and the constant of the Newton model is the penalised objective of the linearisation.", "quantifier": "all ordered working sets, bounds, iterates, trust radii, tolerances up to 1/5 and previous contents of the storage; every minimum-norm service that is correct on the active gradients; exact arithmetic with a square root", "why_tests_cant": "The claim compares with every null-space vector; the right-hand side depends on how the stored entries of the iterate and the bounds interleave. Unit tests only look at final steps of single problems.", "anchors": ["src/main/working_step.c: sleqp_working_step_set_iterate, compute_initial_rhs, compute_initial_direction, compute_initial_step, fill_initial_step, compute_initial_cons_val, compute_violated_multipliers, sleqp_working_step_newton_obj_offset"]}
{"id": "C70", "title": "The Newton step stays in the trust region, keeps the active entries and improves the model of the merit function", "statement": "The step of the equality-constrained problem lies in the trust region. In the linearisation it moves every active entry exactly as the first step (towards the working set) does. Its quadratic model value is not above that of the first step; if no inactive constraint crosses one of its bounds on the way, the same holds of the model of the merit function, with the violation of the constraints. If the iteration was not cut short, the gradient of the model, projected onto the null space of the active gradients, is within the tolerance, or the step lies on the boundary of the trust region. The parts of the reported direction (slopes of objective and constraints, Hessian product) belong to the step returned. The multipliers of violated inactive constraints are added to the dual estimates as the penalty with the sign of the violation.", "quantifier": "all ordered working sets, bounds, iterates, symmetric Hessians, trust radii, penalties, iteration limits and previous contents of the storage; every minimum-norm service, projection service and Hessian product that are correct on the active gradients; exact arithmetic with a square root", "why_tests_cant": "The claim compares with the first step and with all vectors of a null space, for every Hessian, including indefinite ones. Unit tests look at final steps of single problems.", "anchors": ["src/main/newton.c: sleqp_newton_solver_create, newton_solver_compute_direction, compute_gradient, newton_solver_add_violated_multipliers, newton_objective", "src/main/working_step.c: sleqp_working_step_set_multipliers", "src/main/tr/steihaug_solver.c: steihaug_solver_solve"]}
{"id": "C71", "title": "The linear least-squares subproblem is solved to the tolerance, within the trust region", "statement": "For every matrix (given by products with it and its transpose) and right-hand side, the solver ends after at most as many iterations as there are variables, without a failed assertion or a division by zero. The solution lies in the trust region, in the range of the transpose, and is at least as good as every multiple of the gradient inside the region. Unless the solution lies on the boundary of the region, the gradient of the objective at it has norm at most the tolerance. Only an exceeded time limit is reported as such.", "quantifier": "all matrices, right-hand sides, radii (or none), tolerances, previous contents of the storage of the solver, clocks; exact arithmetic with a square root", "why_tests_cant": "The bound on the number of iterations and the recurrence for the residual rest on the orthogonality of two sequences of vectors of any length. There is no unit test of this solver.", "anchors": ["src/main/tr/lsqr.c: sleqp_lsqr_solver_solve, sleqp_lsqr_solver_resize, normalize, forward_product, adjoint_product", "src/main/tr/tr_util.c: sleqp_tr_compute_bdry_sol"]}
{"id": "C72", "title": "The Gauss-Newton step of a least-squares problem keeps the active constraints and reduces the squared residuals and violations", "statement": "For every least-squares problem, iterate and working set, the Gauss-Newton step computes a direction (step, products with gradient, Jacobian and Hessian all belonging to the same step) without a failed assertion or a division by zero. Its step agrees with the step towards the working set on the linearisations of all active bounds and constraints and lies in the trust region. The sum of the squared linearised residuals and of the squared penalised violations of the constraints outside of the working set is at most that at the step towards the working set, and at most that of every step along the projected gradient. Unless the step is on the boundary of the trust region, the projected gradient at it has norm at most the tolerance.", "quantifier": "all residuals, Jacobians, constraints, bounds, working sets, penalties, radii, previous contents of the storage of the solver, clocks; exact arithmetic with a square root", "why_tests_cant": "The least-squares problem is assembled anew for every iterate from the rows of the violated constraints; which rows are removed, how products are split and whether the adjoint fits the product must be right for every combination of violated constraints. The only unit test has one small problem.", "anchors": ["src/main/gauss_newton.c: gauss_newton_solver_set_iterate, gauss_newton_solver_compute_direction, compute_removed_cons, forward_product, adjoint_product"]}
{"id": "C73", "title": "The LP-based Cauchy step minimises the linearised merit function in the trust region", "statement": "After every history of calls to the standard Cauchy step solver (setting iterates, changing the trust radius, solving with any gradient and penalty parameter, asking for results) that ends with a solve and queries, the step returned minimises gradient·d plus penalty times the total violation of the linearised constraints over all steps that keep the variables in their bounds and every component within the trust radius. The reported objective value is that minimum, at most the merit value of the iterate; with a positive penalty the reported violation is that of a minimiser, and it does not grow if the penalty grows. Setting the iterate does not change the Jacobian. No call fails if the LP solver solves every feasible bounded program. A warm start restores only bases saved before.", "quantifier": "all problems, iterates, gradients, penalties, radii, sequences of calls, settings, answers of correct LP solvers; exact arithmetic", "why_tests_cant": "The linear program is kept between calls and updated in place (columns of slack variables, bounds, coefficients, objective, cached solutions behind dirty flags), so the result depends on the whole history. Tests call the solver in one order on a handful of problems and compare one step.", "anchors": ["src/main/cauchy/standard_cauchy.c: standard_cauchy_set_iterate, standard_cauchy_set_trust_radius, standard_cauchy_solve, standard_cauchy_lp_step, standard_cauchy_obj_val, standard_cauchy_violation, create_var_bounds, create_cons_bounds, append_identities, restore_basis", "src/main/lp/lpi.h"]}
{"id": "C74", "title": "The working set of the LP-based Cauchy step is independent and active at the step", "statement": "After every history of calls to the standard Cauchy step solver that ends with a solve and queries, asking for the working set succeeds. The working set is valid, has at most as many entries as there are variables, their gradients are linearly independent, and every entry holds with equality (at the bound of its state) at a step minimising the linearised merit function in the trust region, which is the step returned. Variables that are nonbasic in the linear program and not at the bound of the trust region are in the working set; variables with equal bounds, and equations, are in it as equations.", "quantifier": "all problems, iterates, radii, gradients, penalties, sequences of calls, settings, answers of correct LP solvers; exact arithmetic", "why_tests_cant": "Which rows enter the working set depends on the basis chosen by the LP solver, of which there are many for degenerate problems, and on whether the problem is solved again in reduced form. The tests see one basis for each problem.", "anchors": ["src/main/cauchy/standard_cauchy.c: standard_cauchy_working_set, cauchy_working_set_add_vars, cauchy_working_set_add_cons, cauchy_cons_state, get_reduced_working_set, switch_to_reduced_problem, needs_reduced_resolve", "src/main/working_set.c: sleqp_working_set_valid"]}
{"id": "C75", "title": "Multipliers of the LP-based Cauchy step are supported by the working set and stationary", "statement": "For every working set, the multipliers estimated from the linear program are nonpositive at active lower bounds, nonnegative at active upper bounds and zero outside of the working set. After every history that ends with a solve, queries and the computation of the working set, the gradient of the Lagrangian with these multipliers vanishes (up to dropped values of absolute value at most zero_eps) whenever the step is strictly inside the trust region and no multiplier of the linear program reaches the penalty parameter.", "quantifier": "all problems, iterates, radii, gradients, penalties, sequences of calls, answers of correct LP solvers; exact arithmetic", "why_tests_cant": "The multipliers come from the dual values of the linear program, with a change of sign, and are trimmed by the working set. That trimming loses nothing needed for stationarity depends on the signs of the dual values at each basis.", "anchors": ["src/main/cauchy/standard_cauchy.c: standard_cauchy_estimate_duals, trim_duals_to_working_set", "src/main/dual_estimation/dual_estimation_lp.c"]}
{"id": "C76", "title": "The Cauchy direction and the penalty parameter it is computed for", "statement": "Whenever the trial point solver computes the Cauchy direction with the LP-based solver, after any earlier calls: the step minimises the linear model of the penalty function in the trust region and does not increase it, the working set is valid, independent and active at the minimiser, both for the penalty parameter the direction is returned with; the merit value kept is that of this penalty parameter. At iterates feasible up to the tolerance the penalty parameter is kept or, if allowed and far larger than the multipliers, reset to a smaller value above their norm. At others it is multiplied by the smallest power of ten (up to 10^100) for which the step reaches the goal of the update: a negligible violation if there is a step in the trust region with one, otherwise a tenth of the greatest possible reduction; it is kept if no progress is possible. The criticality bound reported is not negative, and zero exactly if the zero step minimises the linear model.", "quantifier": "all problems without variables of equal bounds, iterates, radii, penalty parameters, tolerances, earlier calls, answers of correct LP solvers; exact arithmetic", "why_tests_cant": "The step is read up to twice from a linear program that is solved up to 102 times with different objectives; which of them it belongs to depends on the history of violations. Tests run whole problems in which a step for the wrong penalty parameter only changes the path.", "anchors": ["src/main/trial_point/cauchy_step.c: compute_cauchy_direction, update_penalty", "src/main/penalty.c: sleqp_update_penalty", "src/main/cauchy/cauchy.c: sleqp_cauchy_compute_criticality_bound"]}
{"id": "C77", "title": "The trial point and the merit value predicted for it", "statement": "A call of the trial point computation returns a point within the variable bounds, reached from the current iterate by a step in the trust region, together with the value of the local model (quadratic, or linear if the quadratic one is switched off) of the penalty function at exactly this step, for the penalty parameter and the current merit value the solver keeps; this value is not larger than the current merit value. Without Newton step the step is a multiple in [0,1] of a minimiser of the linear model, with one it lies between this Cauchy step and the Newton step. A failed Newton step is reported exactly if the Cauchy step is returned. For dynamic functions the point is recomputed with smaller error bounds until the error estimate of the function is at most 0.4 times the accepted reduction ratio times the predicted reduction, which happens eventually.", "quantifier": "all problems without variables of equal bounds, iterates, radii, penalty parameters, settings, earlier calls, answers of correct LP solvers, Hessians, Newton directions in the trust region, dynamic functions; exact arithmetic", "why_tests_cant": "The predicted value decides on acceptance of steps and on the trust region, but is never visible: a value for another step or penalty parameter only makes runs longer or shorter. Which of the many paths is taken (penalty updates, shortened Cauchy steps, fallbacks, line search variants, refinements) depends on the data of every iteration.", "anchors": ["src/main/trial_point.c: compute_trial_point_simple, compute_trial_point_newton, compute_trial_point_deterministic, compute_trial_point_dynamic, solver_refine_step, compute_trial_iterate_from_step", "src/main/trial_point/cauchy_step.c: compute_cauchy_step_simple", "src/main/linesearch.c: sleqp_linesearch_cauchy_step, sleqp_linesearch_trial_step, sleqp_linesearch_trial_step_exact"]}
{"id": "C78", "title": "The derivative check accepts exact derivatives and reports wrong ones", "statement": "If a derivative check is asked for, solving ends with the error code for invalid derivatives exactly if one of the derivatives asked for (gradient, Jacobian, Hessians at the starting point) differs from the forward difference of the function below it by more than the relative tolerance in some variable. Hence exact derivatives which vary by at most the tolerance over the step of the differences are accepted, and derivatives passing the check differ from the true ones by at most the tolerance plus that variation. Functions are only evaluated within the variable bounds, and are set back to the starting point after the check. This holds in every phase of the solver and for every kind of function: if all that the user provides is right, no phase ends with that error.", "quantifier": "all problems, starting points, multipliers, choices of derivatives to be checked, perturbations and tolerances; for the comparison with true derivatives all functions with a derivative along the coordinate axes; exact arithmetic", "why_tests_cant": "The check is itself the test users rely on: a check that looks at the wrong point, compares the wrong entries or skips some of them still passes on all examples with correct derivatives. Its errors show only for particular wrong derivatives, at particular points.", "anchors": ["src/main/deriv_check.c: sleqp_deriv_check_perform, eval_and_check_deriv, compute_hessian_products, check_deriv, restore_iterate", "src/main/problem_solver/solve.c: check_derivative", "src/main/solver/phase.c: create_restoration_solver, fill_restoration_iterate", "src/main/lsq.c: lsq_func_hess_product"]}
{"id": "C79", "title": "Parametric Cauchy steps: radius, step and predicted merit belong together", "statement": "With parametric Cauchy steps the trust radius of the linear programs is enlarged or reduced by a fixed factor, solving a bounded number of linear programs. The resulting step solves the linear program of the radius solved last (from which the working set is taken), lies within the radius handed on, comes with its own gradient, Jacobian and Hessian products and with its own value of the quadratic model. When enlarging, the quadratic model does not get worse; when reducing, the first radius whose step achieves sufficient decrease is taken, and if there is none the last step is shortened at the current iterate until it does.", "quantifier": "all local models (gradient, Jacobian, Hessian, constraint values, penalty parameters), initial radii, factors, numbers of linear programs and solutions of the linear programs; exact arithmetic, cut-off for zeros equal to zero", "why_tests_cant": "The setting is off by default; which branch is taken depends on the curvature at each iterate, and a predicted merit value which does not belong to the step only shows as slower convergence.", "anchors": ["src/main/parametric.c: sleqp_parametric_solver_solve, search_forward, search_backtracking, has_sufficient_decrease", "src/main/trial_point/cauchy_step.c: compute_cauchy_step_parametric"]}
{"id": "C80", "title": "LP back ends solve the linear program set last", "statement": "Whatever the history of calls of the LP interface, a solve hands the linear program to the library whose bounds, coefficients and objective were set last; what was set before, in whatever order, has no influence. A solve without coefficients is refused. The tolerances are those of the settings.", "quantifier": "all sequences of calls (bounds, coefficients, objective, bases, solves), all data, all numbers of rows and columns, arbitrary results of the solves; libraries are taken to do what they are documented to do", "why_tests_cant": "Stale data only shows after particular sequences of calls, e.g. when the sparsity pattern of the Jacobian shrinks between two iterations, and only with the library in question.", "anchors": ["src/main/lp/lpi_highs.c: highs_set_bounds, highs_set_coeffs, highs_set_objective, prepare_problem, highs_solve", "src/main/lp/lpi_soplex.cc: soplex_create_problem, soplex_set_bounds, soplex_set_coefficients, soplex_set_objective", "src/main/lp/lpi_gurobi.c: gurobi_create_problem, gurobi_set_bounds, gurobi_set_coefficients, gurobi_set_objective"]}
{"id": "C81", "title": "LP bases are handed over faithfully", "statement": "A basis which is stored under an index (given by the caller, or saved from the library) and restored later is the basis reported by the interface, whatever happens in between, unless something else is stored under this index. Bases under different indices are independent. After a solve, a variable or constraint is reported as basic exactly if it is basic for the library.", "quantifier": "all sequences of calls, all indices, all bases, all numbers of rows and columns", "why_tests_cant": "A wrong basis does not make results wrong, only solves slower or failing; it depends on the library and on the history.", "anchors": ["src/main/lp/lpi_highs.c: highs_set_basis, highs_save_basis, highs_restore_basis, highs_vars_stats, highs_cons_stats", "src/main/lp/lpi_soplex.cc: soplex_set_basis, soplex_save_basis, soplex_restore_basis, soplex_vars_stats, soplex_cons_stats", "src/main/lp/lpi_gurobi.c: gurobi_set_basis, gurobi_save_basis, gurobi_restore_basis, gurobi_vars_stats, gurobi_cons_stats"]}
{"id": "C82", "title": "Functions are evaluated where they are used, and told truthfully why", "statement": "Whatever the solver uses as the objective, gradient, constraint values, Jacobian or Hessian products at a point was evaluated while the function was set to this point, and the function did not reject it. Between iterations the function is set to the current iterate. The reason given with a value is true: a value set as accepted becomes the iterate and was tried before, after a rejected step the function is set back to the old iterate, second-order corrections are announced as such.", "quantifier": "all sequences of iterations with arbitrary trial points, corrections, acceptances and rejections (by the solver or by the function), with or without callbacks, preprocessing, derivative checks and dynamic functions", "why_tests_cant": "Evaluating at the wrong point only degrades steps, so that solves still end; the wrong sequences need particular combinations of rejections, corrections, callbacks and preprocessing.", "anchors": ["src/main/problem_solver/iteration.c: sleqp_problem_solver_perform_iteration, evaluate_at_trial_iterate", "src/main/problem_solver/step.c: sleqp_problem_solver_accept_step, sleqp_problem_solver_reject_step", "src/main/util.c: sleqp_set_and_evaluate", "src/main/solver.c: on_problem_solver_accepted_iterate", "src/main/pub_func.h: SLEQP_VALUE_REASON"]}
{"id": "C83", "title": "Steps are accepted exactly if they reduce the penalty function enough", "statement": "In every iteration (with the default step rule), a trial step is accepted only if it reduces the penalty function, objective plus penalty parameter times violation, by at least the configured fraction of the reduction the local model predicts for this step, for one and the same penalty parameter; a step that achieves the predicted reduction is accepted. For dynamic functions, which are evaluated with errors, the true penalty function decreases in an accepted step.", "quantifier": "all problems, functions, iterates, radii, penalty parameters and their updates, correct LP solvers, and for dynamic functions all errors within the bounds; predicted reductions above rounding level", "why_tests_cant": "The comparison goes wrong only in iterations that change the penalty parameter or evaluate again; the solver still ends, after more steps or at another point.", "anchors": ["src/main/problem_solver/iteration.c: sleqp_problem_solver_perform_iteration, prepare_iteration", "src/main/trial_point.c: solver_refine_step, compute_required_error_bound", "src/main/trial_point/cauchy_step.c: compute_cauchy_direction", "src/main/step/step_rule_direct.c", "src/main/dyn.c"]}
{"id": "C84", "title": "Scaling, quasi-Newton methods, preprocessing and function types can be combined", "statement": "For every combination of scaling, Hessian approximation, preprocessing and type of function (regular, least-squares, dynamic): the starting point is recovered exactly from the converted one; the point returned has the fixed values and unscaled values of the point the solver ended with, and the returned objective value is the user's objective at the returned point; the quasi-Newton method is told of every accepted step; a dynamic function is given weights and error bound before it is evaluated. (The code violates this for quasi-Newton methods: the function they wrap is always a regular one, so the objective of a scaled least-squares problem is returned with the wrong scale and dynamic functions never receive weights and error bound; and they are created for the variables before preprocessing but told of the steps after it, which fails as soon as a variable was fixed.)", "quantifier": "all problems, scalings, sets of fixed variables, points and user functions", "why_tests_cant": "The combinations of options multiply, and the values involved form a continuum; each option alone works.", "anchors": ["src/main/solver.c", "src/main/quasi_newton/quasi_newton.c", "src/main/problem_scaling.c", "src/main/preprocessor/transform.c", "src/main/preprocessor/restore.c"]}
{"id": "C85", "title": "AMPL models are solved as written", "statement": "For every model read by the AMPL library, maximised or minimised, and every history of calls: a trial point is rejected exactly if objective or constraints cannot be evaluated or are not finite there; after a point was set, objective, gradient, constraint values, Jacobian and products with the Hessian of the Lagrangian are those of the problem in which the (signed) objective is minimised, at this point; linear constraints have the coefficients of the model, and their constants are moved into the bounds without changing the feasible set; the multipliers, states and the result code reported fit the model as written, and so does the objective printed. (The code violates this: the objective is wrong when it is asked for a second time after a product with the Hessian, the objective printed has the wrong sign for maximisation, and infinite upper bounds of linear constraints are shifted.)", "quantifier": "all models, points, multipliers, directions, sparsity patterns and sequences of calls; exact arithmetic", "why_tests_cant": "The interface keeps values between calls, so that results depend on the history of calls; signs differ between minimisation and maximisation in five places.", "anchors": ["bindings/ampl/ampl_func.c", "bindings/ampl/ampl_problem.c", "bindings/ampl/ampl_output.c: sleqp_ampl_report", "bindings/ampl/ampl_util.c"]}
{"id": "C86", "title": "The Cauchy solver's answer on local infeasibility", "statement": "Whenever the Cauchy solver is asked whether the problem is locally infeasible and answers, the answer is yes exactly if no variable sits at a bound of the trust region in the basis of the linear program, and some active constraint is satisfied with the help of a slack only.", "quantifier": "all problems, iterates, radii and bases", "why_tests_cant": "The answer combines the sparse vectors of point and bounds with the basis, entry by entry; an error shows only for certain patterns.", "anchors": ["src/main/cauchy/standard_cauchy.c: standard_cauchy_locally_infeasible"]}
{"id": "C87", "title": "Options given to the AMPL solver take effect", "statement": "For every list of options, given in the environment or on the command line: every option given has the value given last, all others keep their defaults, and limits of -1 stand for no limit. (The code violates this if an option is given twice: it uses a pointer to a variable which no longer exists.)", "quantifier": "all lists of options and values", "why_tests_cant": "Lists of options are unbounded, and the use of a dangling pointer need not show in a test.", "anchors": ["bindings/ampl/ampl_keywords.c"]}
{"id": "C88", "title": "Solutions of linear systems are solutions", "statement": "For every history of matrices and right-hand sides given to a factorization (LAPACK, MA27, MA57, MA86, MA97, MUMPS, UMFPACK, CHOLMOD, SPQR), whatever sizes they have: no array is accessed outside its bounds, and if a solve reports no error, the solution solves the system of the matrix set last and the right-hand side given last. (The code violates this: MA86 and MA97 look at the wrong status, MA57 and CHOLMOD take reports of singular or indefinite matrices for successes, SPQR is not asked for the rank and the failures of its solves are ignored, and after a failed solve with UMFPACK the next solution is wrong.)", "quantifier": "all sequences of matrices and right-hand sides of all sizes; all libraries which keep their documented contract, failing where they like; exact arithmetic", "why_tests_cant": "The arrays are kept between calls and grow only, so that errors depend on the history of sizes; the failures of the libraries cannot be provoked by tests.", "anchors": ["src/main/fact/fact_lapack.c", "src/main/fact/hsl_matrix.c", "src/main/fact/fact_ma27.c", "src/main/fact/fact_ma57.c", "src/main/fact/fact_ma86.c", "src/main/fact/fact_ma97.c", "src/main/fact/fact_mumps.c", "src/main/fact/fact_umfpack.c", "src/main/fact/fact_cholmod.c", "src/main/fact/fact_spqr.c"]}
{"id": "C89", "title": "Work arrays are enlarged finitely often", "statement": "Whenever a matrix is given to MA27 or MA57 in a state brought about by any history of calls, and the library would be content with some size of its work arrays, the loop which enlarges them ends. (The code violates this for MA57: arrays of fewer than five numbers are never enlarged.)", "quantifier": "all histories, matrices and libraries content with some finite size", "why_tests_cant": "A test which does not end proves nothing, and the sizes asked for by the libraries depend on the matrix.", "anchors": ["src/main/fact/fact_ma27.c: ma27_set_matrix", "src/main/fact/fact_ma57.c: ma57_set_matrix"]}
{"id": "C90", "title": "The QR factorization behind the direct augmented Jacobian", "statement": "For every history of matrices with at least as many rows as columns and operations on their QR factorizations: if an operation reports no error, its result is that of one pair of factors Q (orthogonal) and R (triangular) with A = Q R for the matrix set last, so that projections, least squares and minimum norm solutions (C67) are right. (The code violates this: SPQR permutes the columns and the permutation is dropped in solves, and failures are ignored, so that the results of earlier operations are returned.)", "quantifier": "all sequences of matrices and operations; all libraries which keep their documented contract; exact arithmetic", "why_tests_cant": "Whether SPQR permutes columns depends on size and sparsity of the matrix; for the small matrices of tests it does not.", "anchors": ["src/main/fact/fact_spqr.c", "src/main/fact/fact_qr.c", "src/main/aug_jac/direct_aug_jac.c"]}
{"id": "C91", "title": "trlib is served as it documents", "statement": "Whatever the problem and the sequence of actions the library trlib asks for (in an order it documents), the trust-region solver carries out each of them as documented: the vectors, the columns of the Krylov space and the numbers given back are those of the documented protocol, no assertion fails, errors reported by the library are passed on, and the step returned is the projection of the final one. In particular the step lies in the null space, and it solves the subproblem if the library has converged and solves subproblems when served as documented. Every solver is ready for this after its creation and after each solve. (The code violates this for the request of the objective: the current residual is used in place of the gradient.)", "quantifier": "all problems, all libraries asking for actions in order, all time limits, all histories of solves; exact arithmetic, tolerance for zeros 0", "why_tests_cant": "The actions asked for depend on the spectrum of the Hessian; the hard case, interior refinement and restarts hardly come up in tests.", "anchors": ["src/main/tr/trlib_solver.c: trlib_loop", "src/main/tr/trlib_solver.c: trlib_solve", "src/main/tr/trlib_solver.c: matrix_push_column", "src/main/tr/trlib_solver.c: sleqp_trlib_solver_create"]}
{"id": "C92", "title": "Objects live exactly as long as somebody holds them", "statement": "For every sequence of creating, capturing, releasing and using objects, storing them in others and replacing what others hold, by which callers only use objects they hold or get at through these, only give up references of their own, do not overwrite references and create no cycles: freed memory is never accessed, nothing is released twice, every object callers get at is alive, and an object is alive only if callers get at it; once all references are given up all memory is freed. The library's own structures keep this: when one is freed, exactly those fields are released which own what they point to, and setters may be given the object which is set already. (The code violates this for the MA97 factorization, whose library handles are never finalised, and for the CHOLMOD factorization, which loses a factor each time it is given another matrix.)", "quantifier": "all sequences of operations, all numbers of objects, all shapes of the graph of references without cycles, all sizes of arrays of references", "why_tests_cant": "Leaks and premature releases depend on the order in which solver, problems, functions and iterates are released; leak checkers only see the orders the tests use.", "anchors": ["src/main/sparse/mat.c: sleqp_mat_release", "src/main/problem.c: problem_free", "src/main/solver.c: solver_free", "src/main/trial_point.c: trial_point_solver_free", "src/main/fact/fact_ma97.c: ma97_data_free", "src/main/fact/fact_cholmod.c: cholmod_fact_set_matrix", "src/main/iterate.c: sleqp_iterate_release"]}
{"id": "C93", "title": "What MATLAB callbacks return reaches the solver unchanged, or is refused", "statement": "Through the MATLAB interface, whatever arrays the callbacks for objective, gradient, constraints, Jacobian and Hessian return: an array of the required class and shape is taken over with all its entries (components of vectors of at most the zero tolerance become zero); of the Hessian the lower triangle suffices, and products are those with the symmetric matrix it determines; every other array raises an error, and nothing is read or written outside the arrays. Vectors handed to MATLAB have all their components. (The code violates this for vectors and numbers returned as sparse arrays, of which memory past the end is read.)", "quantifier": "all arrays callbacks may return (any class, any shape, any values), all directions, all previous contents and capacities of the solver's vectors and matrices", "why_tests_cant": "The interface is tested on a few problems with well-formed dense vectors; what a callback returns is arbitrary and changes from call to call.", "anchors": ["bindings/mex/mex_func_common.c: mex_eval_into_real, mex_eval_into_vec, array_to_sparse_matrix", "bindings/mex/mex_hess.c: hess_prod_matrix, hess_prod_direct", "bindings/mex/mex_problem.c: mex_create_vec_from_array"]}
{"id": "C94", "title": "The problem solved is the one described in MATLAB", "statement": "From a starting point and bounds on variables and constraints, each bound optional, given as arrays of any shape or cell arrays of such, a problem is created with one variable per number of the starting point, one constraint per bound, exactly the given bounds, and infinite ones where they are left out; contradicting bounds and sizes that do not fit are refused. (The code violates this: constraints bounded from above only are refused unless lower bounds are given as well, and sparse or integer arrays are read as if they were dense arrays of doubles.)", "quantifier": "all starting points and bounds, all shapes of arrays and cell arrays, all combinations of bounds left out", "why_tests_cant": "Combinations of missing bounds, cell arrays and array classes are too many to enumerate; the failure for sparse arrays depends on what lies in memory behind them.", "anchors": ["bindings/mex/mex_problem.c: mex_problem_create, mex_create_vec_from_array, create_vec_from_array_default"]}
{"id": "C95", "title": "Every option given in MATLAB takes effect, or is refused", "statement": "The options given in MATLAB are accepted exactly if each known one is a single number, an integral one in the range of integers, one of an enumeration a legal value; then each given option determines the setting of that name and all other settings keep their values; each setting can be given. (The code violates this: lp_resolves cannot be given, logical values are refused for Boolean options, and numbers that are no integers or too large are converted with undefined result.)", "quantifier": "all structures of options, all values, all previous settings", "why_tests_cant": "Options are read through four tables of names; a test sets some options to some legal values.", "anchors": ["bindings/mex/mex_solve_common.c: read_params, read_options, read_option_entry", "bindings/mex/mex_fields.h: MEX_PARAM_ZERO_EPS"]}
{"id": "C96", "title": "Callbacks get the space for the nonzeros they declare", "statement": "Whenever the solver asks a function for its gradient, constraint values, constraint Jacobian or residuals, the vector or matrix it hands over is empty and has room for as many nonzeros as the function declares at that point, or for all entries if it declares nothing, so that a callback may store its results right away; whatever the type of the function, the layers put around it (scaling, quasi-Newton approximation, fixed variables), linear constraints, phase of the solver, and history of points. (The code violates this for general constraints beside linear ones, for constraint values of dynamic functions, for residuals, for Jacobians of least-squares functions with fixed variables, and in and after the restoration phase.)", "quantifier": "all functions (types, numbers of variables, constraints, residuals), all declared numbers, which may change with the point, all layers, all capacities left by earlier evaluations", "why_tests_cant": "Storing beyond the capacity is only checked by assertions, absent from release builds, and corrupts memory silently; the combinations of layers and declarations are too many, and fixtures which declare nothing or reserve space themselves hide it.", "anchors": ["src/main/func.c: sleqp_func_nonzeros", "src/main/iterate.c: sleqp_iterate_reserve", "src/main/problem.c: sleqp_problem_nonzeros, sleqp_problem_cons_val, sleqp_problem_cons_jac", "src/main/dyn.c: dyn_func_nonzeros, dyn_func_eval", "src/main/lsq.c: lsq_func_nonzeros", "src/main/restoration.c: restoration_func_nonzeros"]}
{"id": "C97", "title": "The algorithms used suit problem and settings", "statement": "If a solver can be created, then the algorithms it uses suit the problem and the factorization library it was built with: bounds and constraints are only ignored if there are none (all are infinite), an indefinite system is never given to a factorization for positive definite matrices, Gauss-Newton steps are only used for least-squares problems, and what the user asked for is used. Otherwise the settings are refused with an error when the solver is created, never later (when the restoration phase is entered for the first time), which happens only for settings that cannot be used, and never for the default ones. (The code refuses LSQR for least-squares problems with quasi-Newton approximations.)", "quantifier": "all problems (bounds, numbers of constraints, types and flags of functions), all factorization libraries, all settings", "why_tests_cant": "The combinations of settings, problems and libraries are too many; a build contains only one factorization, and a wrong choice shows as a wrong direction, or as a failure deep in a library, not as an error.", "anchors": ["src/main/trial_point.c: create_aug_jac, create_cauchy_solver, create_eqp_solver, create_dual_estimation, sleqp_trial_point_solver_create", "src/main/newton.c: newton_solver_create", "src/main/problem.c: sleqp_problem_is_unconstrained", "src/main/restoration.c: sleqp_restoration_problem_create"]}
{"id": "C98", "title": "Changing the phase keeps iterate and function together", "statement": "Whenever the solver changes from optimization to restoration or back, any number of times, the user's function is at the point the solver continues from without being set again: on the return from restoration, the iterate consists of the variables of the last point of the restoration phase, and the objective value, gradient, constraint values and Jacobian stored in it were evaluated at this point, whether they were cached or not. In both phases the function is only evaluated at the point it was set to last and did not reject. The feasibility test which ends a restoration phase uses the constraint values of exactly the point the optimization phase continues from, and passes iff they are within the tolerance of their bounds.", "quantifier": "all problems, sequences of derivative checks, iterations and phase changes, answers of the function and lifted points", "why_tests_cant": "Restoration is entered rarely, and a value cached from a point visited before gives a plausible iterate, only with wrong numbers; it depends on the whole history of the phases.", "anchors": ["src/main/solver/phase.c: on_restoration_solver_accepted_iterate, fill_optimization_iterate, fill_restoration_iterate, sleqp_solver_toggle_phase", "src/main/restoration.c: restoration_func_set, compute_cons_val, compute_cons_jac, sleqp_restoration_func_init"]}
{"id": "C99", "title": "Problems and values given from Python arrive unchanged", "statement": "Arrays and matrices handed over from Python arrive in the library with exactly their numbers at their positions, whatever the vectors and matrices contained before and however little space was reserved for them, and the arrays handed to Python hold exactly the numbers of the library. A problem created from arrays of bounds, and a matrix of coefficients of any format, has these bounds and coefficients; bounds left out are infinite; arrays of the wrong length or shape, and missing results, raise an exception. Nothing is read or written out of range.", "quantifier": "all arrays, dense and sparse matrices of any order of their elements, lengths and previous contents", "why_tests_cant": "Tests pass arrays of matching lengths and matrices in canonical format; what happens for others depends on uninitialised and reserved memory.", "anchors": ["bindings/python/src/extension/sparse.pxi: array_to_sleqp_sparse_vec, array_set_values, sleqp_sparse_vec_to_array, matrix_to_sleqp_sparse_matrix, DenseIterator, CSCIterator", "bindings/python/src/extension/problem.pxi: create_problem", "bindings/python/src/extension/func.pxi: sleqp_func_obj_grad, sleqp_func_cons_val, sleqp_func_hess_prod", "bindings/python/src/extension/lsq.pxi: sleqp_lsq_residuals, sleqp_lsq_jac_forward, sleqp_lsq_jac_adjoint", "bindings/python/src/extension/solver.pxi: Solver.__cinit__"]}
{"id": "C100", "title": "The Python function minimize evaluates the user's functions at the right point", "statement": "Whatever the order and number of the solver's requests, every value, first derivative and product of second derivatives it gets through the Python function minimize is that of the user's objective and constraints at the point set last, called with the extra arguments the user gave for them; where no derivative is given, or differences are asked for, it is the forward, central or complex-step difference of the function. The rows of the Jacobian are in the order of the constraints, and products belong to the Lagrangian. No request raises an exception of its own.", "quantifier": "all objectives and constraints (separate or combined values and derivatives, Hessians, products or differences), extra arguments, points and sequences of requests", "why_tests_cant": "Values are remembered between requests, so results depend on the history; the tests use few combinations of derivatives, extra arguments and kinds of results.", "anchors": ["bindings/python/src/sleqp/minimize.py: _MinFunc, minimize", "bindings/python/src/sleqp/_func.py: PointFunc, CombinedFunc, actual_gradient, create_func", "bindings/python/src/sleqp/_derivative.py: findiff_twopoint, findiff_threepoint, findiff_cs, derivative, create_derivative", "bindings/python/src/sleqp/_hessian.py: HessianProduct, GenericHessian, FindiffHessian, create_hessian", "bindings/python/src/sleqp/_cons_func.py: ConstraintFunc"]}
{"id": "C101", "title": "The Python function minimize creates a problem with the feasible set the user described", "statement": "The problem solved by the Python function minimize has one variable per element of the starting point, and its feasible points are exactly those that satisfy the bounds and constraints given, as SciPy describes them: absent bounds are infinite, one number given as bound stands for all values, dictionaries with type 'ineq' require nonnegative values of their function and those with type 'eq' zero values, and bounds of constraint objects apply to the values of their functions, or to the products with their matrices, whatever mixture and order of constraints is given.", "quantifier": "all numbers of variables, bounds objects or sequences of pairs (with absent ones), and lists of constraints of all kinds, points and values", "why_tests_cant": "General and linear constraints are separated, renumbered and stacked; tests use one or two constraints with complete bounds.", "anchors": ["bindings/python/src/sleqp/minimize.py: minimize", "bindings/python/src/sleqp/_bounds.py: create_variable_bounds, create_constraint_bounds", "bindings/python/src/sleqp/_cons.py: split_linear_constraints, create_constraints", "bindings/python/src/sleqp/_linear.py: create_linear_constraints", "bindings/python/src/sleqp/_cons_func.py: ConstraintFunc"]}
{"id": "C102", "title": "The state reported by the solver describes its current iterate", "statement": "When the state of the solver is queried, all answers belong together: the residuals of feasibility, stationarity and complementarity, the objective value and the merit value are those of the current iterate (the merit value for the reported penalty parameter), the residual vectors are those of the same iterate and have the scalar residuals as their largest absolute values (up to entries below the zero tolerance), the iteration and the last step are those of the run, every answer is a defined value, and numbers outside the public enumerations are refused.", "quantifier": "all solves, histories of accepted and rejected steps and phases, iterates and problems of all sizes, all state numbers", "why_tests_cant": "Agreement of scalar and vector answers has to hold after every possible end of a solve and for all data; tests query the state of a few converged solves.", "anchors": ["src/main/solver/state.c: sleqp_solver_real_state, sleqp_solver_int_state, sleqp_solver_vec_state", "src/main/problem_solver/state.c: sleqp_problem_solver_get_real_state, sleqp_problem_solver_get_int_state, sleqp_problem_solver_get_vec_state", "src/main/gauss_newton.c: gauss_newton_current_rayleigh", "src/main/tr/trlib_solver.c: trlib_rayleigh"]}
{"id": "C103", "title": "Exceptions of a Python program's functions and callbacks reach the caller of solve", "statement": "When a Python program solves a problem and one of its functions or callbacks raises an exception, no further function or callback is called, `solve` raises an exception, and following the chain of causes of that exception one arrives at the exception raised by the program, by way of an EvaluationError for functions and a CallbackError for callbacks. When none raises an exception and the library meets no error, `solve` returns normally. Errors of the library are reported under the Python exception class belonging to them, with their message and without blaming an exception of the program, in particular none of an earlier solve. The same holds for exceptions raised while the solver is created.", "quantifier": "all histories of registering and unregistering callbacks (also from within callbacks) and of solves, all exceptions, all chains of internal functions around the program's function, all points at which errors occur", "why_tests_cant": "The exception may occur at any call of any function or callback, behind any of the library's wrappers, and with any set of callbacks registered before; tests raise one exception in one function.", "anchors": ["bindings/python/src/extension/solver.pxi: Solver._solve, Solver.add_callback, Solver.remove_callback", "bindings/python/src/extension/func.pxi: store_func_exc, sleqp_func_set, sleqp_func_nonzeros", "bindings/python/src/extension/callback.pxi: accepted_iterate, performed_iteration, finished", "bindings/python/src/extension/call.pxi: _get_exception, csleqp_call", "src/main/func.h: SLEQP_FUNC_CALL", "src/main/solver.h: SLEQP_CALLBACK_EVENT", "src/main/error.c: sleqp_set_error"]}
{"id": "C104", "title": "After a reset a solve runs as on a new solver", "statement": "`sleqp_solver_reset` brings the solver back to the state in which it was created: whatever was solved before, the next solve takes the same course as the first solve of a new solver for the same problem and initial point, with the same status, number of iterations, accepted steps and solution, provided the functions and the clock behave alike.", "quantifier": "all histories of solves (any limits, interruptions, results) and resets; all problems, settings, step rules; all behaviours of functions, callbacks and clock in the compared solves", "why_tests_cant": "What survives a reset depends on the whole history before it (penalty parameter, step rule, multipliers, restoration phases); tests reset, if at all, after one successful solve and only look at the status.", "anchors": ["src/main/solver.c: sleqp_solver_reset", "src/main/problem_solver.c: sleqp_problem_solver_reset, compute_initial_trust_radius", "src/main/solver/solve.c: sleqp_solver_solve, set_initial_iterate, run_solving_loop", "src/main/step/step_rule.c: sleqp_step_rule_reset"]}
{"id": "C105", "title": "A further solve continues from the current solution", "statement": "A call of `sleqp_solver_solve` performs its iterations starting from the current solution, as documented: solving with the iteration limit m1 and, when this limit is reached, again with the limit m2, gives the same as solving once with the limit m1 + m2.", "quantifier": "all solver states, limits m1 and m2, and behaviours of functions, callbacks and clock", "why_tests_cant": "Equality of a split and an unsplit run has to hold at every iteration at which the run may be split, for every problem; tests solve once.", "anchors": ["src/main/pub_solver.h: sleqp_solver_solve", "src/main/solver/solve.c: sleqp_solver_solve, set_initial_iterate", "src/main/problem_solver/solve.c: sleqp_problem_solver_solve"]}
{"id": "C106", "title": "Solutions reported as optimal are optimal for the user's problem within the tolerances", "statement": "If `sleqp_solver_solve` ends with status optimal, the iterate returned by `sleqp_solver_solution` satisfies the optimality conditions of the problem the user passed to `sleqp_solver_create`, within the tolerances of the settings: every constraint up to the feasibility tolerance, stationarity of the Lagrangian up to the stationarity tolerance, complementarity up to the slackness tolerance, also if a scaling is used.", "quantifier": "all problems, scalings (weights of objective, variables and constraints), settings with nonnegative feasibility tolerance, step rules, and behaviours of functions, callbacks and clock", "why_tests_cant": "The certificate spans the loop, the residuals and the unscaling; a discrepancy shows only for particular weights and points near the tolerances, while tests compare solutions of well-behaved problems with known optima.", "anchors": ["src/main/solver/solve.c: sleqp_solver_solve, run_solving_loop", "src/main/solver.c: sleqp_solver_solution, do_restore_iterate", "src/main/scale.c: sleqp_unscale_iterate", "src/main/iterate.c: sleqp_iterate_is_optimal", "src/main/problem_scaling.c: sleqp_problem_scaling_flush"]}
{"id": "C107", "title": "The list of violated constraints agrees with the feasibility tolerance", "statement": "`sleqp_solver_violated_constraints` (`violated_cons` in Python) lists exactly the constraints of the user's problem that the iterate violates by more than the feasibility tolerance of the settings; in particular the list is empty for a solution that the solver regards as feasible.", "quantifier": "all problems, iterates and nonnegative feasibility tolerances", "why_tests_cant": "Near the tolerance the answer depends on the exact values; tests query the list at points that are clearly feasible or clearly infeasible.", "anchors": ["src/main/pub_solver.h: sleqp_solver_violated_constraints", "src/main/solver.c: sleqp_solver_violated_constraints", "src/main/iterate.c: sleqp_iterate_get_violated_constraints", "bindings/python/src/extension/solver.pxi: violated_cons"]}
{"id": "C108", "title": "MATLAB callbacks get the right arguments", "statement": "In the MATLAB / Octave interface a problem is accepted exactly if every callback needed for its type is given as a function handle. During the solve each evaluation the library asks for calls exactly the callback of that name, with the point at which the library evaluates, the given direction and multipliers and, for dynamic functions, the current error bound and weights, in the documented order and shape. The callback for accepted iterates gets the accepted point of the user's problem.", "quantifier": "all regular, least-squares and dynamic problems with any numbers of variables, constraints and residuals, all sets of callbacks, and all histories of evaluations", "why_tests_cant": "The arrays passed to callbacks are created once and overwritten in place; a stale or misplaced argument shows only for particular histories of evaluations. The tests of the interface solve a few problems whose final solution hides wrong intermediate calls.", "anchors": ["bindings/mex/mex_func.c: create_func_data, mex_func_set, mex_func_hess_prod", "bindings/mex/mex_lsq.c: create_lsq_func_data", "bindings/mex/mex_dyn.c: create_dyn_func_data", "bindings/mex/mex_hess.c: mex_hess_init, mex_hess_prod", "bindings/mex/mex_func_common.c: mex_callback_from_struct", "bindings/mex/mex_solve_common.c: accepted_iterate"]}
{"id": "C109", "title": "Calls from MATLAB release what they allocate", "statement": "A call of the MATLAB / Octave interface releases everything it allocates, whether it completes or fails, so that programs can call the solver any number of times; nothing is destroyed twice.", "quantifier": "all types of functions, with and without constraints, Hessians, Hessian products and callbacks, and all points at which a call may fail", "why_tests_cant": "A leak does not change any result, and a second destruction is only reached through the cleanup of particular types of functions; the tests of the interface make a few calls in a process which then exits.", "anchors": ["bindings/mex/mex_solve_common.c: mex_solve, register_callbacks", "bindings/mex/mex_problem.c: mex_problem_create", "bindings/mex/mex_func.c: mex_func_free", "bindings/mex/mex_lsq.c: mex_lsq_func_free", "bindings/mex/mex_dyn.c: dyn_func_free", "bindings/mex/mex_hess.c: mex_hess_free"]}
{"id": "C110", "title": "Functions are evaluated within the variable bounds", "statement": "The solver only evaluates the user's functions at points satisfying the bounds of the variables, so that functions need not be defined elsewhere (square roots, logarithms): at the initial point, trial points, second-order corrections, accepted and rejected points, in both phases and over repeated solves, with and without scaling and preprocessing, and while checking derivatives.", "quantifier": "all problems, settings, steps computed, answers of the function and sequences of solves, phases and derivative checks", "why_tests_cant": "Tests use functions defined everywhere, for which an evaluation outside of the bounds goes unnoticed; it occurs only for particular iterates at bounds and particular linear constraints.", "anchors": ["src/main/solver/solve.c: set_initial_iterate", "src/main/trial_point.c: compute_trial_iterate_from_step", "src/main/problem_solver/step.c", "src/main/solver/phase.c", "src/main/restoration.c: restoration_func_set, sleqp_restoration_problem_transform", "src/main/deriv_check.c: create_check_iterate", "src/main/preprocessor/transform.c: replace_redundant_bound", "src/main/preprocessor/fixed_var_func.c: fixed_var_func_set", "src/main/problem_scaling.c"]}
{"id": "C111", "title": "An AMPL model is solved with exactly its feasible set", "statement": "For an AMPL model the problem handed to the solver has the same feasible points: infinite bounds remain infinite, finite ones keep their values, nonlinear constraints come first, linear constraints keep their coefficients and their constants, and a model with contradictory bounds is reported as an illegal argument instead of being solved.", "quantifier": "all AMPL models: numbers of variables, linear and nonlinear constraints, bounds, sparsity patterns as read by the AMPL library, and initial points", "why_tests_cant": "Tests run a handful of models; the position of the nonzeros, constants in linear constraints and the combination of infinite bounds with them vary over all models.", "anchors": ["bindings/ampl/ampl_data.c: map_ampl_inf, sleqp_ampl_data_create", "bindings/ampl/ampl_problem.c: compute_linear_coeffs, apply_linear_offset, sleqp_ampl_problem_create", "src/main/problem.c: sleqp_problem_create"]}
{"id": "C112", "title": "A call from MATLAB returns the complete results or raises the error that occurred", "statement": "A MATLAB program which calls a command of the extension with the documented numbers of arguments and results gets its results: the solution and a structure with the primal point, the multipliers of constraints and variables, the states of constraints and variables, the elapsed time, the number of iterations and the status, each under its name and with the number given in the generated enumeration classes. When the command fails, a MATLAB error is raised with the identifier of the type of the error and with the message of the library. Any other call raises an error and runs nothing.", "quantifier": "all calls: command names, numbers of arguments and results, results of the solver, errors and their messages", "why_tests_cant": "Tests run successful solves and at most a few failing ones; the text of an error comes from the functions of the user and may be anything.", "anchors": ["bindings/mex/mex_main.c: mexFunction, error_prefix, commands", "bindings/mex/mex_output.c: create_mex_output", "bindings/mex/mex_fields.h: MEX_OUTPUT_VARS_DUAL", "bindings/mex/gen_enums.c: main", "src/main/error.c: sleqp_set_error"]}
{"id": "C113", "title": "A run started by AMPL reports its outcome", "statement": "A run of the AMPL driver leaves a solution file which describes its outcome: the class of the result, the values of the variables, the multipliers with the signs of AMPL, the states of variables and constraints and a message with the status; when anything fails, the file has a result of the class of failures and the message of the error. The exit code tells whether the run succeeded.", "quantifier": "all outcomes of reading options and model, creating problem and solver, and solving; all statuses, solutions and working sets", "why_tests_cant": "Tests run a few models which can be solved; failures at each stage and the contents of memory after its release are not observable in them.", "anchors": ["bindings/ampl/ampl_main.c: ampl_main, main", "bindings/ampl/ampl_output.c: sleqp_ampl_report, report_with_status_message, report_error, set_suffixes, map_state", "bindings/ampl/ampl_suffix.c: sleqp_ampl_suffixes"]}
{"id": "C114", "title": "Vectors and matrices written to files can be read back", "statement": "A matrix written in the coordinate format of the Matrix Market, or a vector written or printed, can be read back: sizes, number of entries and positions are those of the object, and each value is preserved up to a small relative error.", "quantifier": "all valid vectors and matrices of all sizes, also with empty rows and columns, and all values", "why_tests_cant": "Positions depend on the whole sparsity pattern, values on all magnitudes; there are no tests of the written files.", "anchors": ["src/main/sparse/mat.c: sleqp_mat_dump", "src/main/sparse/vec.c: sleqp_vec_dump, sleqp_vec_fprintf"]}
{"id": "C115", "title": "Log messages reach the handler which was set", "statement": "A message of the library is passed to the handler set last, with its level and its text (up to the size of the buffer), if and only if its level is not above the level set last, in the order in which messages were logged. In Python, a message becomes a record of the logger `sleqp` if and only if the effective level of this logger admits it.", "quantifier": "all histories of messages, levels and handlers set; all levels of the Python logger, also illegal ones, and of its parents", "why_tests_cant": "Whether a message arrives depends on the history of settings in two libraries; tests look at the output, if at all.", "anchors": ["src/main/log.c: sleqp_log_msg_level, sleqp_log_trace_level, sleqp_log_set_level, sleqp_log_set_handler", "src/main/pub_log.h: sleqp_log_log_msg, sleqp_log_log_trace", "bindings/python/src/extension/log.pxi: SleqpLogger, sleqp_python_handler"]}
{"id": "C116", "title": "Settings in Python are the settings of the library", "statement": "Each attribute of `Settings` in Python stands for the setting of the library of that name; a suitable value assigned to it, given as a member or as a name of an enumeration, is read back and is the value used by the library; unsuitable values and unknown names raise an exception and change nothing. After any sequence of assignments each attribute has the last suitable value or its documented default, and settings created again from those written out are the same.", "quantifier": "all attributes, all values of any type, and all sequences of assignments, including failing ones and settings files", "why_tests_cant": "The table of attributes, the enumerations of the binding and those of the library must agree in all entries; tests set single attributes.", "anchors": ["bindings/python/src/extension/settings.pxi: Settings, opt_prop_map", "src/main/pub_settings.h: SLEQP_SETTINGS_ENUM, SLEQP_SETTINGS_INT, SLEQP_SETTINGS_REAL, SLEQP_SETTINGS_BOOL", "src/main/settings.c: sleqp_settings_create, sleqp_settings_set_enum_value"]}
{"id": "C117", "title": "Scalings in Python", "statement": "A scaling created in Python has weight zero for the objective and for each of the given numbers of variables and constraints. Setting a weight, or a nominal value, changes exactly that weight; indices out of range raise an exception. Setting all weights from an array of nominal values gives each variable the weight of its element of the array; setting weights from a gradient or Jacobian has the effect of the library's functions on that gradient or Jacobian, whatever was called before. Weights and nominal values can be converted into each other, and scalings can be printed.", "quantifier": "all sizes including zero, all indices, all arrays including sections of arrays, all matrices, and all sequences of calls", "why_tests_cant": "Layouts of arrays in memory and the state left by earlier calls are not varied by tests; the binding's own test assigns attributes which do not exist.", "anchors": ["bindings/python/src/extension/scale.pxi: Scaling", "bindings/python/src/extension/sparse.pxi: array_to_sleqp_sparse_vec, matrix_to_sleqp_sparse_matrix", "src/main/scale.c: sleqp_scaling_create, sleqp_scaling_set_var_weights_from_nominal"]}
{"id": "C118", "title": "Iterates kept in Python stay valid", "statement": "Objects obtained in Python from an iterate (its wrapper, its Jacobian, its working set) can be kept: in any order of creation and deletion, with the solver deleted before or after them, no memory is used after it was released, and all memory is released with the last object. A Jacobian obtained is that of the iterate at this time and does not change. States of variables and constraints are those of the working set; indices out of range raise an exception.", "quantifier": "all sequences of obtaining and deleting objects, interleaved with iterations of the solver; all Jacobians", "why_tests_cant": "Lifetimes depend on the garbage collector and on how the solver goes on; a view of memory which was released often still shows the old values.", "anchors": ["bindings/python/src/extension/iterate.pxi: Iterate", "bindings/python/src/extension/working_set.pxi: WorkingSet", "bindings/python/src/extension/sparse_matrix.pxi: MatrixRef, sleqp_sparse_matrix_to_scipy", "src/main/iterate.c: sleqp_iterate_capture, sleqp_iterate_release", "src/main/sparse/mat.c: sleqp_mat_reserve, sleqp_mat_copy, sleqp_mat_release"]}
{"id": "C119", "title": "Trial points with parametric Cauchy steps", "statement": "With parametric Cauchy steps and without Newton steps, the trial point lies within the variable bounds and is reached by the step of the linear program for a radius found by the search: a smaller one if the step for the radius given is not good enough, else this one or a larger one. The step is in the trust region. The value predicted is that of the local model at this step and is not larger than the current merit value. Working set and multipliers belong to this step.", "quantifier": "all problems without variables of equal bounds, iterates, radii, penalty parameters, settings, Hessians, linear programs of which the solver finds the optimum for every radius; exact arithmetic", "why_tests_cant": "The search depends on how the quadratic model compares to the linear one for a whole sequence of radii, and its outcome is visible only in the next trial point; a wrong value predicted only makes runs longer.", "anchors": ["src/main/trial_point/cauchy_step.c: compute_cauchy_step_parametric, sleqp_trial_point_solver_compute_cauchy_step", "src/main/trial_point.c: compute_trial_point_simple", "src/main/parametric.c: sleqp_parametric_solver_solve"]}
{"id": "C120", "title": "Point, multipliers and working set of a solution belong together", "statement": "The multipliers and the working set of the iterate a solve returns, and those with which a point is tested for optimality, are the ones computed at its point.", "quantifier": "all sequences of iterations with any trial points, corrections, acceptances and rejections, multipliers and working sets", "why_tests_cant": "Multipliers vary little near a solution, so that those of an earlier point pass the tolerances of tests; which point they belong to depends on the whole history of accepted and rejected steps.", "anchors": ["src/main/problem_solver/step.c: sleqp_problem_solver_accept_step", "src/main/problem_solver/iteration.c: sleqp_problem_solver_perform_iteration", "src/main/trial_point/cauchy_step.c: estimate_dual_values, compute_cauchy_direction", "src/main/trial_point.c: compute_trial_iterate_from_step"]}
{"id": "C121", "title": "Lines of the log and summary", "statement": "A line of the log shows the length of the step made, the change of the multipliers, and the working set unless it is the same as in the line before. The summary at the end shows the objective value and the residuals of the solution returned; with scaling, both those of the scaled problem and those of the user's.", "quantifier": "all sequences of iterations; all runs, scalings, iterates", "why_tests_cant": "Nobody compares printed numbers with recomputed ones; with scaling the two groups of numbers differ only for weights other than zero, and steps with corrections are rare.", "anchors": ["src/main/problem_solver/print.c: sleqp_problem_solver_print_line", "src/main/problem_solver/iteration.c: compute_step_lengths", "src/main/solver/print.c: sleqp_solver_print_stats"]}
{"id": "C122", "title": "A time limit reaches all parts of the computation", "statement": "When a solve is given a time limit, every part of the computation of a trial point (linear programs, equality constrained problems) is given a limit which ends no later than that of the trial point, and is stopped for lack of time only if its own running time has reached the limit it was given; when a solve is given no limit, no part is.", "quantifier": "all sequences of trial points with any limits, clock readings, numbers of LP solves, resolves, refinements, time-outs reported by the libraries", "why_tests_cant": "Time limits are tested, if at all, with tiny limits, for which everything stops at once; that a part was given too much or too little time depends on how long the parts before it took, including those of earlier solves.", "anchors": ["src/main/trial_point.c: compute_trial_point_newton, sleqp_trial_point_solver_compute_trial_point", "src/main/trial_point/cauchy_step.c: sleqp_trial_point_solver_compute_cauchy_step", "src/main/cauchy/standard_cauchy.c: standard_cauchy_solve, switch_to_reduced_problem", "src/main/lp/lpi_highs.c: highs_solve", "src/main/lp/lpi_soplex.cc: soplex_solve", "src/main/lp/lpi_gurobi.c: gurobi_solve", "src/main/tr/steihaug_solver.c: steihaug_solver_solve", "src/main/tr/trlib_solver.c: trlib_loop", "src/main/tr/lsqr.c: sleqp_lsqr_solver_solve"]}
{"id": "C123", "title": "A solver can be used again after running out of time", "statement": "When a solve ends because its time limit is reached, at whatever point of the computation, a further solve of the same solver works as any other.", "quantifier": "all sequences of trial points with any limits and clock readings, and time-outs at any point", "why_tests_cant": "The state left behind depends on the part which ran out of time; tests do not use a solver again after a time-out.", "anchors": ["src/main/newton.c: newton_solver_compute_direction", "src/main/tr/tr_solver.c: sleqp_tr_solver_solve", "src/main/eqp.c: sleqp_eqp_solver_compute_direction", "src/main/lp/lpi.c: sleqp_lpi_solve", "src/main/timer.c: sleqp_timer_start", "src/main/trial_point/time.c: sleqp_trial_point_solver_set_time_limit"]}
{"id": "C124", "title": "Figures about trial points in the debug log are those the solver works with", "statement": "With debug output, each trial point is reported with the penalty function at the iterate, its expected and its actual value at the trial point, the reductions in percent, the reduction ratio, and how far objective, constraints and Lagrangean deviate from linearity along the step. The values are those of the point tried, the ratio is the one by which the step is judged, a percentage is positive exactly for a decrease, and no figure comes from a division by the norm of a zero step.", "quantifier": "all problems, iterates, trial steps, penalties, tolerances, earlier contents of the report's storage, evaluations with and without manual rejection", "why_tests_cant": "No test reads the debug output; wrong figures mislead whoever diagnoses a failing solve, and depend on model, penalty and rejected points.", "anchors": ["src/main/measure.c: sleqp_measure_set_iterates, compute_obj_nonlin, compute_cons_nonlin, compute_lag_nonlin, percent_reduction, report_merit, report_lsq, report_func, report_nonlinearity, sleqp_measure_report_trial_point, sleqp_measure_report_soc_trial_point", "src/main/problem_solver/iteration.c: report_trial_point, report_soc_trial_point, evaluate_at_trial_iterate"]}
{"id": "C125", "title": "A solve keeps to its own time limit", "statement": "A solve given a limit of L seconds begins no iteration later than L seconds after its start, gives each trial point only the time left until then, and stops for lack of time only if the L seconds are used up or an iteration ran out of time. This is so however often the solver was used before, and whatever happens between the iterations. A solve without limit never stops for lack of time by itself.", "quantifier": "all histories of solves with one solver, all limits, all sequences of passes (phase changes) and iterations, all clock readings in order", "why_tests_cant": "Tests use a single solve with short iterations; time spent between iterations and in earlier solves with the same solver does not show up.", "anchors": ["src/main/solver/solve.c: run_solving_loop, sleqp_solver_solve", "src/main/problem_solver/solve.c: sleqp_problem_solver_solve, exhausted_time_limit", "src/main/problem_solver/iteration.c: sleqp_problem_solver_perform_iteration", "src/main/timer.c: sleqp_timer_remaining_time, sleqp_timer_exhausted_time_limit"]}
{"id": "C126", "title": "A solver can be used again, however its last solve ended", "statement": "After any solve, be it successful, stopped by a limit, or ended by an error such as a failing user function, another solve with the same solver, or with a new solver for the same function, runs as it would otherwise, and fails no assertion.", "quantifier": "all histories of solves, all passes and iterations, all places at which a function returns early, all nestings of function layers", "why_tests_cant": "Tests of errors end with the error; continuing needs a history of two solves, and the failure depends on where the first one returned.", "anchors": ["src/main/timer.c: sleqp_timer_start, sleqp_timer_stop, sleqp_timer_reset, sleqp_timer_display", "src/main/solver/solve.c: sleqp_solver_solve", "src/main/problem_solver/solve.c: sleqp_problem_solver_solve", "src/main/trial_point.c: sleqp_trial_point_solver_compute_trial_point, sleqp_trial_point_solver_compute_trial_point_soc", "src/main/func.c: sleqp_func_set_value, sleqp_func_hess_prod", "src/main/eqp.c: sleqp_eqp_solver_compute_direction", "src/main/lp/lpi.c: sleqp_lpi_solve", "src/main/tr/tr_solver.c: sleqp_tr_solver_solve"]}
{"id": "C127", "title": "Solvers in different threads do not disturb each other", "statement": "Solves in several threads at once have the same effect as each of them alone: errors reported in a thread are its own, log lines show their own times, objects are freed when they are released for the last time and not before, and a time limit is used up by the solve it was given to only.", "quantifier": "all numbers of threads, all sequences of calls in each of them, all schedules", "why_tests_cant": "Races depend on the schedule; tests run in a single thread.", "anchors": ["src/main/error.c: sleqp_set_error, sleqp_error_msg, sleqp_error_type", "src/main/log.c: localtime_synced, builtin_handler", "src/main/settings.c: sleqp_settings_capture, sleqp_settings_release", "src/main/func.c: sleqp_func_capture, sleqp_func_release", "src/main/problem.c: sleqp_problem_capture, sleqp_problem_release", "src/main/timer.c: sleqp_timer_start, sleqp_timer_elapsed"]}
{"id": "C128", "title": "Python code called by the library runs with the global interpreter lock", "statement": "Whether or not the global interpreter lock is released during solves, and whenever this is switched: Python code of functions, callbacks and log handlers called by the library runs while the thread holds the lock, and switching changes neither which callbacks are called nor their order.", "quantifier": "all histories of problems and callbacks created and removed, solves in any number of threads, switches at any time, including from callbacks and other threads", "why_tests_cant": "Races between threads depend on the schedule; a missing lock corrupts memory only now and then.", "anchors": ["bindings/python/src/extension/gil.pxi: set_release_gil", "bindings/python/src/extension/func.pxi: set_func_callbacks, update_func_callbacks, create_func", "bindings/python/src/extension/dyn.pxi: set_dyn_func_callbacks, update_dyn_func_callbacks, create_dyn_func", "bindings/python/src/extension/lsq.pxi: set_lsq_func_callbacks, update_lsq_func_callbacks, create_lsq_func", "bindings/python/src/extension/log.pxi: update_log_handler", "bindings/python/src/extension/callback.pxi: get_callback_function_pointer", "bindings/python/src/extension/solver.pxi: _solve, add_callback, update_callbacks, update_solver_callbacks", "bindings/python/src/extension/problem.pxi: Problem, LSQProblem, DynProblem", "src/main/func.c: sleqp_func_set_callbacks", "src/main/dyn.c: sleqp_dyn_func_set_callbacks", "src/main/lsq.c: sleqp_lsq_func_set_callbacks"]}
{"id": "C129", "title": "Dynamic functions in Python are told bounds and weights, and their values are taken as returned", "statement": "A dynamic function written in Python is told each error bound, objective weight and weight of constraints set by the solver, in their order; a result consisting of objective value, error within the bound and one value per constraint is taken over exactly, and anything else is reported as an error.", "quantifier": "all functions (whose exceptions and results may depend on all previous calls), all histories of calls of the library, all results, all numbers of constraints", "why_tests_cant": "The tests use a single function without constraints, so that weights and constraint values never occur; results of the wrong shape are not tested.", "anchors": ["bindings/python/src/extension/dyn.pxi: sleqp_dyn_eval, sleqp_dyn_set_error_bound, sleqp_dyn_set_obj_weight, sleqp_dyn_set_cons_weights", "bindings/python/src/extension/problem.pxi: _readonly, DynProblem", "bindings/python/src/extension/sparse.pxi: array_to_sleqp_sparse_vec", "src/main/dyn.c: dyn_func_eval, sleqp_dyn_func_set_error_bound, sleqp_dyn_func_set_obj_weight, sleqp_dyn_func_set_cons_weights, sleqp_dyn_set_penalty_cons_weights", "src/main/solver.c: set_obj_weight", "src/main/solver/solve.c: set_initial_iterate"]}
{"id": "C130", "title": "The block structure of the Hessian given in Python is the one used", "statement": "If a function written in Python has a method to set the block structure of its Hessian, this is called when a problem (ordinary, least-squares or dynamic) is created with the function. The problem then has the blocks the method has set up; blocks out of order or beyond the number of variables raise a ValueError. An exception raised by the method is raised by the constructor. The structure arrives unchanged at the functions with which the solver replaces that of the user, for scaling and for quasi-Newton updates. Without the method, all variables form a single block.", "quantifier": "all numbers of variables, kinds of problems, and methods (any sequence of calls on the structure, exceptions caught or not)", "why_tests_cant": "A structure which is lost or incomplete does not lead to an error: quasi-Newton methods then update other matrices and the solver needs more iterations or ends at another point. The bindings have no test of the method.", "anchors": ["bindings/python/src/extension/problem.pxi: Problem, LSQProblem, DynProblem", "bindings/python/src/extension/hess_struct.pxi: HessianStruct", "src/main/hess_struct.c", "src/main/problem_scaling.c: func_create", "src/main/quasi_newton/bfgs.c: sleqp_bfgs_create", "src/main/quasi_newton/sr1.c: sleqp_sr1_create"]}
{"id": "C131", "title": "Checks of steps in debug builds accept exactly the right steps", "statement": "A library built for debugging checks its own steps and stops if a check fails. The check of a direction accepts exactly the directions whose derivative parts agree with the products of the step with gradient, Jacobian and Hessian; directions just computed and Newton directions are never refused. The check of the working set refuses exactly the steps which do not keep the variables and constraints of the working set at their bounds; Newton steps reported to reach the working set are never refused. The checks made while a trust-region subproblem is solved never fail, so that debug builds compute the same steps. The check of the solution of a trust-region subproblem accepts exactly the steps which meet the optimality conditions. No check loses memory.", "quantifier": "all iterates, directions, working sets, bounds and tolerances", "why_tests_cant": "A check which accepts wrong steps never shows up in a test, since it only reports errors elsewhere. A check which refuses right steps stops debug builds on inputs not tested.", "anchors": ["src/main/direction.c: sleqp_direction_check", "src/main/util.c: sleqp_direction_in_working_set", "src/main/newton.c: newton_solver_compute_direction", "src/main/trial_point.c", "src/main/tr/steihaug_solver.c: check_projection", "src/main/tr/steihaug_solver.c: check_trust_radius", "src/main/tr/steihaug_solver.c: check_residuals", "src/main/tr/trlib_solver.c: check_optimality"]}
{"id": "C132", "title": "Warnings about Newton steps are justified", "statement": "The log states for every Newton step how far it is from the trust region and the working set and how far the optimality conditions of the trust-region subproblem are from being met. For computed steps the first number is zero and the second is the size of the residuum. A warning about stationarity appears exactly if the residuum reaches the stationarity tolerance. A warning about negative curvature only appears if the Hessian was declared positive semidefinite and is not.", "quantifier": "all trust-region subproblems, radii, tolerances, iteration limits and solver results", "why_tests_cant": "Tests do not read the log. A wrong residuum shows up only as a warning about steps which are right, or as the lack of one, depending on the subproblem.", "anchors": ["src/main/newton.c: projection_residuum", "src/main/newton.c: stationarity_residuum", "src/main/newton.c: print_residuals", "src/main/newton.c: check_spectrum", "src/main/tr/steihaug_solver.c: steihaug_solver_solve"]}
{"id": "C133", "title": "Warnings at the start of a solve are justified", "statement": "At the start of a solve the log warns if second derivatives are checked although a quasi-Newton method replaces them, if first derivatives of a dynamic function are checked, and if the constraint violation at the starting point exceeds ten times the magnitude of the objective. Each of these warnings appears exactly if what it states is the case, whatever scaling and preprocessing are used.", "quantifier": "all kinds of functions, scalings, quasi-Newton methods, preprocessing results, derivative check settings and starting points", "why_tests_cant": "Tests do not read the log. The warnings depend on flags and types which are handed on through up to three layers of functions, whose combinations no test runs through.", "anchors": ["src/main/problem_solver/solve.c: print_warning", "src/main/solver.c: solver_create_problem", "src/main/quasi_newton/quasi_newton.c: sleqp_quasi_newton_create_default", "src/main/feas.c: sleqp_total_violation"]}
{"id": "C134", "title": "Printed working sets tell what is in them", "statement": "The printed form of a working set, in the library and in Python, tells the numbers of variables and constraints and the state of each: two working sets have the same text exactly if they have the same sizes and the same active variables and constraints with the same states, in whatever order they were added. The counts available in Python are those of these entries. An object which has no working set raises an exception.", "quantifier": "all working sets reachable by any sequence of calls, of any size, including empty ones", "why_tests_cant": "Tests print a working set at most for a look at it. Texts that agree for different sets, or an access through a null pointer, occur for particular states and objects only.", "anchors": ["src/main/working_set.c: sleqp_working_set_fprintf", "bindings/python/src/extension/working_set.pxi: WorkingSet.__str__", "bindings/python/src/extension/working_set.pxi: WorkingSet.num_vars", "bindings/python/src/extension/types.pxi: ActiveState"]}
{"id": "C135", "title": "Solutions and multipliers of linear programs are handed over", "statement": "After a linear program was solved, the values and the multipliers of bounds and constraints which a back end hands over belong to the program the caller described by its calls, whatever form the back end gave it: the values are feasible and optimal, the gradient of the objective is the combination of the rows and unit vectors with these multipliers, and multipliers which are not zero belong to bounds that are attained and have the sign of those. An array that is not given is not changed, nor are entries behind the last variable or constraint.", "quantifier": "all sequences of calls, programs of any size, and all solutions with multipliers the libraries can find", "why_tests_cant": "Tests solve a few small programs whose multipliers are rarely looked at. A sign, an offset by added columns, or an array that is given twice shows only for particular programs and versions of the library.", "anchors": ["src/main/lp/lpi_highs.c: highs_primal_sol", "src/main/lp/lpi_highs.c: highs_dual_sol", "src/main/lp/lpi_soplex.cc: soplex_dual_sol", "src/main/lp/lpi_gurobi.c: gurobi_primal_sol", "src/main/lp/lpi_gurobi.c: gurobi_dual_sol"]}
