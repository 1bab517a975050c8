# Formal model of sleqp in Lean 4 — design

`/repo` (chrhansk/sleqp, C) is read as text only.  `/verif/lean` holds a Lean 4
model of it, function by function, and theorems about the model.  Nothing of
the C code is executed; the tie between model and code is the citation
(`file:lines`) in the comment of every definition.

## Trusted base

* Lean 4.33.0's kernel.
* Axioms: only `propext`, `Classical.choice`, `Quot.sound` (the standard Lean /
  Mathlib ones).  No axiom is added; no `sorry`, `native_decide`, `bv_decide`.
* The faithfulness of the model, i.e. my reading of the C code.  Simplifications
  are stated at every definition; the general ones are:
  * **Numbers.**  `double` is modelled by an arbitrary linearly ordered field `K`
    (exact arithmetic; examples over `ℚ`; `ℝ` where a square root occurs).
    Rounding, overflow and underflow are *not* modelled.  Purely structural
    theorems (index bookkeeping) hold for an arbitrary value type and an arbitrary
    "is zero" test, hence also for IEEE doubles.  Where NaN or infinities decide
    the outcome, a separate type `Ext` (finite / ±inf / NaN with IEEE comparison
    semantics) is used.  `sleqp_infinity()` is the finite constant 1e100 and is
    modelled as such (parameter `inf`).  `ldexp(x,k)` is `x * 2^k`.
  * **Integers.**  `int` is modelled by `Nat`/`Int` without overflow.
  * **Memory.**  A pair (`indices`,`data`,`nnz`) is a `List (Nat × K)`, with the
    capacity `nnz_max` kept as a number: writing beyond it (a failed `assert`, or
    heap corruption under `NDEBUG`) is the distinct outcome `none`.
    Allocation failure is not modelled.
  * **Undefined behaviour / failed asserts** are distinct outcomes
    (`none` / `Except.error`), never silently totalised.
  * **External code** (LP solver, factorisations, user callbacks, clock) is a
    parameter; what is assumed about it is a hypothesis of the theorem.

## What is modelled and what is not

Not modelled at all: floating-point rounding, overflow of integers, allocation
failure, the text of log messages, MPI, real time (the clock is an arbitrary
sequence of readings), and external libraries (LP solvers, factorisations, trlib,
the AMPL library, Matlab, the Python interpreter): their answers are parameters.
The Python interface is not modelled.  The list below gives, for every source
file, the model files whose comments cite it and the functions which no
definition cites; it is generated from the citations.

<!-- coverage -->
* `aug_jac/aug_jac.c` — in `Own`, `OwnLayout`, `TimerNest`; without `sleqp_aug_jac_create`, `sleqp_aug_jac_solve_lsq`, `sleqp_aug_jac_project_nullspace`, `sleqp_aug_jac_condition`, `sleqp_aug_jac_creation_timer`, `sleqp_aug_jac_solution_timer`.
* `aug_jac/box_constrained_aug_jac.c` — in `AugJac`, `OwnLayout`; without `box_constrained_set_iterate`, `box_constrained_condition`, `box_constrained_data_create`, `sleqp_box_constrained_aug_jac_create`.
* `aug_jac/direct_aug_jac.c` — in `AugJacDirect`, `OwnLayout`; without `direct_aug_jac_condition`, `create_aug_jac_data`, `sleqp_direct_aug_jac_create`.
* `aug_jac/reduced_aug_jac.c` — in `AugJacReduced`, `OwnLayout`; without `aug_jac_data_create`, `reserve_rows`, `reserve_data`, `compute_inner_product`, `aug_jac_condition`, `sleqp_reduced_aug_jac_create`.
* `aug_jac/standard_aug_jac.c` — in `AugJac`, `OwnLayout`, `TimerNest`; without `aug_jac_condition`, `aug_jac_data_create`, `sleqp_standard_aug_jac_create`.
* `aug_jac/unconstrained_aug_jac.c` — in `AugJac`; without `aug_jac_set_iterate`, `aug_jac_condition`, `sleqp_unconstrained_aug_jac_create`.
* `callback_handler.c` — in `Callback`, `Own`, `OwnLayout`; all functions.
* `cauchy/box_constrained_cauchy.c` — in `Cauchy`, `OwnLayout`; without `box_constrained_cauchy_set_trust_radius`, `box_constrained_cauchy_obj_val`, `box_constrained_cauchy_lp_step`, `box_constrained_cauchy_locally_infeasible`, `box_constrained_cauchy_estimate_duals`, `box_constrained_cauchy_violation`, `box_constrained_cauchy_set_time_limit`, `box_constrained_cauchy_basis_condition`, `box_constrained_cauchy_print_stats`, `cauchy_data_create`, `sleqp_box_constrained_cauchy_create`.
* `cauchy/cauchy.c` — in `CauchyLp`, `CauchyStep`, `Own`, `OwnLayout`; without `sleqp_cauchy_create`, `sleqp_cauchy_set_iterate`, `sleqp_cauchy_set_trust_radius`, `sleqp_cauchy_obj_val`, `sleqp_cauchy_working_set`, `sleqp_cauchy_lp_step`, `sleqp_cauchy_locally_infeasible`, `sleqp_cauchy_estimate_duals`, `sleqp_cauchy_violation`, `sleqp_cauchy_set_time_limit`, `sleqp_cauchy_basis_condition`, `sleqp_cauchy_print_stats`.
* `cauchy/standard_cauchy.c` — in `CauchyLp`, `OwnLayout`, `TimeLimits`, `TimerNest`; without `standard_cauchy_set_time_limit`, `standard_cauchy_basis_condition`, `sleqp_standard_cauchy_create`.
* `cauchy/unconstrained_cauchy.c` — in `Cauchy`, `OwnLayout`; without `unconstrained_cauchy_set_iterate`, `unconstrained_cauchy_set_trust_radius`, `unconstrained_cauchy_obj_val`, `unconstrained_cauchy_working_set`, `unconstrained_cauchy_lp_step`, `unconstrained_cauchy_locally_infeasible`, `unconstrained_cauchy_estimate_duals`, `unconstrained_cauchy_violation`, `unconstrained_cauchy_set_time_limit`, `unconstrained_cauchy_basis_condition`, `unconstrained_cauchy_print_stats`, `cauchy_data_create`, `sleqp_unconstrained_cauchy_create`.
* `cmp.c` — in `Cmp`; all functions.
* `deriv_check.c` — in `DerivCheck`, `DerivCheckLsq`, `EvalPoints`, `EvalProtocol`, `OwnLayout`; all functions.
* `direction.c` — in `DirCheck`, `Direction`, `Own`, `OwnLayout`; without `sleqp_direction_primal`, `sleqp_direction_obj_grad`, `sleqp_direction_cons_jac`, `sleqp_direction_hess`.
* `dual_estimation/dual_estimation.c` — in `Own`, `OwnLayout`; without `sleqp_dual_estimation_create`, `sleqp_estimate_duals`, `sleqp_dual_estimation_data`.
* `dual_estimation/dual_estimation_lp.c` — not modelled.
* `dual_estimation/dual_estimation_lsq.c` — in `DualEstimation`, `OwnLayout`; without `estimate_duals_lsq`, `sleqp_estimate_duals_lsq`, `estimation_data_create`, `sleqp_dual_estimation_lsq_create`.
* `dual_estimation/dual_estimation_mixed.c` — in `DualEstimation`, `OwnLayout`; without `estimation_data_create`, `sleqp_dual_estimation_mixed_create`.
* `dyn.c` — in `Capacity`, `Dyn`, `DynLayer`, `Flags`, `OwnLayout`, `PyDyn`, `SolverCreate`; without `dyn_func_obj_grad`, `dyn_func_cons_jac`, `dyn_func_hess_product`, `sleqp_dyn_func_error`, `sleqp_dyn_func_error_bound`, `sleqp_dyn_func_set_callbacks`.
* `enum.c` — in `Settings`; all functions.
* `eqp.c` — in `Own`, `OwnLayout`, `TimeLimits`, `TimerNest`; without `sleqp_eqp_solver_set_iterate`, `sleqp_eqp_solver_set_time_limit`, `sleqp_eqp_solver_get_timer`, `sleqp_eqp_solver_add_violated_multipliers`, `sleqp_eqp_solver_current_rayleigh`.
* `error.c` — in `MexMain`, `PyErrors`, `Threads`; all functions.
* `fact/cholmod_helpers.c` — not modelled.
* `fact/fact.c` — in `AugJac`, `FactBackend`, `Own`, `OwnLayout`; without `sleqp_fact_create`, `sleqp_fact_name`, `sleqp_factorization_version`, `sleqp_fact_flags`, `sleqp_fact_cond`.
* `fact/fact_cholmod.c` — in `FactBackend`, `OwnLayout`; without `cholmod_fact_condition`, `cholmod_fact_solution`, `sleqp_fact_create_default`.
* `fact/fact_lapack.c` — in `AugJac`, `FactBackend`, `OwnLayout`; without `sleqp_fact_create_default`.
* `fact/fact_ma27.c` — in `FactBackend`, `OwnLayout`; without `ma27_get_error_string`, `ma27_data_solution`, `sleqp_fact_create_default`.
* `fact/fact_ma57.c` — in `FactBackend`, `OwnLayout`; without `ma57_get_error_string`, `ma57_solution`, `ma57_condition_estimate`, `sleqp_fact_create_default`.
* `fact/fact_ma86.c` — in `FactBackend`, `OwnLayout`; without `ma86_get_error_string`, `ma86_data_solution`, `sleqp_fact_create_default`.
* `fact/fact_ma97.c` — in `FactBackend`, `OwnLayout`; without `ma97_get_error_string`, `ma97_data_solution`, `sleqp_fact_create_default`.
* `fact/fact_mumps.c` — in `FactBackend`, `OwnLayout`; without `sleqp_mumps_set_print_level`, `sleqp_mumps_solution`, `sleqp_fact_create_default`.
* `fact/fact_qr.c` — in `AugJacDirect`, `Own`, `OwnLayout`, `Spqr`; without `sleqp_qr_create`, `sleqp_qr_name`, `sleqp_qr_version`, `sleqp_qr_set_matrix`.
* `fact/fact_spqr.c` — in `AugJacDirect`, `FactBackend`, `OwnLayout`, `Spqr`; without `sleqp_fact_qr_create_default`.
* `fact/fact_umfpack.c` — in `FactBackend`, `OwnLayout`; without `umfpack_get_error_string`, `umfpack_set_print_level`, `umfpack_fact_condition`, `umfpack_fact_solution`, `sleqp_fact_create_default`.
* `fact/hsl_matrix.c` — in `FactBackend`; without `hsl_matrix_clear`.
* `feas.c` — in `Feas`; without `sleqp_feasibility_residuals`, `sleqp_signed_feasibility_residuals`.
* `func.c` — in `Bfgs`, `Capacity`, `DerivCheckLsq`, `FixedVar`, `Flags`, `Mex`, `MexOwn`, `Own`, `OwnLayout`, `PyErrors`, `PyHess`, `Threads`, `TimerNest`; without `sleqp_func_eval`, `sleqp_func_set_callbacks`, `sleqp_func_hess_struct`, `sleqp_func_get_type`, `sleqp_func_set_type`, `sleqp_func_num_vars`, `sleqp_func_num_cons`, `sleqp_func_get_set_timer`, `sleqp_func_get_val_timer`, `sleqp_func_get_grad_timer`, `sleqp_func_get_cons_val_timer`, `sleqp_func_get_cons_jac_timer`, `sleqp_func_get_hess_timer`, `sleqp_func_hess_bilinear`.
* `gauss_newton.c` — in `DirCheck`, `GaussNewton`, `OwnLayout`, `State`, `TimeLimits`; without `gauss_newton_set_time_limit`, `gauss_newton_add_violated_multipliers`, `sleqp_gauss_newton_solver_create`.
* `hess_struct.c` — in `HessStruct`, `Own`, `OwnLayout`; without `sleqp_hess_struct_num_blocks`, `sleqp_hess_struct_fprintf`.
* `iterate.c` — in `Capacity`, `Feas`, `IterBufs`, `Iteration`, `Own`, `OwnLayout`, `PyErrors`, `PyViews`, `Reset`, `Violated`; without `sleqp_iterate_primal`, `sleqp_iterate_obj_val`, `sleqp_iterate_set_obj_val`, `sleqp_iterate_obj_grad`, `sleqp_iterate_cons_val`, `sleqp_iterate_cons_jac`, `sleqp_iterate_working_set`, `sleqp_iterate_cons_dual`, `sleqp_iterate_vars_dual`, `sleqp_iterate_vars_slackness_residuals`, `sleqp_iterate_cons_slackness_residuals`.
* `linesearch.c` — in `Linesearch`, `Own`, `OwnLayout`, `Parametric`, `TimerNest`; without `compare_breakpoints`, `sleqp_linesearch_create`, `sleqp_linesearch_get_timer`.
* `log.c` — in `Log`, `Threads`; without `sleqp_log_level`.
* `lp/lpi.c` — in `CauchyLp`, `LpBackend`, `Own`, `OwnLayout`, `TimeLimits`, `TimerNest`; without `sleqp_lpi_name`, `sleqp_lpi_version`, `sleqp_lpi_num_vars`, `sleqp_lpi_vars_stats`, `sleqp_lpi_cons_stats`, `sleqp_lpi_solve_timer`, `sleqp_lpi_basis_cond`, `sleqp_lpi_write`.
* `lp/lpi_gurobi.c` — in `LpBackend`, `LpHandover`, `OwnLayout`, `TimeLimits`; without `gurobi_write`, `gurobi_set_output_flag`, `gurobi_status`, `gurobi_reserve_bases`, `gurobi_basis_cond`, `sleqp_lpi_gurobi_create`, `sleqp_lpi_create_default`.
* `lp/lpi_highs.c` — in `LpBackend`, `LpHandover`, `OwnLayout`, `TimeLimits`; without `highs_write`, `highs_set_output_flag`, `highs_status`, `highs_reserve_bases`, `highs_basis_cond`, `sleqp_lpi_highs_create`, `sleqp_lpi_create_default`.
* `lp/lpi_soplex.cc` — in `LpBackend`, `LpHandover`, `TimeLimits`; without `soplex_write`, `soplex_set_log_level`, `soplex_status`, `soplex_basis_cond`, `soplex_free`.
* `lsq.c` — in `Capacity`, `DerivCheckLsq`, `FixedVar`, `Flags`, `Lsq`, `OwnLayout`, `TimerNest`; without `sleqp_lsq_func_get_levenberg_marquardt`, `sleqp_lsq_func_num_residuals`, `sleqp_lsq_func_residual_timer`, `sleqp_lsq_func_adjoint_timer`, `sleqp_lsq_func_forward_timer`, `sleqp_lsq_func_set_callbacks`, `sleqp_lsq_func_get_data`.
* `measure.c` — in `Measure`, `Own`, `OwnLayout`; without `sleqp_measure_cons_nonlin`, `sleqp_measure_obj_nonlin`, `sleqp_measure_step_norm`.
* `merit.c` — in `Direction`, `Iteration`, `Own`, `OwnLayout`, `StepRule`; without `sleqp_merit_create`.
* `mpi_utils.c` — not modelled.
* `newton.c` — in `Choice`, `DirCheck`, `Flags`, `Newton`, `NewtonLog`, `OwnLayout`, `State`, `TimeLimits`, `TimerNest`; without `newton_solver_set_time_limit`, `sleqp_newton_get_timer`, `newton_solver_set_iterate`, `print_objective`, `sleqp_newton_solver_create`.
* `parametric.c` — in `Own`, `OwnLayout`, `Parametric`, `TrialPar`; without `sleqp_parametric_solver_set_penalty`.
* `penalty.c` — in `CauchyStep`, `Penalty`; all functions.
* `polish.c` — in `Own`, `OwnLayout`, `Polish`; without `sleqp_polishing_create`, `sleqp_polishing_polish`.
* `preprocessor/fixed_var_func.c` — in `Capacity`, `DynLayer`, `FixedVar`, `Flags`, `HessStruct`, `OwnLayout`, `SolverCreate`; all functions.
* `preprocessor/preprocessing.c` — in `Preprocessing`; all functions.
* `preprocessor/preprocessing_state.c` — in `Own`, `OwnLayout`, `Presolve`, `Transform`; without `sleqp_preprocessing_state_create`, `sleqp_preprocessing_state_converted_bounds`, `sleqp_preprocessing_state_forcing_constraints`, `sleqp_preprocessing_state_variable_states`, `sleqp_preprocessing_state_linear_constraint_states`, `sleqp_preprocessing_state_variable_bound_requirements`, `sleqp_preprocessing_state_linear_constraint_bound_requirements`, `sleqp_preprocessing_state_num_fixed_variables`, `sleqp_preprocessing_state_num_removed_variable_bounds`, `sleqp_preprocessing_state_num_removed_linear_constraint_bounds`, `sleqp_preprocessing_state_fixed_variables`, `sleqp_preprocessing_state_removed_linear_constraints`, `sleqp_preprocessing_state_get_problem`.
* `preprocessor/preprocessor.c` — in `Own`, `OwnLayout`, `Presolve`, `Transform`; without `add_forcing_constraint`, `sleqp_preprocessor_transformed_problem`, `sleqp_preprocessor_transform_primal`, `sleqp_preprocessor_get_timer`, `sleqp_preprocessor_restore_iterate`.
* `preprocessor/restore.c` — in `EvalProtocol`, `Own`, `OwnLayout`, `RestoreDual`, `SolverCreate`; without `sleqp_restoration_create`, `reset_working_set_states`.
* `preprocessor/transform.c` — in `Capacity`, `Own`, `OwnLayout`, `SolverCreate`, `Transform`; without `remove_redundant_bounds`.
* `problem.c` — in `Capacity`, `EvalProtocol`, `MexOwn`, `Own`, `OwnLayout`, `Problem`, `Threads`; without `sleqp_problem_settings`, `sleqp_problem_has_nonlinear_cons`, `sleqp_problem_num_vars`, `sleqp_problem_vars_lb`, `sleqp_problem_vars_ub`, `sleqp_problem_general_lb`, `sleqp_problem_general_ub`, `sleqp_problem_linear_coeffs`, `sleqp_problem_linear_lb`, `sleqp_problem_linear_ub`, `sleqp_problem_cons_lb`, `sleqp_problem_cons_ub`, `sleqp_problem_num_cons`, `sleqp_problem_num_lin_cons`, `sleqp_problem_num_gen_cons`, `sleqp_problem_func`, `sleqp_problem_obj_val`, `sleqp_problem_hess_bilinear`.
* `problem_scaling.c` — in `Capacity`, `DynLayer`, `Flags`, `Own`, `OwnLayout`, `PyHess`, `Scale`, `SolverCreate`, `StartWarn`; without `scaled_func_obj_val`, `sleqp_problem_scaling_get_problem`.
* `problem_solver.c` — in `Iteration`, `Own`, `OwnLayout`, `Reset`; without `sleqp_problem_solver_abort`, `sleqp_problem_solver_set_iteration`, `sleqp_problem_solver_elapsed_iterations`, `sleqp_problem_solver_elapsed_seconds`, `sleqp_problem_solver_set_cons_weights`, `sleqp_problem_solver_iterate`, `sleqp_problem_solver_status`.
* `problem_solver/callback.c` — not modelled.
* `problem_solver/iteration.c` — in `Acceptance`, `EvalProtocol`, `IterBufs`, `Iteration`, `Measure`, `SolveTime`, `TimeLimits`, `TimerNest`; without `set_residua`, `update_feasible_steps`, `update_trust_radii`, `update_penalty_stats`, `report_soc_trial_point`.
* `problem_solver/print.c` — in `IterBufs`; without `print_iteration`, `sleqp_problem_solver_print_header`, `print_obj_merit`, `sleqp_problem_solver_print_initial_line`, `print_cond`, `sleqp_problem_solver_print_stats`.
* `problem_solver/solve.c` — in `DerivCheckLsq`, `EvalProtocol`, `Iteration`, `SolveTime`, `StartWarn`, `TimerNest`; without `exhausted_time_limit`, `check_derivative`.
* `problem_solver/state.c` — in `State`; all functions.
* `problem_solver/step.c` — in `Capacity`, `EvalProtocol`, `Events`, `IterBufs`; all functions.
* `problem_solver/trust_radius.c` — in `Iteration`; all functions.
* `quasi_newton/bfgs.c` — in `Bfgs`, `Flags`, `OwnLayout`, `PyHess`, `Ring`, `SolverCreate`; all functions.
* `quasi_newton/quasi_newton.c` — in `Capacity`, `Own`, `OwnLayout`, `SolverCreate`, `StartWarn`, `TimerNest`; without `quasi_newton_func_set_value`, `sleqp_quasi_newton_create`, `sleqp_quasi_newton_reset`, `sleqp_quasi_newton_hess_prod`, `sleqp_quasi_newton_update_timer`, `sleqp_quasi_newton_get_func`.
* `quasi_newton/sr1.c` — in `Bfgs`, `Flags`, `OwnLayout`, `PyHess`, `Ring`, `Sr1`; all functions.
* `restoration.c` — in `Capacity`, `Choice`, `DerivCheckLsq`, `EvalPoints`, `OwnLayout`, `Phases`, `Restoration`; without `sleqp_restoration_func_cons_val`, `sleqp_restoration_func_cons_jac`.
* `scale.c` — in `DynLayer`, `Own`, `OwnLayout`, `PyScale`, `Scale`; without `sleqp_scaling_num_vars`, `sleqp_scaling_num_cons`, `sleqp_scaling_obj_weight`, `sleqp_scaling_var_weights`, `sleqp_scaling_cons_weights`.
* `settings.c` — in `Choice`, `Own`, `OwnLayout`, `Settings`, `Threads`; without `sleqp_settings_real_name`, `sleqp_settings_real_desc`, `sleqp_settings_enum_name`, `sleqp_settings_enum_desc`, `sleqp_settings_int_name`, `sleqp_settings_int_desc`, `sleqp_settings_bool_name`, `sleqp_settings_bool_desc`.
* `soc.c` — in `EvalProtocol`, `Own`, `OwnLayout`, `Soc`; without `sleqp_soc_compute_trial_point`.
* `solver.c` — in `EvalProtocol`, `Events`, `Own`, `OwnLayout`, `PyDyn`, `Reset`, `SolveTime`, `Solver`, `SolverCreate`, `StartWarn`, `Timer`, `Violated`; without `solver_create_iterates`, `on_problem_solver_performed_iteration`, `sleqp_solver_info`, `sleqp_solver_status`, `sleqp_solver_iterations`.
* `solver/callback.c` — in `Callback`, `Gil`; all functions.
* `solver/phase.c` — in `Capacity`, `DerivCheckLsq`, `Phases`, `Reset`, `Restoration`, `Solver`; without `create_restoration_primal`.
* `solver/print.c` — in `Summary`, `TimerNest`; all functions.
* `solver/solve.c` — in `EvalPoints`, `EvalProtocol`, `Events`, `PyDyn`, `Reset`, `SolveTime`, `Solver`, `SolverCreate`, `TimerNest`; without `current_problem_solver`.
* `solver/state.c` — in `State`; without `sleqp_solver_vec_state`.
* `sparse/mat.c` — in `AugJac`, `Capacity`, `DerivCheck`, `Dump`, `Mat`, `MatPrint`, `Own`, `OwnLayout`, `PyViews`; without `sleqp_mat_num_cols`, `sleqp_mat_num_rows`, `sleqp_mat_nnz`, `sleqp_mat_nnz_max`, `sleqp_mat_set_nnz`, `sleqp_mat_is_quadratic`, `sleqp_mat_data`, `sleqp_mat_cols`, `sleqp_mat_rows`, `sleqp_mat_push_vec`, `sleqp_mat_dump_to_file`, `sleqp_mat_is_finite`.
* `sparse/vec.c` — in `AmplProblem`, `Capacity`, `Dump`, `Ext`, `FactBackend`, `MexFunc`, `OwnLayout`, `Problem`, `Soc`, `Vec`; without `sleqp_vec_create_empty`, `sleqp_vec_create_full`, `sleqp_vec_norm`, `sleqp_vec_add`, `sleqp_vec_dump_to_file`.
* `step/step_rule.c` — in `Iteration`, `Own`, `OwnLayout`; without `sleqp_step_rule_create`, `sleqp_step_rule_reset`, `sleqp_step_rule_create_default`.
* `step/step_rule_direct.c` — in `OwnLayout`, `StepRule`; without `sleqp_step_rule_direct_create`.
* `step/step_rule_minstep.c` — in `OwnLayout`, `StepRule`; without `compute_historic_reduction_ratio`, `sleqp_step_rule_minstep_create`.
* `step/step_rule_window.c` — in `OwnLayout`, `Ring`, `StepRule`; without `data_begin`, `data_end`.
* `timer.c` — in `OwnLayout`, `Threads`, `Timer`, `TimerNest`; without `sleqp_timer_get_num_runs`, `sleqp_timer_remaining_time`.
* `tr/lsqr.c` — in `Lsqr`, `Own`, `OwnLayout`, `TimeLimits`, `TimerNest`; without `sleqp_lsqr_set_time_limit`, `compute_objective`.
* `tr/steihaug_solver.c` — in `NewtonLog`, `OwnLayout`, `State`, `Steihaug`, `SteihaugDebug`, `TimeLimits`, `TimerNest`; without `sleqp_steihaug_solver_create`.
* `tr/tr_solver.c` — in `Own`, `OwnLayout`, `TimeLimits`, `TimerNest`; without `sleqp_tr_solver_set_time_limit`, `sleqp_tr_solver_get_solve_timer`, `sleqp_tr_solver_current_rayleigh`.
* `tr/tr_util.c` — in `Steihaug`; all functions.
* `tr/trlib_solver.c` — in `OwnLayout`, `State`, `TimeLimits`, `TimerNest`, `Trlib`, `TrlibCheck`; without `trlib_get_status_string`.
* `trial_point.c` — in `Acceptance`, `Choice`, `DirCheck`, `EvalPoints`, `EvalProtocol`, `IterBufs`, `Iteration`, `Own`, `OwnLayout`, `PyDyn`, `Soc`, `SolverCreate`, `State`, `TimeLimits`, `TimerNest`, `TrialPar`, `TrialPoint`; without `create_parametric_solver`, `sleqp_trial_point_solver_penalty`, `sleqp_trial_point_solver_set_cons_weights`, `sleqp_trial_point_solver_penalty_info`, `sleqp_trial_point_solver_multipliers`, `sleqp_trial_point_solver_cauchy_step`, `sleqp_trial_point_solver_trial_direction`, `sleqp_trial_point_solver_soc_step`.
* `trial_point/cauchy_step.c` — in `CauchyStep`, `DirCheck`, `IterBufs`, `Iteration`, `TimeLimits`, `TrialPar`, `TrialPoint`; all functions.
* `trial_point/print.c` — in `TimerNest`; all functions.
* `trial_point/time.c` — in `TimeLimits`, `TimerNest`; all functions.
* `types.c` — not modelled.
* `util.c` — in `DirCheck`, `EvalProtocol`, `MaxStep`, `StepRule`; all functions.
* `working_set.c` — in `Own`, `OwnLayout`, `Polish`, `PyViews`, `WSetPrint`, `WorkingSet`; without `sleqp_working_set_cons_index`, `sleqp_working_set_var_index`, `sleqp_working_set_content`, `sleqp_working_set_var_states`, `sleqp_working_set_cons_states`, `sleqp_working_set_num_active_vars`, `sleqp_working_set_num_active_cons`.
* `working_step.c` — in `Newton`, `Own`, `OwnLayout`, `WorkStep`; without `sleqp_working_step_create`, `sleqp_working_step_get_step`, `sleqp_working_step_direction`, `sleqp_working_step_reduced_trust_radius`, `sleqp_working_step_in_working_set`, `sleqp_working_step_violated_cons_multipliers`.
* `bindings/ampl/ampl_data.c` — in `AmplProblem`; without `sleqp_ampl_data_free`.
* `bindings/ampl/ampl_func.c` — in `Ampl`, `AmplProblem`; without `ampl_func_data_free`, `ampl_func_nonzeros`.
* `bindings/ampl/ampl_keywords.c` — in `AmplKeywords`; without `compare_kwds`, `sleqp_ampl_keywords_iter_limit`, `sleqp_ampl_keywords_time_limit`, `sleqp_ampl_keywords_halt_on_error`, `sleqp_ampl_keywords_get`, `sleqp_ampl_keywords_free`.
* `bindings/ampl/ampl_main.c` — in `AmplRun`; all functions.
* `bindings/ampl/ampl_output.c` — in `Ampl`, `AmplRun`; all functions.
* `bindings/ampl/ampl_problem.c` — in `Ampl`, `AmplProblem`; all functions.
* `bindings/ampl/ampl_suffix.c` — not modelled.
* `bindings/ampl/ampl_util.c` — in `Ampl`; all functions.
* `bindings/mex/gen_enums.c` — in `MexMain`; without `generate_mex_enum`, `main`.
* `bindings/mex/mex_dyn.c` — in `MexFunc`, `MexOwn`; without `mex_dyn_func_create`.
* `bindings/mex/mex_func.c` — in `MexFunc`, `MexOwn`; without `print_array`, `mex_func_create`.
* `bindings/mex/mex_func_common.c` — in `Mex`, `MexFunc`; without `mex_callback_has_field`, `mex_eval_into_real`, `mex_eval_into_bool`, `mex_eval_into_vec`, `mex_eval_into_sparse_matrix`.
* `bindings/mex/mex_hess.c` — in `Mex`, `MexFunc`, `MexOwn`; all functions.
* `bindings/mex/mex_info.c` — not modelled.
* `bindings/mex/mex_lsq.c` — in `MexFunc`, `MexOwn`; without `mex_lsq_func_create`.
* `bindings/mex/mex_main.c` — in `MexMain`; without `mex_log_handler`.
* `bindings/mex/mex_output.c` — in `Mex`, `MexMain`; without `set_struct_field_to_vec`, `set_struct_field_to_real`.
* `bindings/mex/mex_problem.c` — in `Mex`, `MexFunc`, `MexOwn`; without `num_vars_from_solution`, `create_var_bounds_from_options`, `create_cons_bounds_from_options`.
* `bindings/mex/mex_solve.c` — not modelled.
* `bindings/mex/mex_solve_common.c` — in `MexFunc`, `MexOptions`, `MexOwn`; all functions.
* `bindings/mex/mex_solve_dyn.c` — not modelled.
* `bindings/mex/mex_solve_lsq.c` — not modelled.
<!-- /coverage -->

## Layout

* `lean/Verif/Model/*.lean` — the model (definitions citing `/repo`).
* `lean/Verif/Lemmas/*.lean` — helper lemmas.
* `lean/Verif/Spec/*.lean` — small independent specifications used in statements.
* `lean/Verif/Props/*.lean` — the property theorems, with non-vacuity examples,
  and negation theorems (`..._violated`) where the code breaks the property.
* `properties.jsonl` — the properties; `MANIFEST.json` — property → theorems.
* `seeded/LOG.jsonl` — mutation log (wrong programs the theorems must reject).

## Plan per property

Shape abbreviations: A algebraic law, I invariant over operation sequences,
R refinement to an abstract spec, D decision logic, N negation with witness.

| id | modelled | how |
|----|----------|-----|
| C01 | `cmp.c` predicates over `K` | A: ordered-field reasoning on `rel_diff` |
| C02 | `vec.c` operations as state machine with `none` for failed asserts | I |
| C03 | merge loops of `vec.c` | R to dense function `Nat → K` |
| C04 | `set_from_raw`, `to_raw` | A |
| C05 | `vec_clip`, `is_boxed` | R to `min (max x lb) ub`, capacity bound |
| C06 | `vec_is_finite` over `Ext` | N + partial |
| C07 | `remove_entries`, `merge_entries`, `add_zero_entries` | A (round trips) |
| C08 | CSC matrices as list of columns, `mult_vec`, `mult_vec_trans`, `trans` | R to dense sums, adjoint law |
| C09 | `push`, `push_col`, ... | I |
| C10 | `vstack` | R + N |
| C11 | `vec_eq`, `mat_eq` | D + N |
| C12 | `feas.c` | R to max / sum of dense violations |
| C13 | `violated_cons_multipliers` | R |
| C14 | `is_optimal` over `Ext` | D + N (NaN) |
| C15 | `slack_residuum` | R |
| C16 | `merit.c` | A, convexity of the penalty term |
| C17 | `reduction_ratio`, direct rule | D + N |
| C18 | window/minstep rules as state machines | I/R over accepted histories |
| C19 | `trust_radius.c` | I, finite termination via powers of 1/2 |
| C20 | `problem_solver/solve.c` loop with arbitrary iteration outcomes | I |
| C21 | abort flag in both solvers | I + N |
| C22 | `solver/solve.c` phase machine | I |
| C23 | `dyn.c` cache | I + N |
| C24 | `lsq.c` | A + I (cache) |
| C25 | `restoration.c` | A |
| C26 | `bfgs.c` | I: positive definiteness over histories, N undamped |
| C27 | `sr1.c` | I |
| C28 | ring buffers | R to "last n of list" |
| C29 | box / unconstrained Cauchy | A: LP optimality |
| C30 | `working_set.c` | I |
| C31 | `dual_estimation_lsq.c` | D |
| C32 | `polish.c` | I |
| C33 | `scale.c` | A |
| C34 | `scale_linear_coeffs` | N + partial (equal counts) |
| C35 | fixed-variable functions | A on top of C07 |
| C36 | `preprocessor.c`, `preprocessing_state.c`, `transform.c` (problem): `Model/Presolve`, `Model/Transform` | Invariant of the analysis relative to a feasible point, segment argument for removing redundant bounds simultaneously; violated for infeasible problems |
| C37 | Same model as C36 | Every reduction keeps each feasible point, so none can be reported away |
| C38 | `restore.c`: maps, working set, multipliers, the three corrections | invariant over the records made by `preprocessor.c`: gradient of the Lagrangian equals the stored residual; scan of the largest candidate multiplier for forcing rows |
| C39 | `settings.c` | I/R to key-value maps |
| C40 | `callback_handler.c` | R to multiset |
| C41 | `hess_struct.c` | I |
| C42 | `problem.c` creation | R |
| C43 | `linesearch_cauchy_step` | I over backtracking loop + N |
| C44 | `linesearch_trial_step` | I |
| C45 | `trial_step_exact` | A + N (merge loop stops early) |
| C46 | `penalty.c` | I |
| C47 | `max_step_length` | A + N |
| C48 | `steihaug_solver.c` | I over CG iterations |
| C49 | `func.c` flags | D + N |
| C50 | `timer.c` | A + I |
| C51 | unboundedness test and stored residual | I + N |
| C52 | acceptance, merit value and penalty along runs | I + N |
| C53 | step counters | I + N |
| C54 | initial radii | A + N |
| C55 | entering restoration phases | A + N |
| C56 | iterates passed to callbacks | D + N |
| C57 | `problem_scaling.c` flush, infinite bounds | A + N |
| C58 | automatic weights in `scale.c` | I + N |
| C59 | unscaling of least-squares iterates | A + N |
| C60 | displayed times in `timer.c` | A + N |
| C61 | settings files in `settings.c` | R to sequences of updates + N |
| C62 | direction.c | relation between a direction and its step, preserved by every operation |
| C63 | merit.c | merit values equal those of a dense specification of the penalty model |
| C64 | Same model as C48. | The first CG iterate minimises along the steepest descent direction and later iterates are not worse; violated by the iteration limit. |
| C65 | Same model as C36 (`Model/Presolve`, `Model/Transform`). | Invariant of the analysis along all steps; violated by three concrete problems. |
| C66 | `Model/AugJac`, `Model/AugJacReduced`: assembly of the augmented matrix (with the in-place transposition of `add_upper`) and of the normal equations, the cached working set, the services. The factorization is a parameter that solves its systems. | Entries of the assembled matrices computed exactly; optimality from orthogonality; induction over the calls. |
| C67 | `Model/AugJacDirect`: construction of the transposed working-set matrix (row removal, shift of the rows, unit entries, transposition) and the three services. The QR factorization is a parameter with orthogonal and triangular factor. | Invariant of the column loop running backwards; optimality from orthogonality; concrete witnesses for the two defects. |
| C68 | `Model/Soc`: right-hand side, correction, corrected step, trial point, and the two variants of the corrected trial point. The minimum-norm service is a parameter with the specification proved in C66/C67. | Right-hand side as a list of pushes sorted by the position in the working set (`Lemmas/WorkRhs`); composition with C47 (step length), C05 (clip) and the service; concrete witness for dynamic functions. |
| C69 | `Model/WorkStep`: right-hand side, direction, scaled step, reduced radius, slopes, linearised constraint values, multipliers, model offset. The minimum-norm service and the square root are parameters. | Right-hand side as sorted pushes; a minimum-norm solution is orthogonal to the null space, hence Pythagoras; composition with C03, C08, C12, C13. |
| C70 | `Model/Newton` on top of `Model/WorkStep` and `Model/Steihaug`: reduced gradient, trust-region call, sum of the two steps, direction parts, multipliers. | The projection service is a symmetric idempotent matrix (`Lemmas/NullProj`); C48 applied to the reduced problem, C69 for the radius, C62 for the parts of the direction; sign of the violation constant along the step gives the merit. |
| C71 | `Model/Lsqr`: bidiagonalization, rotations, update, boundary solution, termination. Products, square root and clock are parameters. | Invariant with a ghost vector (normalised residual) and the histories of both sequences (`Lemmas/Lsqr`: `gk_step`); orthonormal vectors are at most `n` many; exact line minimisation. |
| C72 | `Model/GaussNewton`: removed rows, right-hand side, stacked products and adjoints, correction. Residuals, Jacobian products, projection, Hessian products, square root and clock are parameters; the step towards the working set is C69's, the least-squares solver C71's model. | The callbacks are products with (stacked matrix)·P; composition of C69, C71, C62; pulling the gradient back by the projection. |
| C73 | `Model/CauchyLp`: the whole of standard_cauchy.c as a state machine over the LP interface: bounds, slack columns, coefficients, objectives, bases, cached answers. The LP back end is a parameter that returns an optimal solution with dual values and a basis. | Invariant of the state over all histories; elimination of the slack variables; weak duality is not needed for the minimum, only for the examples. |
| C74 | `Model/CauchyLp` with `Model/WorkingSet`: the loops adding variables and constraints according to the base status of the linear program or its reduced form. | Linear independence of the nonbasic rows of an optimal basis, transferred to rows of the problem by eliminating slack columns; the reduced program by its own basis. |
| C75 | `Model/CauchyLp`: dual values of the linear program, change of sign, trimming by the working set. | Complementary slackness of the answer of the LP solver: a nonzero dual value belongs to a nonbasic row at the bound of its sign, so it survives trimming; equality of both bounds means an equation. |
| C76 | `Model/CauchyStep` over `Model/CauchyLp`: the calls of `compute_cauchy_direction` with every linear program solved on the way, the LP solver a parameter. | The state of the LP-based solver is always one after a history of calls (C73–C75 apply); induction over the loop of the penalty update, keeping which linear program was solved last. |
| C77 | `Model/TrialPoint` over `Model/CauchyStep`, `Model/Direction`, `Model/Linesearch`, `Model/Soc`: the three computations of trial points and the refinement loop; LP solver, products with the Hessian and Newton direction are parameters. | Composition: C76 for the LP step, C62/C63 for direction and merit values, C43 for the Cauchy step, C44/C45 for the line searches, C68 for the projection; a lemma identifies the linear model of the LP with that of the merit function. Induction over the passes of the refinement loop. |
| C78 | `Model/DerivCheck`: perturbed points, products with Hessians, the five comparisons, the loop over the variables; callbacks are functions of the point last set, all points passed to the function are recorded. | Each comparison is shown equivalent to one of the five conditions of `DerivOk`; induction over the variables. Acceptance and detection over the reals with the mean value theorem. `Model/DerivCheckLsq`: the least-squares layer and the restoration function as seen by the checker, reduced to the former by C24; witnesses for both by evaluation. |
| C79 | `Model/Parametric`: both searches and the test for sufficient decrease; the linear programs are represented by their step as a function of the radius (`Model/CauchyLp` has their model), the shared line search object by the data set last. | Invariants of both loops by induction on the number of linear programs left; optimality of the linear programs gives monotonicity of the linear model. Witnesses for the violations are evaluated by the kernel. |
| C80 | `Model/LpBackend`: the three LP back ends with their own state (copies of the data, dirty flags, stored bases) and the linear program held by the library. | Invariants over the history of calls by induction; the program described by the calls is specified as the data set last (`lastLp`), the back ends refine it. |
| C81 | As for C80. | Frame property of calls with other indices by induction over the history; the conversions of codes are inverse to each other. |
| C82 | `Model/EvalProtocol`: the calls that set and evaluate the function during a solve; iterates store where each part was evaluated. | Invariant over iterations; specification as a predicate on the record of calls (`EvalsAtSet`, `ReadsFresh`, `IterationTold`). |
| C83 | `Model/Acceptance`: preparation of the trial point solver, trial point (`Model/TrialPoint`), merit values and the direct step rule composed, with exact and with dynamic functions. | Composition of C16, C17, C77; the error of the penalty function is bounded by weighted errors; concrete iterations for the negations. |
| C84 | `solver_create_problem`, `solver_convert_primal`, `do_restore_iterate`, the types of the wrapped functions, `create_transformed_func`, `restore_primal` | composition of C07 (removing and merging entries), C33 (scaling), C26 (pairs) and C23 (dynamic functions); case distinction on the options |
| C85 | `ampl_func_*`, `ampl_cons_jac`, `compute_linear_coeffs`, `apply_linear_offset`, `sleqp_ampl_report` with the AMPL library as an oracle | invariant of the stored values over all histories; the assembly loop over triplets equals assembly by columns (C09) |
| C86 | `standard_cauchy_locally_infeasible` | induction over the cursor loops |
| C87 | `kwdfunc_*`, `sleqp_ampl_keywords_create`; validity of the pointers as part of the state | induction over the list of options |
| C88 | the back ends `fact_*.c` and `hsl_matrix.c` as state machines over arrays with sizes, libraries as oracles; access out of bounds and null pointers are own outcomes | invariant over all histories: the array of the right-hand side is zero between solves, its size covers the matrix, the triplets or columns have the entries of the matrix; with C66 the augmented Jacobian gets a correct factorization |
| C89 | the loops of `fact_ma27.c`, `fact_ma57.c` with a bound on the number of rounds; running out of rounds is an own outcome | the distance to a sufficient size decreases |
| C90 | `fact_spqr.c` as a state machine, SPQR as an oracle for factorization, products and solves | invariant over all histories; composition with the operations of the direct augmented Jacobian (C67) |
| C91 | `trlib_loop` with the library as an oracle (reverse communication), sparse vectors and the matrix of Krylov vectors as in the code | refinement: each action of the code simulates the documented one on dense vectors; induction over the rounds |
| C92 | reference counting on a heap of objects with fields, for arbitrary structures; a table of all structures of the library with their fields and what the functions which free them release | invariant (count = references of callers + references of fields) kept by all operations, with the objects being freed as a parameter; induction over the depth of releases; acyclicity by a rank function; decision procedure for the table |
| C93 | the conversions between MATLAB arrays (dense, sparse, other class) and sparse vectors and matrices, with reads outside the arrays as a distinct outcome | values of the components; the product as double sum over the entries of the lower triangle |
| C94 | creation of vectors from (cell) arrays with default values, the number of constraints, creation of the problem | the creation of problems of C42, values of components |
| C95 | the tables of names and the loops over them, conversion from doubles to integers and enumerations with its undefined cases, on top of the settings of C39 | loop over a table with distinct settings determines exactly the listed ones; conversion characterised by absolute values |
| C96 | capacities of the vectors and matrices handed to callbacks, through the layers around a function; the functions that report nonzeros and reserve space | induction over the layers; the capacities before a call are arbitrary, so that histories need no induction |
| C97 | choice of algorithms on creation of a solver, for the optimization and the restoration problem | case distinction; with the characterisation of unconstrained problems (C42) and of the bounds of the restoration problem (C03) |
| C98 | both problem solvers and the caches of the restoration function, as a record of calls of the user's function; return from restoration on values | invariant over all sequences of operations, using that of C82 in both phases; composition with C25 and C12 |
| C99 | the conversions of the Python extension and the creation of problems, on top of the models of vectors, matrices (C09) and problems (C42) | simulation of the loop over the entries by the loop over columns, up to the space reserved; composition with C42; witnesses for the violations |
| C100 | the objects of the Python function minimize which evaluate the user's functions, with all their caches, and the difference formulas with the array they perturb | invariant over sequences of requests (caches belong to the point set last); induction over the loops of the difference formulas; witnesses for the violations |
| C101 | the translation of bounds and constraints by the Python function minimize, down to the creation of the problem in C | induction over the list of constraints (general and linear parts, stacked rows); composition with C99 (conversion of arrays, creation of the problem); witnesses for the violations |
| C102 | the state queries on the problem solver and on its current iterate | invariant of the solver loop (stored residuals are current unless the last step was accepted); composition with C12, C14, C15 for the vectors; witnesses for the violations |
| C103 | the error state of the library, the macros for calls of functions and callbacks, the exceptions stored at functions and handles, and `Solver._solve` | invariant of the registered callbacks and handles over all histories; induction over the steps of a solve and over the wrappers of a function; witnesses for the violations |
| C104 | `sleqp_solver_reset`, `sleqp_problem_solver_reset`, `set_initial_iterate` and repeated `sleqp_solver_solve` around the modelled loops | simulation of two runs by induction over inner and outer loop; induction over the history; witnesses for the violations |
| C105 | as C104 | a run with a smaller limit is a prefix of the run with a larger one (induction over the passes), then the simulation of C104; witnesses for the violations |
| C106 | composition of the modelled outer loop, residuals and `restoreIterate` | C22 and C14 for the loop's problem, values of the unscaled iterate, monotonicity in the tolerances; witnesses for the violations |
| C107 | `sleqp_solver_violated_constraints`, `sleqp_iterate_get_violated_constraints` above `sleqp_violated_constraints` (C12) | C12; witness for the violation as an optimal end of a run |
| C108 | `mex_func.c`, `mex_lsq.c`, `mex_dyn.c`, `mex_hess.c`: handles, arrays of arguments; `accepted_iterate` | invariant over histories: contents of the arrays are those of the last operations; witness for the violation |
| C109 | `mex_solve`, `mex_problem_create`, creation and cleanup of function data, as programs over the memory of C92 | soundness of the structures, evaluation for all setups; witnesses for the violations |
| C110 | the histories of C98 on vectors: initial point, trial points, corrections, lifted and check points as computed by the code from arbitrary steps | invariant over all histories; refinement through scaling and preprocessing; witnesses for the violations |
| C111 | scattering of the nonzeros, linear coefficients, shifted bounds and creation of the problem from the data read by the AMPL library | end-to-end equivalence of feasibility; contradictory bounds are rejected; witness for the violation |
| C112 | entry point of the MATLAB extension, formatting of messages, returned structure, generated enumerations | case analysis of the dispatch, characterisation of the fields, witnesses for the violations |
| C113 | stages of the AMPL driver, report with status and error, suffixes with the memory holding them | case analysis over the stages; contents of the file against the dense solution; witnesses for the violations |
| C114 | functions writing vectors and matrices, printed numerals as rounded values | loop invariant of the cursor over columns; error bound of the rounding; witness for the violation |
| C115 | static state of the log, macros, logger of the Python interface | induction over histories; case analysis over levels; witnesses for the violations |
| C116 | table of attributes, enumerations and assignments of the Python settings on top of the model of the library's settings | case analysis over the table; induction over assignments; witnesses for the violations |
| C117 | Python wrapper of scalings with its buffers, arrays with strides, on top of the model of the library's scalings | invariant of the sizes over calls; reduction to C58 and C99; witnesses for the violations |
| C118 | reference counts of iterate, Jacobian and working set, memory blocks with identities, Python objects | invariant over all sequences of operations; witnesses for the violations |
| C119 | Cauchy direction of C76, search of C79 and computation of the trial point of C77 put together | composition of the theorems of C76, C79, C62, C63 and C68; witness for the violations |
| C120 | the two iterates of the loop (point, multipliers, working set), exchanged when a step is accepted | invariant over all histories, relating them to the list of points visited; witness for the violations |
| C121 | columns of a line of the log; objective values and residuals of the summary | invariant of C120; end of a run (C22, C102) for the summary; witnesses for the violations |
| C122 | timers and limits of trial points, LP interfaces and their libraries, equality constrained problems and their loops; clock readings are parameters | deadline invariant by induction over LP solves and steps; invariant over histories without limits; witnesses for the violations |
| C123 | as C122; a timer started twice is a failing assertion | invariant (all timers stopped) over all histories; witness for the violation |
| C124 | measure of trial points and its log lines as numbers, with the evaluation before; norms are kept squared | refinement to the exact penalty model; algebra for deviations from linearity; witnesses for the violations |
| C125 | loops of solver and problem solver as functions of clock readings; an iteration is its readings and its kind of end | induction over iterations, passes and calls, with the deadline as invariant; witnesses for the violations |
| C126 | runs reduced to timers started, stopped, reset and shown, and to early returns; timers nested by a rank | induction over runs: tidy runs keep the set of running timers, early returns leave unguarded timers running, running timers cannot be started; violations for all runs |
| C127 | threads performing calls step by step under an arbitrary schedule: thread-local errors, plain reference counts, mutex and static buffer of `localtime` | induction over schedules with an invariant for each thread and a frame for the others; violations by a concrete schedule and for every limit |
| C128 | which variants (with or without acquiring the lock) are installed, registries searched when switching, solves with and without the lock; removal and addition of callbacks in a handler | invariant over histories: everything registered has the variant of the flag, and solves without the lock run only while it is set; induction over handles for callbacks; violations by interleavings |
| C129 | the Python function as an oracle on the calls received, results as tuples of Python objects, arrays of NumPy and Cython | induction over histories of calls; evaluation of proper results by C99; violation for all functions with constraints |
| C130 | hook of the Python constructors, operations on the structure with exceptions caught or not, copies made by wrapping functions | induction over the steps of the method, with the validity of the structure (C41) as invariant; induction over the number of wrapping functions |
| C131 | check of a direction with the vectors it creates and frees, three-way loop of the check of the working set | decision logic against closeness of all coordinates; reduction of the loop to the lookup lemma of the merge; Newton steps by C69 and C70; refinement: the trust-region solver with its checks equals the solver without |
| C132 | residua and warnings printed about the result of the conjugate-gradient solver | sums and projections of vectors by C03, feasibility, multiplier and Rayleigh quotients by C48; witness from the termination and stationarity theorems of C48 |
| C133 | warnings at the start of a solve as a function of the flags and the type of the function after scaling, quasi-Newton method and preprocessing | sum of violations by C12; flags by cases over all setups |
| C134 | lines of the printed forms of working sets, and the attributes in Python | states from the representation by C30; texts compared line by line, names of states being different |
| C135 | functions handing over solutions and multipliers; arrays that are given twice, and the order in which the library copies | the program held by the library is the one described (C80); optimality by weak duality |

## Violations found in the code

Each is proved as a theorem about the model with a concrete witness; the property is
then claimed as `partial`, with the part that holds proved separately.

<!-- violations -->
* **C06** `C06_vec_is_finite_violated` — C06 violated by the code: a well formed vector whose only entry is NaN passes the finiteness check.
* **C10** `C10_vstack_violated` — C10 violated by the code: two well formed 1x1 matrices `[5]` stacked into a well formed result object that previously held a 2x2 matrix. The call succeeds, but the result is not well formed and its entry (1,0) is the stale 7 instead of 5.
* **C11** `C11_mat_eq_violated` — C11 violated by the code for matrices: two well formed matrices with equal values are reported different, and the comparison is not symmetric.
* **C14** `C14_nan_violated` — The code violates the property for NaN residuals: NaN stationarity and slackness residuals are accepted as optimal.
* **C14** `C14_nan_forgotten_violated` — Moreover the maximum loop forgets a NaN that is not last: the residual of a point with a NaN in its first stationarity component can be 0.
* **C16** `C16_drop_violated` — With the default drop tolerance the linear and the quadratic model of the merit function differ from the merit function at the zero step: a constraint value of `1e-20` counts as a violation in the merit function, while the models drop it when the slope is added (merit.c:80-111).
* **C17** `C17_zero_prediction_violated` — The code violates the property when the predicted decrease is 0: a step that increases the merit value by 1 is accepted (here `eps = 1/1000`, threshold 1/100).
* **C18** `C18_penalty_violated` — The step rules are not reset when the penalty parameter changes, so the merit values they remember belong to different penalties. With the window rule a step from merit value 1 to 0 is accepted first; when the next iteration starts after an increase of the penalty with merit value 5 at the same (infeasible) point, a trial of value 4 is accepted, above the merit value of the first iterate (step/step_rule_window.c:152-198; `sleqp_step_rule_reset` is never called).
* **C19** `C19_reject_enlarges_violated` — A rejection with a large ratio (possible when the required reduction exceeds 0.3) enlarges the EQP radius.
* **C21** `C21_restoration_abort_lost_violated` — The code violates C21 at the outer level: the user calls for an abort during the restoration phase (iteration 1 of the run); the solver goes on for three more iterations and reports "optimal".
* **C21** `C21_infeasible_abort_lost_violated` — It is also lost when the iteration that called for it ends locally infeasible.
* **C23** `C23_stale_weights_violated` — The code violates freshness: the weight is changed from 1 to 2 between two successful evaluations; the second one does not ask the user and returns the old value 1, while the user would deliver 2. (The setters clear bit `1 << HAS_VALUES` instead of `HAS_VALUES`.)
* **C23** `C23_nan_error_violated` — The code also accepts NaN as a reported error.
* **C24** `C24_negative_lm_violated` — C24 is violated: the Levenberg-Marquardt factor is only checked at creation. `sleqp_lsq_func_set_lm_factor` accepts a negative factor, after which the Hessian product (still flagged positive semidefinite) has negative curvature.
* **C24** `C24_hess_room_violated` — C24 is violated: the room for the Hessian product is taken from the count of *forward* products although it holds an *adjoint* product. A user whose forward products have one entry and whose adjoint products have two (reported truthfully), whose product vector is large enough, and who enables the Levenberg-Marquardt term after creation gets a push beyond the capacity of the internal vector.
* **C24** `C24_hess_count_violated` — C24: and the count it reports for Hessian products is the forward count, too small for the products themselves: a product vector with just that capacity overruns.
* **C25** `C25_drop_violated` — With the default drop tolerance the restoration objective can be zero although the point is infeasible: for the constraint `x = 0` at `(x, s) = (1e-20, 0)`, which satisfies the lifted bounds, the residual `c(x) - s` is dropped (restoration.c:148-166).
* **C26** `C26_undamped_violated` — C26: plain BFGS violates the property: a pair without positive curvature along the step makes the update hit a failed assertion (in a release build: divide by a nonpositive number). Nothing in the solver prevents such pairs, which arise for every nonconvex objective.
* **C26** `C26_drop_violated` — With the default drop tolerance the damped BFGS model is neither linear nor positive definite: after the pair `s = y = 1`, for which the matrix is the identity, the product with the direction `1e-20` is zero, while the product with `2e-20` is `2e-20` (quasi_newton/bfgs.c:291-346).
* **C27** `C27_drop_violated` — With the default drop tolerance the SR1 model is not linear: after the pair `s = 1`, `y = -1`, for which the matrix is `-1`, the product with the direction `1e-20` is zero, while the product with `2e-20` is `-2e-20` (quasi_newton/sr1.c:482-533).
* **C31** `C31_stored_zero_violated` — Witness: the combined estimate fails an assertion if the least-squares solution stores a zero for an equality entry while another multiplier is clipped. (For problems with bounds only the solution is copied from the user's gradient, which may store zeros.) Two fixed/ bounded variables: variable 0 fixed (`both`) with stored gradient entry `0`, variable 1 at its upper bound with gradient `1`, hence solution entry `-1`.
* **C34** `C34_wrong_weight_violated` — C34: with two general constraints and one linear constraint the weight of the second general constraint is used: here the coefficient of the linear constraint (of weight 0) is multiplied by 8.
* **C34** `C34_out_of_bounds_violated` — C34: with more linear than general constraints the weights are read past the end of the array.
* **C34** `C34_creation_violated` — C34: a scaled problem cannot be created at all if the original problem has linear constraints: creation reports a failed assertion, because the scaled function is declared to have all constraints while only bounds of the general ones are passed for it.
* **C35** `C35_lsq_jacobian_violated` — C35: for least-squares functions which do not specify the number of Jacobian entries (`SLEQP_NONE`), no room is reserved for the Jacobian of the original function: filling it fails, whereas it succeeds for a regular function.
* **C36** `C36_violated` — C36 violated by the code: for variables `x, y ∈ [0, 10]` and the constraints `x - 2 y ≥ 1`, `y - 2 x ≥ 1`, which no point satisfies, preprocessing succeeds. Each constraint makes the lower bound of one variable redundant, both are removed, and the new problem has the solution `(-1, -1)`.
* **C36** `C36_forcing_violated` — C36 violated by the code: for `x, y ∈ [0, 1]` with `x + y ≥ 2` and `x + y ≤ 0`, which no point satisfies, preprocessing succeeds. The first constraint forces both variables to 1, the second one to 0; the values are overwritten and both constraints are removed.
* **C36** `C36_tolerance_violated` — C36 violated by the code with positive tolerances: for `x, y ∈ [0, 1]` with `x + y ≥ 2 - 1 / 2000000` and a feasibility tolerance of `1 / 1000000`, both variables are fixed at 1, although `(1, 1 - 1 / 2000000)` is feasible as well (and may be the only minimum).
* **C38** `C38_converted_violated` — C38 violated by the code: minimising `x ∈ [0, 10]` with the constraints `x ≥ 2` and `x ≥ 3`, the solution of the preprocessed problem is `x = 3` with multiplier -1 of the lower bound. The restoration gives the multiplier to the first of the two constraints, which is not active, and leaves the second one without.
* **C38** `C38_forcing_violated` — C38 violated by the code: for `x, y ∈ [0, 1]` with the forcing constraints `x + y ≤ 0` and `x + 2 y ≤ 0` and an objective with gradient `(1, -1)` at the only feasible point, the multipliers computed for the first constraint are partly overwritten when the second one is handled: the multiplier of `x` is lost, and the gradient of the Lagrangian with respect to `x` is 2.
* **C38** `C38_index_violated` — C38 violated by the code: for `x, y ∈ [0, 1]` with the forcing constraint `x + y ≤ 0` and an objective with gradient `(1, 0)`, the index of the variable that determines the multiplier of the constraint is read without having been assigned. If it happens to be 0, the multiplier of `x` is left at zero, and the gradient of the Lagrangian is not zero; if it happens to be 5, the restored multipliers are right.
* **C40** `C40_dispatch_violated` — C40: if a callback unregisters itself while being called, the dispatch skips the callback moved into its place and then fails with an illegal argument: the second callback is never called.
* **C41** `C41_first_block_violated` — C41: the first block may have an end that is not positive: on a cleared structure of dimension 3, a block `[0, -2)` is accepted, and the linear range becomes `[-2, 3)`.
* **C41** `C41_range_violated` — C41: asking for the block after the last one is not refused but reads an entry that was never written.
* **C41** `C41_copy_violated` — C41: copying into a smaller structure changes its dimension but not its array, which is then overrun: copying two blocks (dimension 2) into a structure of dimension 1.
* **C43** `C43_zero_violated` — If no trial step of the Cauchy line search is accepted the step is set to zero, but the merit value returned with it is the one of the last rejected trial instead of that of the zero step. With the default settings this happens for the model `-d + 10¹² d² / 2`: the value returned is positive although the zero step has merit 0.
* **C43** `C43_full_violated` — The line search reports that the full LP step was accepted although the step was shortened to the trust region: `full_step` is only reset in the backtracking loop. Here the LP step 2 is cut to 1 and reported as a full step.
* **C44** `C44_worse_violated` — The slope in the Armijo test of the approximate line search omits the penalty parameter, so a trial step may be accepted although its merit value is larger than that of the Cauchy step (and although the merit model increases along the whole segment).
* **C45** `C45_minimum_violated` — The loop collecting the break points of the exact line search runs while *both* sparse vectors have entries left. Entries of one vector beyond the end of the other are ignored. Here the constraint is at its upper bound at the Cauchy step, so its violation is not stored, and moving towards the Newton step violates it. The search takes the full Newton step and reports the merit value -1, although the merit value there is 9 and that of the Cauchy step is 0.
* **C47** `C47_bound_violated` — C47: a variable exactly at its upper bound with a direction pointing outwards does not limit the step length: the full step leaves the bounds.
* **C48** `C48_drop_violated` — With the default drop tolerance the step of the trust-region solver can leave the null space: with the identity as Hessian, the active gradient `(-1e-20, 1)` and the objective gradient `-(1, 1e-20)`, the minimiser `(1, 1e-20)` loses its small entry when the step is summed up (tr/steihaug_solver.c:403-477).
* **C49** `C49_regular_violated` — C49: wrapping an SR1 function (inexact, not positive semidefinite) declares its Hessian positive semidefinite, whereupon the automatic choice of the subproblem solver is conjugate gradients instead of trlib.
* **C49** `C49_dynamic_violated` — C49: scaling a dynamic function drops both flags, fixing variables of one drops the inexact flag.
* **C50** `C50_deviation_violated` — C50: after a timer was credited with an extra value (as done for the Newton timer), the reported standard deviation can be the square root of a negative number: one run of one second and one added second.
* **C50** `C50_elapsed_violated` — C50: the time limit of the trust-region subproblem solvers is compared with the elapsed time of a running timer, which includes the duration of the previous run: a second run started at time 5 is one second old at time 6, but counts as four seconds after a first run of three seconds, so that a limit of four seconds is considered reached.
* **C50** `C50_solver_elapsed_violated` — C50: the seconds reported for the last call of solve are those of all calls: two solves of 3 and 2 seconds.
* **C50** `C50_difference_violated` — C50: the time spent in Hessian products and solves during a Newton step is measured as the difference of the elapsed times of their (stopped) timers before and after, which ignores all but the last run: two runs of one second each count as 0 seconds.
* **C51** `C51_infeasible_start_violated` — The code violates the property: a fresh solver at an infeasible start (violation 5) with a small objective reports "unbounded", because the stored residual is still 0.
* **C51** `C51_stale_residual_violated` — It also violates it later: the step leading to an infeasible point was accepted, and the check uses the residual of the previous (feasible) point.
* **C52** `C52_mixed_penalty_violated` — The code violates the property when the penalty is raised while the step is computed (10 to 100 here): actual and predicted merit values belong to different penalties. The model predicts a decrease from 100 to 50 under the new penalty; the accepted step raises the merit value both under the old penalty (10 to 50) and under the new one (100 to 140).
* **C53** `C53_uncounted_violated` — The code violates the sum: a rejected trial followed by a discarded correction is counted nowhere.
* **C54** `C54_no_variables_violated` — Without variables (`sqrt(num_vars) = 0`) the code fails: an assert or a division by zero.
* **C55** `C55_second_restoration_violated` — C55 is violated: the second restoration phase starts from stale values. Problem `c(x) = x` with constraint bounds `[0, 1]`: a first restoration phase is entered at `x = 3`, it moves to the feasible lifted point `(1, 1)` and evaluates the objective there; a second restoration phase entered later at `x = 4` reports objective `0` at the lifted point `(4, 1)`, where the objective is `9/2`.
* **C56** `C56_accepted_violated` — C56: with scaling the callbacks get the accepted iterate in scaled coordinates, not the one in the user's coordinates, and the solver's solution during the callback is still the previous iterate: for every iterate `orig` of the user's problem whose scaled version has just been accepted, the callback gets that scaled version. For the sample scaling (variable times `2^-3`) and the point 1 this is 1/8.
* **C56** `C56_finished_violated` — C56: the iterate passed to the finished callbacks was restored before polishing, so that its working set differs from that of the solution: zero-multiplier polishing removes variable 1 only afterwards.
* **C57** `C57_free_variable_violated` — C57: a free variable of weight 2 has finite bounds in the scaled problem (`inf` = 100).
* **C58** `C58_gradient_violated` — C58: the weight taken from a gradient has the wrong sign for the scaling that is applied: a largest entry `m > 1` is not reduced to at most 1 but grows to at least `m * m` (unless the weight is limited to 30).
* **C58** `C58_jacobian_violated` — C58: scaling from the 1x1 Jacobian (4): the weights are -2 for the constraint and 0 for the variable, and the scaled Jacobian is (16) instead of (1). (`frexp(1/4) = -1`, `frexp(1) = 1`.)
* **C59** `C59_gradient_violated` — C59: for the residual `x - 3` at `x = 1`, objective weight 1: the scaled function's gradient, unscaled, is -1 instead of the true -2, whereas the objective value is right.
* **C60** `C60_zero_violated` — C60: for a time of exactly zero (runs shorter than a clock tick) the length of the suffix is never written: the display uses an uninitialised width.
* **C61** `C61_silent_violated` — C61 fails: a Boolean setting with an unreadable value ("perform_soc off") and an unknown key ("perform_sock 0") are accepted without an error and without any effect.
* **C61** `C61_indented_violated` — C61 fails: a line with leading white space (" perform_soc 0") is ignored without an error, as `trim` only moves its local pointer.
* **C61** `C61_key_only_violated` — C61 fails: a line with a key only ("max_newton_iterations") is not reported as a syntax error: the test `!begin` is never true. With assertions the program is aborted, without them the setting becomes zero.
* **C61** `C61_unreachable_violated` — C61 fails: no line of a file can change the setting whose name contains blanks ("augmented Jacobian method"): a key never contains white space.
* **C64** `C64_cauchy_violated` — When the iteration limit is reached, the solver for trust-region subproblems returns the zero step instead of the point reached so far: with the Hessian equal to the identity, the gradient `(1, 0, -2)`, the radius 10 and a limit of one iteration, the point after the first iteration is the exact minimiser, but the result is the zero step, which is worse than a step along the negative gradient (tr/steihaug_solver.c:300-305, the vector `newton_step` stays cleared).
* **C65** `C65_room_violated` — C65 violated by the code: for `x, y ∈ [1, 2]`, `z ∈ [0, 10]` with `0 ≤ x + y ≤ 3`, `0 ≤ x + 2 y ≤ 5` and `z - x ≥ 1` (solved by `(1, 1, 2)`), preprocessing stores more lower bounds of rows than it has reserved room for: the room is computed from the number of *variables* with a removed bound (one), but the lower bounds of two rows become infinite.
* **C65** `C65_fixed_violated` — C65 violated by the code: for a variable with both bounds 1 and a constraint `x ≥ 2` on this variable alone, an assertion fails (the constraint is to become a bound of a variable that is already fixed); infeasibility is not reported.
* **C65** `C65_bounds_violated` — C65 violated by the code: for `x ∈ [0, 10]` with the constraints `x ≥ 5` and `x ≤ 3`, preprocessing does not report infeasibility; the creation of the new problem, whose lower bound 5 exceeds the upper bound 3, returns an `ILLEGAL_ARGUMENT` error, although all arguments of the user are legal.
* **C67** `C67_columns_violated` — C67 violated by the code: for two variables `x₀, x₁` with `x₁` at a bound and the active constraint `x₀ + x₁`, the loop that makes room for the rows of active variables ends at the first active variable, so the entry of `x₀` stays in row 0, the row of the bound. The matrix factorized has the rows `(1, 1)` and `(0, 1)` instead of `(0, 1)` and `(1, 1)`: asked for the smallest `x` with `x₁ = 1` and `x₀ + x₁ = 0`, the code returns a vector with `x₁ = 0`, for every correct QR factorization.
* **C67** `C67_overrun_violated` — C67 violated by the code: the array of row counts has one cell per constraint, but is used with one cell per entry of the working set: with two variables at bounds and one (inactive) constraint the transposition writes past its end.
* **C68** `C68_dynamic_violated` — C68 violated by the code for functions evaluated with errors (dynamic functions): the corrected step is computed but never applied. At the trial point `0` with constraint value `1 ≤ 0` and slope `1` the correction is `-1`, and with an exact function the corrected point is `-1`; with a dynamic one the point remains `0` for all error estimates, and is evaluated a second time.
* **C70** `C70_drop_violated` — With the default drop tolerance the step of the equality-constrained problem can move an active constraint: at the point zero with the active constraint `-1e-20 x + y = 0`, where the first step is zero, the direction returned has the second entry zero but not the first, so its linearised constraint value is not zero (newton.c:442-594).
* **C71** `C71_zero_gradient_violated` — C71: the negation for right-hand sides that are perpendicular to the range (for example zero, at a point with vanishing residuals): `rho` is zero in the first iteration, and the code divides by it. (In IEEE arithmetic the quotients are NaN, the test of the residual never succeeds, and all `forward_dim` iterations are run; as all vectors are empty, the result is still zero.)
* **C71** `C71_boundary_violated` — C71: the negation, with the default tolerances. After the first iteration the point has norm 1, which does not count as greater than the radius `1 - 10⁻¹⁰`. The next step (of length about 10⁷) leaves the region, and no point on the line through the two points is in the region, so that the discriminant is negative: `assert(inner >= 0.)` of `sleqp_tr_compute_bdry_sol` fails. (Without assertions, the square root is NaN and so is the step.) With a tolerance of zero the same call succeeds.
* **C72** `C72_stationary_violated` — C72: the negation for a gradient perpendicular to the null space, for example with as many active gradients as variables (a vertex) or with vanishing residuals: the computation of the direction divides by zero. There is no test for this case in the Gauss-Newton step. (In IEEE arithmetic the correction computed is still zero, after the maximum number of iterations of the least-squares solver.)
* **C73** `C73_basis_toggle_violated` — `solve` marks a basis as stored also if warm starts are switched off, when it does not store it. If the user switches warm starts on during a run (`SLEQP_SETTINGS_BOOL_ALWAYS_WARM_START_LP`), the solver asks the LP interface for a basis that was never saved: here after a step computed without warm starts and one for the feasibility objective with warm starts.
* **C74** `C74_fixed_violated` — Every variable with equal bounds is put into the working set, also if it is basic in the answer of the LP solver. For one variable fixed to zero and one equation `x = 0`, an LP solver may answer with the variable basic and the equation not. Both are put into the working set: two entries for one variable. The working set is not valid, and the assert in `standard_cauchy_working_set` fails.
* **C74** `C74_equation_violated` — If the problem is solved again in reduced form (the default), equations are put into the working set as constraints active at their lower or upper bound, not as equations: multipliers of one sign only are allowed for them. Here the equation `x = 0` is at its upper bound.
* **C75** `C75_reduced_violated` — With the problem solved again in reduced form (the default), the working set belongs to the reduced problem, but the multipliers to the one before. For minimising `2 x` with `0 ≤ x ≤ 10` and the equation `x = 0` at `x = 0` with penalty parameter one, the step is zero and all constraints are met, but the estimated multipliers are zero: the residuum of the stationarity condition is `2`. With multiplier `-2` of the equation it would be zero.
* **C76** `C76_reset_violated` — C76 does not hold after a reset of the penalty parameter: step and working set are read again, but from the linear program for the penalty parameter before. Minimise `100 x` for `10⁻⁷ ≤ x ≤ 5` at `x = 0`, feasible up to the tolerance, with penalty parameter `2000` and multipliers `0`: the penalty parameter is reset to `10`, and the step is `10⁻⁷` as for `2000`, although `-1` minimises the linear model for `10`. The step increases this model over the value at the iterate, so that the reduction of the model is negative.
* **C77** `C77_exact_violated` — With the exact line search, which is not the default, the trial step may leave the bounds of the variables: that search, unlike the other, does not look at them. The trial point is projected, but the predicted merit value is that of the step before. Here `-x + x² / 4` is minimised with `-1 ≤ x ≤ 1`, starting at 0: the trial point is 1, where the model has value -3/4, and the value predicted is -1, that of the Newton step 2. So the predicted reduction, with which the actual one is compared, is too large.
* **C77** `C77_refine_violated` — For dynamic functions the trial point is computed again, with a smaller error bound, until the error estimate is small compared with the predicted reduction. If this reduction is zero, as at a point the linear model cannot improve, the error bound requested is zero, and for any function whose error estimates are positive the loop never ends (there is no limit on the number of passes, and no check of the time). Here `-x` is minimised with `-1 ≤ x ≤ 1`, at 1.
* **C77** `C77_failed_violated` — For dynamic functions, a failed Newton step is reported if the step computed first failed, although the trial step returned is another one. (The count is only displayed.)
* **C78** `C78_rejected_violated` — **C78 violated (rejected points)**: if the function rejects the perturbed point, the derivatives with respect to that variable are not checked and no error is reported (deriv_check.c:661-664): here the objective is `x²`, the gradient given is `x`, the iterate is `x = 1`, and points above 1 are rejected.
* **C78** `C78_bounds_violated` — **C78 violated (bounds)**: the perturbation is always added, so that a function is evaluated outside the variable bounds if the iterate is at its upper bound (deriv_check.c:86-106, 118-134): here the bounds are `0 ≤ x ≤ 1` and the iterate is `x = 1`.
* **C78** `C78_hessian_violated` — **C78 violated (Hessian)**: the products with the Hessian are computed after the function has been set to the perturbed point (deriv_check.c:657-668), so that the Hessian at the iterate is not looked at. Exact derivatives are reported as invalid although at the iterate they agree with the finite differences up to the tolerance (`x⁴ · 750 / 4` at 0), and a wrong Hessian at the iterate passes.
* **C78** `C78_lsq_violated` — **C78 violated (least squares)**: the Hessian of a least-squares objective is that of Gauss and Newton, in which the second derivatives of the residuals are missing (lsq.c:226-263), but the check compares it with differences of the gradient, after no more than a warning (problem_solver/solve.c:28-46). For the residual `x² - 3`, whose products are exact everywhere, checking first derivatives at `x = 1` succeeds, while checking second derivatives ends the solve with the error for invalid derivatives, though the user does not even provide any.
* **C78** `C78_restoration_violated` — **C78 violated (restoration phase)**: the solver of the restoration phase is created with the settings of the user (solver/phase.c:84-87) and checks the derivatives of its own function, whose Hessian is that of Gauss and Newton, before its first iteration. Here the problem is to minimize `x` subject to `x² = 3`. All of its derivatives pass the check at `x = 1`; if the solver then enters a restoration phase at that point, the check of first derivatives succeeds, but if second derivatives are checked as well, the solve ends with the error for invalid derivatives.
* **C79** `C79_direction_violated` — The search for larger radii replaces the step of the direction and its Hessian product, but not the gradient and Jacobian products. For the model `-d - d²/2` and initial radius 1 the search ends with the step 32, a gradient product of -1 instead of -32 and a merit value of -513 instead of -544; this direction is then combined with the Newton direction in the line search. The radius returned is 64: it has been doubled once more than the linear program has been solved.
* **C79** `C79_forward_violated` — Since the linear part of the merit value is not updated, the search for larger radii cannot see the gain of a longer step. For the model `-d + d²/200` and initial radius 1 it stops at once, although the step 2 of the first radius tried is almost twice as good.
* **C79** `C79_line_search_violated` — If no radius is accepted the line search is used, but `compute_cauchy_step_parametric` passes the iterate to the line search only after the parametric solver has finished. In the first iteration the line search has no iterate at all: a null pointer is dereferenced. This happens with the setting `COARSE` for the model `-d + 500 d²` and initial radius 1.
* **C79** `C79_stale_violated` — In later iterations the line search still refers to the iterate, penalty parameter and trust radius of an earlier iteration, so that it accepts steps which are not sufficient at the current iterate. In the example (setting `COARSE`, initial radius 1, constraint value 0 at the current iterate and -1000 at the previous one) the result is the step 1/32, which is worse than staying where one is and violates the radius 1/64 returned with it; the merit value belongs to the earlier iterate.
* **C80** `C80_gurobi_violated` — Changing coefficients in the Gurobi back end only changes those which are stored in the new matrix. The Jacobian `(1)` is replaced by one without entries: the constraint `-4 ≤ 0 ≤ 1` admits `x = 4`, but the linear program solved still has the constraint `-4 ≤ x ≤ 1`.
* **C80** `C80_soplex_tolerances_violated` — The SoPlex back end passes the tolerances within assertions: they are those of the settings with assertions compiled in, and those of the library otherwise, whatever the settings are.
* **C81** `C81_gurobi_rows_violated` — The Gurobi back end stores constants of the interface instead of those of the library for the rows of a basis. A row at its lower bound (with its column, as in the basis set by the Cauchy solver if a constraint is violated) is stored as basic, and reported so.
* **C81** `C81_gurobi_basic_rows_violated` — The Gurobi back end stores the code 1, which the library does not know, for basic rows: asking for the status of the row fails.
* **C81** `C81_gurobi_zero_violated` — The Gurobi back end turns nonbasic free variables (status zero) into variables at their upper bound.
* **C82** `C82_initial_rejected_violated` — A function which rejects the initial point is evaluated there nevertheless: `sleqp_set_and_evaluate` reports the rejection but evaluates the objective, the gradient, the constraints and the Jacobian first; only afterwards the solve ends with an error.
* **C82** `C82_callback_violated` — If the user registered a callback for accepted iterates and the problem is preprocessed, the function is left at the iterate before the step: the original iterate is restored from the old iterate, since the callback runs before the iterates are swapped, and this sets and evaluates the function there. The Hessian products of the next iteration are evaluated at the old point and used as those at the new iterate.
* **C82** `C82_soc_rejected_violated` — If the function rejects the trial point, a second-order correction is computed nevertheless, from the constraint values stored in the trial iterate; these were never evaluated at the trial point.
* **C82** `C82_soc_dynamic_violated` — For a dynamic function, the model value of a second-order correction is computed with a Hessian product evaluated at the trial point, where the function was evaluated before, and used as that at the iterate.
* **C82** `C82_soc_reason_violated` — The function is never told that a second-order correction is tried (`TRYING_SOC_ITERATE`): corrections are set with the same reason as ordinary trial points.
* **C83** `C83_penalty_violated` — When the penalty parameter changes while the trial point is computed, the predicted merit value is that of the new parameter, but the merit values of iterate and trial point are computed with the old one. Their differences are compared, so both quotients of the step rule can be negative, and a bad step is accepted with a large reduction ratio. Here `7 + 50 x + 4000 x²` is minimised subject to `1/2 ≤ x - 6 x² ≤ 5`, at 0: the parameter grows from 10 to 100, the trial point is 1/2, and the local model predicts a reduction of the penalty function from 57 to 32. In fact objective, violation, and penalty functions for both parameters increase, the latter by more than 1000; the step is accepted with ratio above 50, after which the trust region is enlarged.
* **C83** `C83_rejected_violated` — For the same reason good steps are rejected: with objective `7 + 50 x - 88 x²` and constraint `1/2 ≤ x ≤ 5` instead, the same trial step leads to a feasible point and reduces the penalty function from 57 to 10, when a reduction to 32 was predicted (for the old parameter, from 12 to 10), but the reduction ratio is negative.
* **C83** `C83_stale_violated` — With dynamic functions the iterate is evaluated again if the error is too large compared with the predicted reduction. But the merit value the step rule uses is the one computed before. Here the first value at the iterate is 1, with error 1; evaluated again, with an error bound below 10⁻⁸, it is the exact value 0. The value at the trial point is 1/2, exactly. So the (true) objective increases by 1/2, as the solver can see, but the step is accepted, since 1/2 is less than the first value.
* **C83** `C83_trial_violated` — If the error reported at the iterate happens to be small enough, the function is not told a smaller error bound, and so may make a much larger error at the trial point. Here the bound is 1, the value 0 at the iterate is exact and reported to be so; the value reported at the trial point is -1/4 when the true one is 1/2, within the bound. The step is accepted, the true objective increases by 1/2.
* **C84** `C84_objective_violated` — C84 is violated for least-squares functions: with a scaling and a quasi-Newton method, the returned objective value is `2^(-w)` times the user's objective at the returned point, where `w` is the objective weight of the scaling, for every problem and every point.
* **C84** `C84_quasi_newton_violated` — C84 is violated for quasi-Newton methods on preprocessed problems: as soon as preprocessing fixed a variable, the first accepted step violates an assert on the dimensions, for every pair of iterates of the problem that is solved.
* **C84** `C84_dynamic_violated` — C84 is violated for quasi-Newton methods on dynamic functions: neither objective weight nor error bound are ever set, so the first evaluation violates an assert in a debug build, and in a release build it fails for every user function reporting a positive error.
* **C85** `C85_obj_violated` — The AMPL function does not store the objective when it is computed outside of trial points, but marks it as computed. If it is asked for, then a product with the Hessian, and then the objective once more, the value stored for an earlier point is returned. Here: the objective at 3 is 0, the value the storage was initialised with.
* **C85** `C85_message_violated` — For a maximisation problem, the message printed at the end shows the negative of the objective.
* **C85** `C85_bounds_violated` — An infinite upper bound of a linear constraint is shifted by the constant of the constraint, because it is compared to minus infinity. If the constant exceeds half of the value standing for infinity, a finite bound results.
* **C87** `C87_twice_violated` — The functions processing keywords replace the pointer to their data by the address of a local variable. If a setting is given twice, for instance in the environment and on the command line, the second use reads this variable, which no longer exists: for every setting and all values.
* **C87** `C87_limit_twice_violated` — ... and so do the limits.
* **C88** `C88_ma86_violated` — **C88** The MA86 and MA97 back ends look at `info.stat`, the status of the last allocation, instead of `info.flag` (fact/fact_ma86.c, fact/fact_ma97.c): a matrix reported as singular is accepted, and a vector which solves nothing is returned without an error.
* **C88** `C88_ma57_violated` — **C88** The MA57 back end takes the warning 4, by which MA57 reports a singular matrix, for success (fact/fact_ma57.c): a vector which solves nothing is returned without an error.
* **C88** `C88_cholmod_violated` — **C88** The CHOLMOD back end accepts positive statuses, among them `CHOLMOD_NOT_POSDEF` (fact/fact_cholmod.c): for a matrix which is not positive definite a vector which solves nothing is returned without an error.
* **C88** `C88_umfpack_violated` — **C88** If a solve of UMFPACK fails, its right-hand side stays in the array which is expected to be zero (fact/fact_umfpack.c:207-233): the next solve with the same matrix succeeds, but adds the old right-hand side to the new one.
* **C88** `C88_spqr_violated` — **C88** SPQR does not fail for singular matrices, and its back end does not ask for the rank (fact/fact_spqr.c:85-145): a vector which solves nothing is returned without an error.
* **C88** `C88_spqr_stale_violated` — **C88** The error code of `spqr_set_sol` is ignored by all its callers (fact/fact_spqr.c:169-217): if a solve fails, the solution of the one before is returned again, without an error.
* **C89** `C89_ma57_violated` — **C89** The arrays of MA57 are enlarged to 1.2 times their size, rounded down (fact/fact_ma57.c:347-442): an array of less than five numbers does not grow. If MA57 forecasts so little space and needs more, the assert fails; without it the loop would not end.
* **C90** `C90_violated` — **C90** SPQR orders the columns to keep `R` sparse (`SPQR_ORDERING_DEFAULT`, fact/fact_spqr.c:136): it factorizes `A E = Q R`, but `spqr_qr_solve_tri` and `spqr_qr_solve_tri_trans` (fact/fact_spqr.c:219-269) solve with `R` alone and drop the permutation `E`. If two columns are swapped, the direct augmented Jacobian returns a least squares solution with two entries swapped.
* **C90** `C90_stale_violated` — **C90** If an operation of SPQR fails, the QR factorization returns the result of the operation before, without an error (fact/fact_spqr.c:169-323): here the solve for (5, 0) fails, and returns (0, 1), the solution of the solve before.
* **C91** `C91_violated` — **C91** When trlib asks for the objective at the current step, the gradient of the problem is replaced by the current gradient of the iteration (`data->g`, tr/trlib_solver.c:603-617): the library gets a wrong value, here 1/2 instead of -1/2 for the step -1 and the objective `x + x²/2`. (The library reports the number it was given as its multiplier.)
* **C92** `C92_ma97_violated` — C92 is violated: the data of the MA97 factorization is freed without its two handles of the library; whatever these point to is leaked, although the program follows the rules otherwise.
* **C92** `C92_cholmod_violated` — C92 is violated: the CHOLMOD factorization overwrites its factor without freeing it when it is given another matrix (fact/fact_cholmod.c:87-144); the first factor is leaked.
* **C93** `C93_sparse_vector_violated` — C93 is violated: a callback may return a vector as a sparse array (of doubles, with the right number of elements), which passes all checks. The conversion then reads as many numbers as the vector has components from the array of the stored elements, which is shorter: a sparse gradient `[0; 7]` leads to reading past the end.
* **C94** `C94_start_violated` — C94 is violated: the class of the arrays is not looked at. For a starting point (or bounds) given as a sparse array, here `[0; 7]`, numbers are read past the end of the array of the stored elements; for one given as an array of integers (`int32`, `logical`), they are read from an array which does not contain doubles.
* **C94** `C94_upper_violated` — C94 is violated: the number of constraints is the number of their lower bounds. For a problem with an inequality bounded from above only, the lower bounds of the constraints cannot be left out (while those of the variables can): the call fails although the constraint is consistent.
* **C95** `C95_resolves_violated` — C95 is violated: there is no option by which solving a linear program again after a failure can be switched off, as in settings files and from Python; an option of that name is accepted and has no effect.
* **C95** `C95_logical_violated` — C95 is violated: a Boolean option given as a logical value of MATLAB (`true`) instead of a number is refused.
* **C95** `C95_range_violated` — C95 is violated: an integer option which is not a number is not refused, but converted, which is undefined; so is one too large for a 32 bit number.
* **C96** `C96_linear_violated` — C96 is violated: if a problem has linear constraints besides the general ones, the values of the latter are evaluated into a vector for which space is never reserved, whatever is declared; so is their Jacobian, if the number of its nonzeros is not declared or the Hessian is approximated. A callback storing its results (as those of the tests do) writes outside.
* **C96** `C96_dynamic_violated` — C96 is violated for dynamic functions: the vector for the constraint values has no space if the number of their nonzeros is not declared, and even if it is declared when the Hessian is approximated.
* **C96** `C96_residuals_violated` — C96 is violated for least-squares functions: the vector for the residuals has no space if the number of their nonzeros is not declared, and even if it is declared when the problem is scaled.
* **C96** `C96_fixed_violated` — C96 is violated when the preprocessor fixes variables of a least-squares problem: the matrix for the Jacobian has no space if the number of its nonzeros is not declared (for other functions it has).
* **C96** `C96_restoration_violated` — C96 is violated in the restoration phase: if the numbers of nonzeros are not declared, the vector for the constraint values and the matrix for their Jacobian only have space for the nonzeros there were when the phase was entered.
* **C96** `C96_phase_violated` — C96 is violated when the solver returns from the restoration phase: the gradient is evaluated at the new point without reserving the space declared there; it has the space reserved at the point where the restoration phase was entered.
* **C96** `C96_stale_violated` — C96 is violated for dynamic functions: the vector is not emptied before a further evaluation, so that a callback which stores its values again writes to a full vector; for other functions it is emptied.
* **C97** `C97_lsqr_violated` — A least-squares problem whose Hessians are approximated by a quasi-Newton method is refused if LSQR is asked for ("LSQR solver is only available for LSQ problems"): the function put in front of the user's one for the approximation is not a least-squares one. All other settings, and the problem, do not matter. (Without the approximation it is never refused for this reason.)
* **C99** `C99_unsorted_violated` — C99 is violated: SciPy does not keep the columns of a sparse matrix in order (the product of two sparse matrices is an example), and neither sorts nor needs them. The conversion copies the elements as they are: a legitimate Jacobian, here the column `(5, 6)` stored from below, becomes a matrix which the library rejects as invalid.
* **C99** `C99_residuals_violated` — C99 is violated: the residuals of a least-squares problem (as well as its products with the Jacobian) are not checked as the other results are. A callback without a `return`, or one which returns too few residuals, is understood as zero residuals; too many are written past the dimension of the vector.
* **C99** `C99_start_violated` — C99 is violated: the length of the starting point is not checked. A shorter one is filled up with zeros, a longer one is written past the dimension of the vector.
* **C99** `C99_lengths_violated` — C99 is violated: the lengths of the arrays of bounds are not compared. If there are fewer upper than lower bounds, the missing ones are zero: the free variables `x₀, x₁` given by two lower bounds and one upper bound become `x₀` free and `x₁ ≤ 0`, without an error. An array of upper bounds longer than that of the lower ones is written past the dimension of the vector.
* **C99** `C99_linear_violated` — C99 is violated: if linear constraints are given with upper bounds only, their lower bounds are not infinite but zero: `x₀ ≤ 4` becomes `0 ≤ x₀ ≤ 4`. (With lower bounds only, the upper ones are zero, and positive lower bounds are then refused as inconsistent.)
* **C100** `C100_float_violated` — `minimize` with an objective returning a plain Python number and differences instead of a gradient (the default) fails with an `AttributeError` (`f0.size`, `_derivative.py:25`), for every objective, point and step size: the gradient is evaluated after the value, which is handed to the difference formula as it was returned.
* **C100** `C100_combined_violated` — With `jac=True`, an extra argument is not handed to the function: if it is a sequence, its elements are (`_func.py:59`), otherwise a `TypeError` is raised, as it is for two or more extra arguments.
* **C100** `C100_order_violated` — The Jacobian of a constraint with `jac=True` cannot be evaluated before its values: the code refers to a variable which does not exist (`_func.py:65`, a `NameError`).
* **C100** `C100_complex_violated` — Second derivatives by complex steps always fail with an `AttributeError` (`_derivative.py:85`: `f0` is `None`).
* **C100** `C100_complex_args_violated` — Complex steps call the function without the extra arguments (`_derivative.py:99`).
* **C100** `C100_args_violated` — The constraints are evaluated with the extra arguments of the objective (`minimize.py:38`), which SciPy does not do.
* **C100** `C100_identity_violated` — With constraints, a Hessian product which returns the direction it was given (the identity) fails: the products of the constraints are added in place to an array which is read-only (`minimize.py:74`, a `ValueError`).
* **C100** `C100_missing_violated` — If the objective has second derivatives and a constraint has not, products fail with an `AttributeError` (`_func.py:35`).
* **C100** `C100_views_violated` — Central differences (`'3-point'`) of a function which returns its argument or a slice of it are zero instead of one: both values are views of the array with the perturbed point, and are subtracted after it was restored (`_derivative.py:61-72`). This concerns constraints such as `lambda x: x` and second derivatives of gradients such as `lambda x: x`; no exception is raised.
* **C101** `C101_strategy_violated` — Constraints with SciPy's default for second derivatives, `NonlinearConstraint(fun, lb, ub)`, are refused with a `ValueError` (`_hessian.py:161`), whatever their bounds are, unless the bounds are inconsistent.
* **C101** `C101_bounds_violated` — One number for all bounds, `Bounds(0, 1)` with three variables, gives a problem with one variable (`_bounds.py:16-18`).
* **C101** `C101_linear_violated` — Linear constraints with a bound left out, such as `LinearConstraint(A, ub=[4, 5])`, whose lower bound is then the single number `-inf`, get the lower bound zero for all rows but the first, without an error (`_linear.py:34-36`): `x₀ = -1` satisfies `x₀ ≤ 4` and `x₀ ≤ 5`, but not the problem created.
* **C101** `C101_scalar_violated` — A number as bound of a `NonlinearConstraint` raises a `TypeError` (`_cons_func.py:23`).
* **C101** `C101_vector_violated` — Functions of dictionaries with several values, as in SciPy, get one pair of bounds (`_bounds.py:46-52`), and the evaluation of the constraints fails with an `AssertionError` (`_cons_func.py:61`).
* **C102** `C102_stale_violated` — The code violates C102: a solve is ended by its limit of one iteration after an accepted step from a feasible point to one that violates its constraints by 5. The solver reports the objective value (and the residual vectors) of the new point, but the feasibility residual 0, the stationarity residual and the merit value of the previous one.
* **C102** `C102_multipliers_violated` — The code violates C102: an iteration computes the residuals first and then overwrites the multipliers of the current point, so that after a rejected step the reported slackness and stationarity residuals are those for the previous multipliers: the solver returns a point with multipliers for which both residuals are 0, and reports 1 for both.
* **C102** `C102_merit_violated` — The code violates C102: after a rejected step the reported merit value belongs to the penalty parameter before the iteration, not to the reported one: objective 0, violation 1 and penalty parameter 100 are reported along with the merit value 10.
* **C102** `C102_restoration_violated` — The code violates C102: the queries always go to the solver of the optimization phase. A run of two iterations spent in the restoration phase reports iteration 0, and the feasibility residual 5 of the point at which the restoration began for a current point that is feasible.
* **C102** `C102_rayleigh_violated` — The code violates C102: for least-squares problems solved by the Gauss-Newton solver the Rayleigh quotients are never set, and for trlib they are not set before its first solve; the query succeeds with an indeterminate value.
* **C103** `C103_unregister_violated` — C103 violated: a callback that unregisters itself and then raises an exception makes `solve` fail with a `CallbackError` without cause; the exception is lost, as it is stored at a handle that is no longer in the list searched.
* **C103** `C103_one_shot_violated` — C103 violated: a callback that unregisters itself and raises nothing makes `solve` fail with a `ValueError` when another callback is registered for the event, as the library goes on to a position that no longer exists.
* **C103** `C103_falsy_violated` — C103 violated: exceptions that are false in Python (classes defining `__bool__` or `__len__`) are not named as cause.
* **C103** `C103_message_violated` — C103 violated: whenever a function raises an exception, the message of the `EvaluationError` is indeterminate: the library prints the message into the buffer that holds the previous message, which is one of the arguments printed.
* **C103** `C103_create_violated` — C103 violated: an exception raised by one of the user's methods for numbers of nonzeros while the solver is created is lost, whatever it is: an `AttributeError` is swallowed (no exception is raised, as if the method did not exist), and any other gives an `EvaluationError` without cause.
* **C104** `C104_window_violated` — The code violates C104: the step rule is never reset (`sleqp_step_rule_reset` has no caller). With the window rule (25 entries) a solver makes two iterations, during which the penalty parameter rises, and is reset. In the next solve it accepts a trial point of merit value 70 against 18 at the initial point, since merit values of the old penalty parameter remain in its window; a new solver rejects this trial point.
* **C104** `C104_minstep_violated` — The same with the rule that compares with the last minimum (its constant 2).
* **C104** `C104_multipliers_violated` — The code violates C104: the multipliers stored in the iterate survive the reset. After a solve of one iteration the reset solver finds the initial point optimal without an iteration; a new solver, whose multipliers are zero, makes an iteration and stops at the iteration limit.
* **C104** `C104_restoration_violated` — The code violates C104: a restoration phase overwrites the initial point of the solver, and the reset does not bring it back. After such a solve the reset solver starts at the point at which the restoration ended (objective 3), not at the initial point (objective 8).
* **C105** `C105_restart_violated` — The code violates C105: the documentation says that a solve performs iterations starting from the current solution. After an iteration the solution has objective 7; a further solve with no iterations allowed throws it away and returns the initial point of objective 8.
* **C105** `C105_sum_violated` — Nor do two solves with the limits 1 and 1 amount to one with the limit 2: the latter rejects the second step and ends at objective 7; the second of the two solves compares the step with the initial point, accepts it and ends at 15/2.
* **C106** `C106_feasibility_violated` — C106 violated by the code: with the weight 10 for the constraint, `x = 0` is reported as optimal, although the constraint `x ≥ 1` is violated by 1, a hundred times the tolerance.
* **C106** `C106_stationarity_violated` — C106 violated by the code: with the weight -10 for the variable, the interior point `x = 3` is reported as optimal with multipliers 0, although the gradient is 1, a hundred times the tolerance.
* **C106** `C106_slackness_violated` — C106 violated by the code: with the weight 10 for the objective, the interior point `x = 3` is reported as optimal with the multiplier -1 for the bound `x ≥ 0`, although the bound is not active: the product of multiplier and distance is 3, three hundred times the tolerance.
* **C107** `C107_tolerance_violated` — C107 violated by the code: for the problem `min x`, `0 ≤ x ≤ 5`, `1 ≤ x ≤ 100` the solver reports `x = 199/200` as optimal, hence feasible, with the tolerance 1/100. For this point the list of violated constraints consists of the constraint, which is violated by 1/200 only.
* **C108** `C108_accepted_violated` — C108 is violated: with preprocessing the callback for accepted iterates gets the components of the reduced problem, at wrong positions, followed by what the array contained before. With two variables, the first fixed to 5 by the preprocessor, the accepted iterate (5, 3) arrives as (3, 0).
* **C109** `C109_leak_violated` — C109 is violated: every completed call from MATLAB leaves the function, its data and the settings allocated, because `mex_problem_create` does not release its own reference to the function.
* **C109** `C109_dynamic_violated` — C109 is violated: releasing a dynamic function destroys arrays twice: `dyn_func_free` destroys the structure with the error information, with it its fields, and then these fields again. (The missing release above hides this.)
* **C109** `C109_failure_violated` — C109 is violated: a call which fails before its end (for instance because a callback raises an error) leaves everything allocated so far. For every setup there is such a point at which the settings, the function with its data, the problem, the starting point and the solver stay.
* **C110** `C110_check_violated` — C110 violated by the code: a derivative check evaluates the user's functions outside of the bounds. With a variable in `[1, 3]` and the initial point 3, the point `3 + 3/100` is set (the perturbation is not directed into the bounds), as a value which is not in the domain the user declared.
* **C110** `C110_preprocess_violated` — C110 violated by the code: with preprocessing enabled, the user's functions are evaluated outside of the bounds in the course of the iterations. For `x ∈ [0, 10]`, `y ∈ [0, 1]` and the constraint `x + y ≥ 3`, the constraint implies `x ≥ 2`; the bound `x ≥ 0` is removed from the problem as redundant. Trial points satisfy the remaining variable bounds, but linear constraints only approximately or not at all: a step from `(5, 1)` by `(-7, 0)` leads to the evaluation at `(-2, 1)`.
* **C111** `C111_feasible_violated` — C111 is violated: the constant of a linear constraint is subtracted from an upper bound which is infinite (the test compares the upper bound to minus infinity), so that for constants above half of the number representing infinity (`1e100`) a finite upper bound results: the model is feasible at a point, the problem created from it is not.
* **C112** `C112_percent_violated` — C112 is violated: the stored message of an error is used as format text. When a function of the user raises an exception whose report contains a percent sign, the behaviour is undefined.
* **C112** `C112_name_violated` — C112 is violated: the structure returned has no field `vars_dual` (the name used by the library for the multipliers of the variables bounds, in line with `cons_dual`): it is misspelt.
* **C113** `C113_states_violated` — C113 is violated: the arrays with the states of variables and constraints are released before the solution file is written, although the AMPL library only keeps pointers to them. Every successful run reads released memory.
* **C113** `C113_early_violated` — C113 is violated: when the model has contradictory bounds, or when it cannot be read, the run ends without a solution file. AMPL gets no message, no result and keeps those of an earlier solve.
* **C114** `C114_small_violated` — A matrix is written with six digits after the decimal point: the entry 1/10000000 is written as zero, although it would have all digits in the form used for vectors.
* **C115** `C115_custom_violated` — Setting another level than those of the `logging` module raises an error after the level of the logger was changed: the logger now admits warnings (level 40 is replaced by 25), but the library still suppresses them.
* **C115** `C115_import_violated` — If the program asked for the logger before loading the module, for instance to set its level, the handler is not installed: all messages go to the error stream.
* **C116** `C116_mixed_violated` — After a settings file has chosen the mixed estimation of the multipliers, `dual_estimation_type` can no longer be read in Python (and thus neither can `props`, `str` or `repr`): the enumeration of the binding lacks this value. For the same reason it cannot be chosen by name.
* **C116** `C116_foreign_violated` — Members of other enumerations are accepted without any error, and stand for whatever has the same number: assigning `TRSolver.CG` to `hessian_eval` selects SR1; assigning `HessianEval.SimpleBFGS` to `dual_estimation_type` makes that attribute unreadable.
* **C116** `C116_truth_violated` — Anything is accepted for a switch, by its truth value in Python: the texts "False", "0" and "off" switch on, and `None` switches off.
* **C116** `C116_missing_violated` — Four settings of the library are not available in Python: the lower bound on the objective, the warm start of linear programs, and the flags for floating point errors and warnings; no attribute stands for them, and their names raise an exception.
* **C117** `C117_conversion_violated` — Converting a weight to a nominal value and back increases it by one, and converting a power of two to a weight and back doubles it: the two conversions are not inverse to each other (for any weight).
* **C117** `C117_strided_violated` — Every second element of the array (1, 100, 4, 100), given as nominal values of two variables, has the elements 1 and 4. The weights are computed from 1 and 100 instead: the array is treated as if it were contiguous. An array given backwards leads to reading past the end of its memory.
* **C117** `C117_empty_violated` — For a problem without constraints (or without variables), setting their weights from an empty array raises an exception although the array has the right length.
* **C117** `C117_again_violated` — Setting the weights from a Jacobian a second time fails: the matrix of the first call is not cleared, its reserved space is exceeded (which is a failed assertion or, without assertions, writing past the end of the memory).
* **C117** `C117_setter_violated` — Assigning all weights of variables (or constraints) at once raises an exception, although the array has the right length, since the setters call functions which do not exist. The names `variable_weights` and `constraint_weights` (used by the binding's own test) are accepted, but without any effect on the weights.
* **C117** `C117_print_violated` — Printing a new scaling raises an exception, since it uses an attribute which does not exist.
* **C118** `C118_changed_violated` — A Jacobian kept from a callback (or from `solver.solution`) changes when the solver goes on: its values are those of a later Jacobian. Here the entry 3 becomes 7.
* **C118** `C118_dangling_violated` — When a later Jacobian needs more room, its memory is moved, and a Jacobian kept in Python refers to memory which has been released.
* **C118** `C118_empty_violated` — The Jacobian of an iterate cannot be obtained at all, but an exception is raised, if it has no entries, as for all problems without constraints.
* **C118** `C118_index_violated` — Asking for the state of a variable or constraint which does not exist, such as the last one by the index -1, reads memory outside of the array of states.
* **C119** `C119_trust_violated` — With parametric Cauchy steps the trust region is not respected: the trust radius is passed to the Newton solver and the line search, but the radius of the linear programs is increased without regard to it, and the step is not shortened. Here `-x - x² / 4` is minimised with `-1 ≤ x ≤ 1`, starting at 0 with radius `1/2` for the linear programs and trust radius `3/4`: the trial step is 1. Moreover the multipliers have been estimated for the working set at the radius `1/2`, which is empty, and are not computed again, although the working set is that of the final radius, which contains the bound; and the value predicted is `-3/4` instead of `-5/4`.
* **C120** `C120_multipliers_violated` — The code violates C120: an accepted step exchanges the two iterates, so that the point returned at the end of a run comes with the multipliers and the working set of the point before the previous one. Minimising `-x·y + 4·y` for `x ≤ 3` and `y ≥ -1` from `(3, 2)` with a limit of two iterations, the solver returns the point `(3, -1)` with the multiplier 2 and the bound `x ≤ 3` in the working set; computed at `(3, -1)` the multiplier is zero and the bound not in the working set.
* **C120** `C120_optimality_violated` — Likewise the test for optimality of a new point uses other multipliers than those of this point. With the bound `y ≥ 1` instead, the first step from `(3, 2)` leads to the solution `(3, 1)`, where the multiplier of `x ≤ 3` is 1, but it is tested with the multiplier zero the iterate was created with.
* **C121** `C121_soc_violated` — The code violates C121: if the second-order correction of a rejected step is accepted, the line of the log shows the length of the rejected step: from 2 the trial point 0 is rejected and the correction 3/2 accepted, and the length 2 is shown instead of 1/2.
* **C121** `C121_unchanged_violated` — The code violates C121: `--` is shown when the working set is the same as at the previous point, even if the line before, for the same point, showed another one. In the sample the line before shows the working set without the bound, this one, computed with a smaller trust region, `--` for the working set with it.
* **C121** `C121_original_violated` — The code violates C121: with scaling, the summary repeats the residuals of the scaled problem where it announces those of the user's problem, which it computes but does not print. In the sample the "Original feasibility residuum" is printed as 1/1024, below the tolerance of 1/100, but the constraint of the user's problem is violated by 1.
* **C122** `C122_newton_violated` — **C122 is violated** (Newton steps): after an LP solve took 6 of 10 seconds, the Newton step following it is given 10 seconds once more, and so may last until second 16.
* **C122** `C122_idle_violated` — **C122 is violated** (Cauchy steps): between the two LP solves of a Cauchy step, 8 of the 10 seconds pass without LP being solved (e.g. in evaluations of Hessian products); nevertheless the second one is given the time which was left after the first.
* **C122** `C122_stale_violated` — **C122 is violated** (limits remain): after a solve with a limit which ran out of time (the limit left was 0), a further solve without any limit still hands its linear programs to a library whose limit is 0.
* **C122** `C122_loop_violated` — **C122 is violated** (loops): a Newton step with a limit of 5 seconds is stopped after a single second, since the one before took 4 seconds.
* **C123** `C123_newton_violated` — **C123 is violated**: after a Newton step ran out of time, the timers around it were not stopped; in the next solve of the same solver, which is given all the time it could need, its Newton step fails with an assertion (and without assertions, restarts timers which are running).
* **C124** `C124_linear_violated` — The code violates C124 for the linear model (setting `use_quadratic_model` off): the expected merit value shown contains half the Hessian product, but the step rule is given the value of the linear model. Merit value 3, linear model 5/2, quadratic model 11/4, merit value at the trial point 21/8: the ratio in the debug log is about 3/2, whereas the ratio by which the step is judged is about 3/4.
* **C124** `C124_percent_violated` — The code violates C124 for a current value zero: the reduction is shown as 0 % whatever the other value. At a feasible iterate of a least squares problem the trial point violates the constraint by 1/4, and by 1000 in a second case; the line about the violation shows an actual reduction of 0 % both times.
* **C124** `C124_rejected_violated` — The code violates C124 for trial points rejected by the user's function: these are not evaluated, but the report is made nevertheless, from the values that happen to be stored in the trial iterate, i.e. those of a point tried before. Here these are the objective value -50 and a feasible constraint value: the log shows merit value -50 at the trial point and a reduction by more than 1700 %.
* **C125** `C125_again_violated` — The code violates C125 when a solver is used again: its timer is not reset, so that the time of earlier solves counts. After a solve of 12 seconds, a solve with a limit of 10 seconds ends at once for lack of time, without any iteration, although it would have taken 5 seconds.
* **C125** `C125_check_violated` — The code violates C125 for time spent outside of iterations, e.g. in the derivative check: the problem solver counts only the time within iterations. With a limit of 10 seconds and a derivative check of 100 seconds, two iterations are begun after 100 and 108 seconds, the first one with a limit of 9 seconds for its trial point, and the solve is not reported as stopped for lack of time.
* **C126** `C126_error_violated` — The code violates C126 after errors: whenever a solve returns an error, e.g. because the user's function failed, the timer of the solver is left running, and every further solve with this solver fails an assertion.
* **C126** `C126_function_violated` — The code violates C126 also for new solvers: whenever the user's function (or another part `id` of its timers) is left by an error, its timer is left running, and every later run that calls it, be it of another solver using the same function, fails an assertion.
* **C126** `C126_timeout_violated` — The code violates C126 after time-outs of Newton steps: the solve returns `SLEQP_OKAY`, but the timers of Newton and trust region solver are left running, and every later run with a trust region step fails an assertion.
* **C127** `C127_sharing_violated` — The code violates C127 for shared objects: reference counts are neither atomic nor protected. If two threads capture the same settings at the same time, one of the references is lost, and the settings are freed while the other thread still uses them; with one thread after the other they exist as long as they are used.
* **C127** `C127_clock_violated` — The code violates C127 for time limits: its timers read the processor time of the whole process. Whatever limit `l` a solve in the thread `i` is given, work of another thread uses it up: if that thread works for `l` seconds meanwhile, the limit is exhausted though the solve has done nothing.
* **C128** `C128_revoked_violated` — The code violates C128 if a callback, or another thread, switches the release off during a solve without the lock: whatever happened before, each further call by this solve runs Python code without the lock.
* **C128** `C128_creation_violated` — The code violates C128 if a problem is created while another thread switches: functions are found by `set_release_gil` only at the end of the creation, so that a function created before and registered after the switch keeps the variant without the lock, and is called without it.
* **C128** `C128_switching_violated` — The code violates C128 if a solve begins while another thread is switching: the flag is set first, the functions are exchanged one after the other afterwards.
* **C128** `C128_order_violated` — The code violates C128 for the order of callbacks: with three callbacks for an event, switching changes the order in which they are called; with two of them it does not.
* **C128** `C128_dispatch_violated` — The code violates C128 for callbacks that switch: if the first of three callbacks calls `set_release_gil`, it is called twice for the event, and the second one is not called at all.
* **C129** `C129_weights_violated` — C129 is violated: no problem with a dynamic function in Python and at least one (nonlinear) constraint can be solved. The weights of the constraints are given to `_readonly`, which is made for NumPy arrays, as an array of Cython without the method `view`: whatever the function does, an `AttributeError` ends the solve when the weights are set for the first time, before anything has been evaluated. The function's own method for the weights is never called. (A read-only array could not be assigned to the variable meant for it either.)
* **C129** `C129_values_violated` — C129 is violated: other than those of ordinary functions, the constraint values of dynamic ones are not checked. `None` and arrays that are too short are understood as zeros, too many values are written past the dimension of the vector.
* **C130** `C130_lsq_violated` — For least-squares problems the method is never called: `LSQProblem` has no property `hess_struct`, the `AttributeError` this causes is caught (problem.pxi:396-399), and all variables stay in one block, whatever the method does; its exceptions are not raised either.
* **C130** `C130_attribute_violated` — An `AttributeError` raised inside the method, such as by a misspelt name, is taken for the method not being there (problem.pxi:314-317): the problem is created with what has been pushed up to then. Here the method is to push the blocks `[0, 1)` and `[1, 3)` but fails after the first one: the last two variables are then treated as if the functions were linear in them.
* **C130** `C130_end_violated` — A first block with a negative end is accepted from Python as well (hess_struct.pxi:17-18).
* **C131** `C131_leak_violated` — The check of a direction frees the vectors it created only if the direction is found valid: if the Jacobian part is wrong one vector is lost, if the Hessian part is wrong two.
* **C131** `C131_equality_violated` — The check that a step keeps the active constraints at their bounds leaves out constraints active at both bounds: a step leading from the equality constraint `c(x) = 2` with value 2 to the value 4 is accepted.
* **C131** `C131_variables_violated` — The check that a step stays in the working set never looks at the variables: its answer is the same for all states of the variables, so a step moving a variable held at its bound is accepted.
* **C131** `C131_trlib_violated` — The check of steps at the boundary of the trust region in debug builds compares the scalar product of step and gradient with the product of their norms up to the tolerance, which is not scaled with the radius if this is small: with the tolerance `1/100`, the gradient 1, the Hessian zero and the radius `1/1000`, the step `1/1000`, which goes uphill and is the worst in the trust region, is accepted (tr/trlib_solver.c:228).
* **C132** `C132_interior_violated` — The log warns about Newton steps which are right: the solver of the trust-region subproblem leaves the value `SLEQP_NONE`, which is −1, for the multiplier of the trust region unless the step is cut off at the boundary, and this value is used as the multiplier when the residuum is computed (tr/steihaug_solver.c:246, newton.c:261-266). With the identity as Hessian, the gradient `(1, 0, -2)`, radius 10 and tolerance 1, the step lies inside the trust region and its residuum is shorter than 1/100, but the value printed is 2 and the warning appears.
* **C133** `C133_lsq_violated` — **C133 violated (least squares)**: for a least-squares function, second derivatives being checked, the warning states that a quasi-Newton method is used, with and without scaling and preprocessing, though none is (problem_solver/solve.c:33-44: the flag looked at is also that of Gauss-Newton matrices, lsq.c:362-363).
* **C133** `C133_dynamic_violated` — **C133 violated (dynamic functions)**: if a quasi-Newton method is used, there is no warning about the check of first derivatives of a dynamic function, whose differences are dominated by the errors of its values: the function made for the method is a regular one (quasi_newton/quasi_newton.c:84-109), so that the type of the user's function is not known any more (problem_solver/solve.c:23, 46).
* **C134** `C134_empty_violated` — **C134 violated**: the class of working sets in Python can be created by the user (other than that of iterates, iterate.pxi:8-10). Such an object has no working set of the library; most of its attributes raise an exception, but asking for the numbers of variables or constraints, or printing it, follows a null pointer (bindings/python/src/extension/working_set.pxi:23-43, 87-99).
<!-- end violations -->
