import Verif.Model.Own

/-!
The structures of the library: which of their fields hold pointers, which of these own what they point to, and what the functions which free
the structures release.  Fields which are arrays of pointers have names ending in `[]`; fields which are never set are left out.
-/

namespace Sleqp

/-- the structures; `mem` stands for arrays, strings, timers and objects of libraries, which hold no pointers of their own;
`funcBorrowing`, `lsqBorrowing` and `dynBorrowing` are functions whose callbacks do not free their data, as those of the scaled
problem and of the quasi-Newton method (problem_scaling.c:341-446, quasi_newton/quasi_newton.c:87-110) -/
inductive OTy where
  | mem | settings | funcBorrowing | lsqBorrowing | dynBorrowing
  | mat | augJac | augBox | augDirect | augReduced | augStandard | callbackHandler | cauchyBox | cauchy | cauchyStandard |
  cauchyUnconstrained | derivChecker | direction | dualEstimation | dualLsq | dualMixed | dynData | eqp | fact | cholmod |
  lapack | ma27 | ma57 | ma86 | ma97 | mumps | qr | spqr | umfpack | func | gaussNewton | hessStruct | iterate |
  linesearch | lpi | gurobi | highs | lsqData | measure | merit | newton | parametric | polishing | fixedVarData |
  preprocessingState | preprocessor | restoration | transformation | problem | problemScaling | bfgs | quasiNewton | sr1 |
  restorationData | scaling | soc | stepRule | stepDirect | stepMinstep | stepWindow | lsqr | steihaug | trSolver | trlib
  | workingSet | workingStep | problemSolver | solver | trialPoint | vec
  deriving DecidableEq, Repr

/-- fields which own what they point to -/
private def own (l : List String) : List (String × Bool) := l.map (·, true)

/-- fields which do not -/
private def weak (l : List String) : List (String × Bool) := l.map (·, false)

/-- the declarations of the structures: settings.c:75-86, func.c:10-37 and as cited -/
def libFields : OTy → List (String × Bool)
  | .mem => []
  | .settings => []
  | .funcBorrowing =>
    weak ["data"] ++ own ["set_timer", "val_timer", "grad_timer", "cons_val_timer", "cons_jac_timer", "hess_timer", "product", "hess_struct"]
  -- lsq.c:14-40
  | .lsqBorrowing =>
    weak ["func_data"] ++ own ["lsq_forward", "lsq_residual", "lsq_grad", "lsq_hess_prod", "residual_timer", "forward_timer", "adjoint_timer"]
  -- dyn.c:16-26
  | .dynBorrowing => weak ["func_data"] ++ own ["cons_val"]
  -- sparse/mat.c:11-25
  | .mat =>
    own ["data", "cols", "rows"]
  -- aug_jac/aug_jac.c:6-17
  | .augJac =>
    own ["problem", "creation_timer", "solution_timer", "data"]
  -- aug_jac/box_constrained_aug_jac.c:7-10
  | .augBox =>
    own ["iterate"]
  -- aug_jac/direct_aug_jac.c:8-20
  | .augDirect =>
    own ["fact", "product", "working_jac", "row_sums", "matrix"]
  -- aug_jac/reduced_aug_jac.c:12-40
  | .augReduced =>
    own ["problem", "settings", "fact", "matrix", "rhs", "direction", "row_counts", "row_offsets", "col_indices", "values",
    "cache", "working_set"]
  -- aug_jac/standard_aug_jac.c:11-32
  | .augStandard =>
    own ["problem", "settings", "augmented_matrix", "fact", "working_set", "factorization_timer", "substitution_timer",
    "col_indices"]
  -- callback_handler.c:14-22; callbacks and their data are those of the caller
  | .callbackHandler =>
    own ["callbacks"]
  -- cauchy/box_constrained_cauchy.c:8-28
  | .cauchyBox =>
    own ["problem", "settings", "iterate", "lower_diff", "upper_diff", "direction", "duals", "var_states", "fixed_vars"]
  -- cauchy/cauchy.c:8-14
  | .cauchy =>
    own ["cauchy_data"]
  -- cauchy/standard_cauchy.c:28-69; `cons_dual` points into `vars_dual`
  | .cauchyStandard =>
    weak ["cons_dual"] ++ own ["problem", "settings", "iterate", "var_stats", "cons_stats", "default_interface", "reduced_interface",
    "reduced_cons_stats", "objective", "cons_lb", "cons_ub", "vars_lb", "vars_ub", "primal_values", "vars_dual"]
  -- cauchy/unconstrained_cauchy.c:6-17
  | .cauchyUnconstrained =>
    own ["problem", "settings", "iterate", "direction"]
  -- deriv_check.c:12-48; the iterate is the one of the caller
  | .derivChecker =>
    weak ["iterate"] ++ own ["problem", "settings", "unit_direction", "hessian_estimate", "hessian_left", "hessian_right", "hessian_prod",
    "hessian_prod_cons", "hessian_prod_func", "hessian_prod_cache", "hessian_cons_prods", "cons_grad_iterate",
    "cons_grad_check_iterate", "transposed_jacobian_product", "combined_cons_grad_iterate",
    "combined_cons_grad_check_iterate", "multipliers", "check_iterate", "jac_row", "check_jac_row"]
  -- direction.c:12-19
  | .direction =>
    own ["primal", "cons_jac", "hess"]
  -- dual_estimation/dual_estimation.c:6-12
  | .dualEstimation =>
    own ["estimation_data"]
  -- dual_estimation/dual_estimation_lsq.c:8-17
  | .dualLsq =>
    own ["problem", "aug_jac", "solution", "neg_grad"]
  -- dual_estimation/dual_estimation_mixed.c:9-20
  | .dualMixed =>
    own ["estimation_lsq", "estimation_lp", "cons_dual_lsq", "vars_dual_lsq", "cons_dual_lp", "vars_dual_lp"]
  -- dyn.c:16-26
  | .dynData =>
    own ["func_data", "cons_val"]
  -- eqp.c:5-11
  | .eqp =>
    own ["timer", "eqp_data"]
  -- fact/fact.c:9-19
  | .fact =>
    own ["name", "version", "fact_data"]
  -- fact/fact_cholmod.c:17-32; the matrix is the one of the caller
  | .cholmod =>
    weak ["matrix"] ++ own ["sparse", "factor", "sol", "rhs"]
  -- fact/fact_lapack.c:21-35
  | .lapack =>
    own ["settings", "values", "ipiv", "sol"]
  -- fact/fact_ma27.c:171-187; with the parts `matrix` (fact/hsl_matrix.h:9-19), `workspace` and `factor`
  | .ma27 =>
    own ["matrix.data", "matrix.rows", "matrix.cols", "workspace.iw", "workspace.iw1", "workspace.ikeep", "workspace.w",
    "factor.factor", "rhs_sol"]
  -- fact/fact_ma57.c:302-312; with the parts `matrix` (fact/hsl_matrix.h:9-19), `workspace` and `factor`
  | .ma57 =>
    own ["matrix.data", "matrix.rows", "matrix.cols", "factor.factor", "factor.ifactor", "workspace.keep", "workspace.iwork",
    "workspace.work", "workspace.sol", "workspace.rhs", "workspace.res"]
  -- fact/fact_ma86.c:127-142
  | .ma86 =>
    own ["order", "keep", "rhs_sol"]
  -- fact/fact_ma97.c:204-220; the call which finalises `akeep` and `fkeep` is commented out
  | .ma97 =>
    own ["order", "akeep", "fkeep", "rhs_sol"]
  -- fact/fact_mumps.c:15-29; what the library holds itself is left out
  | .mumps =>
    own ["cols", "rows", "data", "rhs_sol"]
  -- fact/fact_qr.c:9-22
  | .qr =>
    own ["name", "version", "fact_data"]
  -- fact/fact_spqr.c:13-28; the matrix is the one of the caller
  | .spqr =>
    weak ["matrix"] ++ own ["sparse", "factorization", "sol", "rhs"]
  -- fact/fact_umfpack.c:13-28; the matrix is the one of the caller; the factorization is freed by fact/fact_umfpack.c:85-102
  | .umfpack =>
    weak ["matrix"] ++ own ["numeric_factorization", "symbolic_factorization", "solution", "rhs"]
  -- func.c:10-37; a function whose callbacks free its data
  | .func =>
    own ["data", "set_timer", "val_timer", "grad_timer", "cons_val_timer", "cons_jac_timer", "hess_timer", "product",
    "hess_struct"]
  -- gauss_newton.c:41-84; with the parts `forward` and `adjoint`; the fields `lsq_step_forward` and `scaled_cons_product` are never set
  | .gaussNewton =>
    own ["problem", "working_step", "settings", "iterate", "lsq_residuals", "lsq_rhs", "rhs", "linear_cons_val",
    "linear_cons_residuals", "scaled_violated_cons_jac", "scaled_cons_residuals", "removed_cons", "lsqr_solver", "sol",
    "sparse_cache", "dense_cache", "jacobian", "forward.projected_direction", "forward.scaled_cons_product",
    "forward.lsq_product", "adjoint.product", "adjoint.lsq_direction", "adjoint.cons_direction", "adjoint.lsq_product",
    "adjoint.cons_product"]
  -- hess_struct.c:7-13
  | .hessStruct =>
    own ["block_ends"]
  -- iterate.c:13-56
  | .iterate =>
    own ["primal", "obj_grad", "cons_val", "cons_jac", "working_set", "cons_dual", "vars_dual"]
  -- linesearch.c:38-71
  | .linesearch =>
    own ["problem", "settings", "merit", "iterate", "cauchy_point", "cauchy_newton_jacobian_prod", "cauchy_cons_val",
    "cauchy_violation", "combined_cons_val", "cauchy_newton_direction", "violated_multipliers", "test_direction", "cache",
    "breakpoints", "timer"]
  -- lp/lpi.c:9-26
  | .lpi =>
    own ["lp_data", "name", "version", "timer"]
  -- lp/lpi_gurobi.c:20-40
  | .gurobi =>
    own ["env", "model", "vbases", "cbases", "slack_basis", "col_basis", "row_basis", "vbases[]", "cbases[]"]
  -- lp/lpi_highs.c:15-53; the library object is freed by `Highs_destroy`
  | .highs =>
    own ["highs", "row_bases", "col_bases", "col_basis", "row_basis", "costs", "col_lb", "col_ub", "row_lb", "row_ub",
    "cols_primal_dummysol", "rows_primal_dummysol", "cols_dual_dummysol", "rows_dual_dummysol", "row_bases[]", "col_bases[]"]
  -- lsq.c:14-40
  | .lsqData =>
    own ["lsq_forward", "lsq_residual", "lsq_grad", "lsq_hess_prod", "residual_timer", "forward_timer", "adjoint_timer",
    "func_data"]
  -- measure.c:17-41
  | .measure =>
    own ["problem", "settings", "expected_cons_val", "cons_nonlin"]
  -- merit.c:12-25
  | .merit =>
    own ["problem", "settings", "combined_cons_val", "multipliers", "sparse_cache"]
  -- newton.c:23-49
  | .newton =>
    own ["problem", "working_step", "settings", "iterate", "aug_jac", "gradient", "initial_hessian_product", "jacobian_product",
    "sparse_cache", "tr_step", "tr_hessian_product", "dense_cache", "tr_solver", "timer"]
  -- parametric.c:13-34
  | .parametric =>
    own ["problem", "settings", "merit", "linesearch", "cache", "jacobian_product", "combined_cons_val", "last_direction"]
  -- polish.c:10-17
  | .polishing =>
    own ["problem", "settings", "working_set"]
  -- preprocessor/fixed_var_func.c:11-28
  | .fixedVarData =>
    own ["fixed_values", "fixed_indices", "func", "values", "grad", "direction", "product", "jacobian"]
  -- preprocessor/preprocessing_state.c:7-35
  | .preprocessingState =>
    own ["original_problem", "converted_bounds", "forcing_constraints", "var_states", "cons_states", "var_bound_states",
    "cons_bound_states", "fixed_var_indices", "fixed_var_values", "removed_cons_indices", "forcing_constraints[].variables",
    "forcing_constraints[].factors"]
  -- preprocessor/preprocessor.c:26-68
  | .preprocessor =>
    own ["timer", "settings", "original_problem", "linear_cons_counts", "linear_entries", "var_lb", "var_ub", "var_min",
    "var_max", "linear_lb", "linear_ub", "linear_min", "linear_max", "cons_dual_dense", "cons_state_dense",
    "preprocessing_state", "transformation", "restoration", "removed_linear_cons", "cache", "transformed_problem"]
  -- preprocessor/restore.c:14-37
  | .restoration =>
    own ["preprocessing_state", "original_problem", "transformed_problem", "settings", "working_var_states",
    "working_cons_states", "var_dual", "cons_dual", "cache", "stationarity_residuals", "dense_stationarity_residuals",
    "linear_cons_map", "var_map"]
  -- preprocessor/transform.c:13-46
  | .transformation =>
    own ["preprocessing_state", "original_problem", "settings", "transformed_var_lb", "transformed_var_ub",
    "fixed_variable_values", "fixed_linear_lb", "fixed_linear_ub", "redundant_linear_lb", "redundant_linear_ub",
    "transformed_linear_lb", "transformed_linear_ub", "transformed_linear_coeffs", "transformed_func", "dense_cache",
    "sparse_cache", "trans_cache"]
  -- problem.c:15-51
  | .problem =>
    own ["func", "settings", "var_lb", "var_ub", "cons_lb", "cons_ub", "general_lb", "general_ub", "linear_coeffs", "linear_lb",
    "linear_ub", "primal", "dense_cache", "general_cons_val", "linear_cons_val", "general_cons_duals", "general_cons_jac"]
  -- problem_scaling.c:13-31; `func` is the one of `problem`
  | .problemScaling =>
    weak ["func"] ++ own ["scaling", "problem", "settings", "scaled_func", "scaled_problem", "unscaled_value", "scaled_direction",
    "scaled_cons_weights", "scaled_cons_duals"]
  -- quasi_newton/bfgs.c:70-94; with the fields of the blocks, quasi_newton/bfgs.c:22-68 and quasi_newton/bfgs.c:160-194
  | .bfgs =>
    own ["settings", "blocks", "grad_diff", "point_diff", "previous_grad", "current_grad", "block_grad_diff", "block_point_diff",
    "prod_cache", "block_direction", "block_prod", "blocks[].point_diffs", "blocks[].grad_diffs", "blocks[].point_products",
    "blocks[].damped_grad_diffs", "blocks[].damped_grad_point_diff_dots", "blocks[].grad_point_diff_dots",
    "blocks[].point_diff_inner_dots", "blocks[].bidir_products", "blocks[].inner_cache", "blocks[].prod_cache",
    "blocks[].sizing_factors", "blocks[].point_diffs[]", "blocks[].grad_diffs[]", "blocks[].point_products[]",
    "blocks[].damped_grad_diffs[]"]
  -- quasi_newton/quasi_newton.c:6-17
  | .quasiNewton =>
    own ["func", "update_timer", "quasi_newton_func", "quasi_newton_data"]
  -- quasi_newton/sr1.c:64-90; with the fields of the blocks, quasi_newton/sr1.c:45-62 and quasi_newton/sr1.c:615-635
  | .sr1 =>
    own ["settings", "grad_diff", "step_diff", "previous_grad", "current_grad", "block_grad_diff", "block_step_diff",
    "prod_cache", "inner_cache", "outer_cache", "block_direction", "block_prod", "blocks", "blocks[].step_diffs",
    "blocks[].grad_diffs", "blocks[].inner_prods", "blocks[].inner_dots", "blocks[].step_diffs[]", "blocks[].grad_diffs[]",
    "blocks[].inner_prods[]"]
  -- restoration.c:10-32
  | .restorationData =>
    own ["var_primal", "cons_primal", "var_forward", "cons_forward", "forward_cache", "forward_product", "adjoint_product",
    "cons_val", "cons_jac", "problem", "settings"]
  -- scale.c:19-32
  | .scaling =>
    own ["var_weights", "cons_weights", "min_cache", "max_cache"]
  -- soc.c:11-25
  | .soc =>
    own ["problem", "settings", "upper_diff", "lower_diff", "soc_direction", "soc_corrected_direction", "rhs"]
  -- step/step_rule.c:16-24
  | .stepRule =>
    own ["problem", "step_data"]
  -- step/step_rule_direct.c:6-9
  | .stepDirect =>
    own ["settings"]
  -- step/step_rule_minstep.c:8-37
  | .stepMinstep =>
    own ["settings"]
  -- step/step_rule_window.c:8-22
  | .stepWindow =>
    own ["exact_merit_values", "model_reductions", "settings"]
  -- tr/lsqr.c:11-36; `data` is the caller itself
  | .lsqr =>
    weak ["data"] ++ own ["settings", "timer", "u", "v", "w", "p", "q", "d", "sparse_cache"]
  -- tr/steihaug_solver.c:23-42
  | .steihaug =>
    own ["problem", "settings", "d", "Bd", "g", "r", "z", "sparse_cache", "timer"]
  -- tr/tr_solver.c:6-15
  | .trSolver =>
    own ["solver_data", "timer"]
  -- tr/trlib_solver.c:17-51
  | .trlib =>
    own ["problem", "settings", "trlib_iwork", "trlib_fwork", "trlib_timinig", "s", "g", "gm", "h", "v", "p", "Hp", "l", "h_lhs",
    "h_rhs", "Q", "dense_cache", "sparse_cache", "timer"]
  -- working_set.c:6-32
  | .workingSet =>
    own ["problem", "variable_states", "constraint_states", "variable_indices", "constraint_indices", "content_indices"]
  -- working_step.c:14-40
  | .workingStep =>
    own ["problem", "settings", "iterate", "lower_diff", "upper_diff", "initial_rhs", "initial_direction", "step_direction",
    "initial_cons_val", "violated_constraint_multipliers", "sparse_cache", "dense_cache"]
  -- problem_solver.h:14-86; with an array of callback handlers
  | .problemSolver =>
    own ["problem", "settings", "measure", "dense_cache", "primal_diff", "cons_dual_diff", "vars_dual_diff", "iterate",
    "trial_iterate", "elapsed_timer", "trial_point_solver", "step_rule", "deriv_checker", "merit", "callback_handlers[]"]
  -- solver.h:48-101; with an array of callback handlers
  | .solver =>
    own ["settings", "original_problem", "dense_cache", "scaling_data", "scaled_primal", "primal", "scaled_problem",
    "preprocessor", "problem_scaling", "original_iterate", "scaled_iterate", "problem", "problem_solver",
    "restoration_problem", "restoration_problem_solver", "restoration_primal", "elapsed_timer", "polishing",
    "callback_handlers[]", "quasi_newton"]
  -- trial_point.h:21-85
  | .trialPoint =>
    own ["problem", "settings", "lp_step", "cauchy_direction", "estimation_residuals", "newton_direction", "soc_direction",
    "trial_direction", "multipliers", "initial_trial_point", "merit", "iterate", "cauchy_data", "estimation_data", "fact",
    "aug_jac", "linesearch", "working_step", "eqp_solver", "soc_data", "parametric_solver",
    "parametric_original_working_set", "dense_cache", "elapsed_timer", "cons_weights"]
  -- sparse/pub_vec.h:16-25
  | .vec =>
    own ["data", "indices"]

/-- the functions which free the structures: settings.c:806-818, func.c:433-463 and as cited; arrays, strings and timers hold nothing
(timer.c:348-354) -/
def libReleased : OTy → List String
  | .mem => []
  | .settings => []
  | .funcBorrowing => ["hess_timer", "cons_jac_timer", "cons_val_timer", "grad_timer", "val_timer", "set_timer", "product", "hess_struct"]
  -- lsq.c:266-295
  | .lsqBorrowing =>
    ["adjoint_timer", "forward_timer", "residual_timer", "lsq_hess_prod", "lsq_grad", "lsq_residual", "lsq_forward"]
  -- dyn.c:213-232
  | .dynBorrowing => ["cons_val"]
  -- sparse/mat.c:934-952
  | .mat =>
    ["rows", "cols", "data"]
  -- aug_jac/aug_jac.c:129-146
  | .augJac =>
    ["data", "problem", "solution_timer", "creation_timer"]
  -- aug_jac/box_constrained_aug_jac.c:111-120
  | .augBox =>
    ["iterate"]
  -- aug_jac/direct_aug_jac.c:255-272
  | .augDirect =>
    ["fact", "matrix", "row_sums", "working_jac", "product"]
  -- aug_jac/reduced_aug_jac.c:653-679
  | .augReduced =>
    ["working_set", "cache", "values", "col_indices", "row_offsets", "row_counts", "direction", "rhs", "matrix", "fact",
    "settings", "problem"]
  -- aug_jac/standard_aug_jac.c:438-461
  | .augStandard =>
    ["substitution_timer", "factorization_timer", "col_indices", "working_set", "fact", "augmented_matrix", "settings",
    "problem"]
  -- callback_handler.c:145-159
  | .callbackHandler =>
    ["callbacks"]
  -- cauchy/box_constrained_cauchy.c:337-362
  | .cauchyBox =>
    ["fixed_vars", "var_states", "duals", "direction", "upper_diff", "lower_diff", "iterate", "settings", "problem"]
  -- cauchy/cauchy.c:161-170
  | .cauchy =>
    ["cauchy_data"]
  -- cauchy/standard_cauchy.c:1511-1543
  | .cauchyStandard =>
    ["vars_dual", "primal_values", "vars_ub", "vars_lb", "cons_ub", "cons_lb", "objective", "reduced_cons_stats",
    "reduced_interface", "default_interface", "cons_stats", "var_stats", "iterate", "settings", "problem"]
  -- cauchy/unconstrained_cauchy.c:181-196
  | .cauchyUnconstrained =>
    ["direction", "iterate", "settings", "problem"]
  -- deriv_check.c:795-847
  | .derivChecker =>
    ["check_jac_row", "jac_row", "check_iterate", "multipliers", "combined_cons_grad_check_iterate",
    "combined_cons_grad_iterate", "transposed_jacobian_product", "cons_grad_check_iterate", "cons_grad_iterate",
    "hessian_cons_prods", "hessian_prod_cache", "hessian_prod_func", "hessian_prod_cons", "hessian_prod", "hessian_right",
    "hessian_left", "hessian_estimate", "unit_direction", "settings", "problem"]
  -- direction.c:253-264
  | .direction =>
    ["hess", "cons_jac", "primal"]
  -- dual_estimation/dual_estimation.c:84-94
  | .dualEstimation =>
    ["estimation_data"]
  -- dual_estimation/dual_estimation_lsq.c:184-198
  | .dualLsq =>
    ["solution", "neg_grad", "aug_jac", "problem"]
  -- dual_estimation/dual_estimation_mixed.c:142-159
  | .dualMixed =>
    ["vars_dual_lp", "cons_dual_lp", "vars_dual_lsq", "cons_dual_lsq", "estimation_lp", "estimation_lsq"]
  -- dyn.c:213-232
  | .dynData =>
    ["func_data", "cons_val"]
  -- eqp.c:103-114
  | .eqp =>
    ["eqp_data", "timer"]
  -- fact/fact.c:129-141
  | .fact =>
    ["fact_data", "version", "name"]
  -- fact/fact_cholmod.c:231-257
  | .cholmod =>
    ["sol", "rhs", "factor", "sparse"]
  -- fact/fact_lapack.c:174-187
  | .lapack =>
    ["sol", "ipiv", "values", "settings"]
  -- fact/fact_ma27.c:485-509
  | .ma27 =>
    ["matrix.cols", "matrix.rows", "matrix.data", "workspace.iw", "workspace.iw1", "workspace.ikeep", "workspace.w",
    "rhs_sol", "factor.factor"]
  -- fact/fact_ma57.c:781-807
  | .ma57 =>
    ["matrix.cols", "matrix.rows", "matrix.data", "factor.factor", "factor.ifactor", "workspace.keep", "workspace.iwork",
    "workspace.work", "workspace.res", "workspace.rhs", "workspace.sol"]
  -- fact/fact_ma86.c:284-301
  | .ma86 =>
    ["keep", "rhs_sol", "order"]
  -- fact/fact_ma97.c:367-381
  | .ma97 =>
    ["rhs_sol", "order"]
  -- fact/fact_mumps.c:240-260
  | .mumps =>
    ["cols", "rows", "data", "rhs_sol"]
  -- fact/fact_qr.c:131-143
  | .qr =>
    ["fact_data", "version", "name"]
  -- fact/fact_spqr.c:345-369
  | .spqr =>
    ["sol", "rhs", "factorization", "sparse"]
  -- fact/fact_umfpack.c:265-284
  | .umfpack =>
    ["rhs", "solution", "numeric_factorization", "symbolic_factorization"]
  -- func.c:433-463
  | .func =>
    ["data", "hess_timer", "cons_jac_timer", "cons_val_timer", "grad_timer", "val_timer", "set_timer", "product",
    "hess_struct"]
  -- gauss_newton.c:623-681
  | .gaussNewton =>
    ["adjoint.product", "adjoint.cons_product", "adjoint.lsq_product", "adjoint.cons_direction", "adjoint.lsq_direction",
    "forward.projected_direction", "forward.lsq_product", "forward.scaled_cons_product", "jacobian", "dense_cache",
    "lsqr_solver", "sparse_cache", "sol", "removed_cons", "scaled_cons_residuals", "linear_cons_residuals",
    "scaled_violated_cons_jac", "linear_cons_val", "rhs", "lsq_rhs", "lsq_residuals", "iterate", "settings", "working_step",
    "problem"]
  -- hess_struct.c:142-156
  | .hessStruct =>
    ["block_ends"]
  -- iterate.c:629-653
  | .iterate =>
    ["vars_dual", "cons_dual", "working_set", "cons_jac", "cons_val", "obj_grad", "primal"]
  -- linesearch.c:1054-1085
  | .linesearch =>
    ["timer", "breakpoints", "test_direction", "cache", "violated_multipliers", "cauchy_newton_direction",
    "combined_cons_val", "cauchy_violation", "cauchy_cons_val", "cauchy_newton_jacobian_prod", "cauchy_point", "merit",
    "iterate", "settings", "problem"]
  -- lp/lpi.c:238-252
  | .lpi =>
    ["lp_data", "timer", "version", "name"]
  -- lp/lpi_gurobi.c:660-696
  | .gurobi =>
    ["model", "vbases[]", "cbases[]", "vbases", "cbases", "env", "row_basis", "slack_basis", "col_basis"]
  -- lp/lpi_highs.c:666-709
  | .highs =>
    ["rows_dual_dummysol", "cols_dual_dummysol", "rows_primal_dummysol", "cols_primal_dummysol", "row_ub", "row_lb", "col_ub",
    "col_lb", "costs", "row_basis", "col_basis", "row_bases[]", "col_bases[]", "row_bases", "col_bases", "highs"]
  -- lsq.c:266-295
  | .lsqData =>
    ["func_data", "adjoint_timer", "forward_timer", "residual_timer", "lsq_hess_prod", "lsq_grad", "lsq_residual",
    "lsq_forward"]
  -- measure.c:436-450
  | .measure =>
    ["cons_nonlin", "expected_cons_val", "settings", "problem"]
  -- merit.c:140-162
  | .merit =>
    ["sparse_cache", "multipliers", "combined_cons_val", "settings", "problem"]
  -- newton.c:597-633
  | .newton =>
    ["timer", "tr_solver", "dense_cache", "tr_hessian_product", "tr_step", "sparse_cache", "jacobian_product",
    "initial_hessian_product", "gradient", "aug_jac", "iterate", "settings", "working_step", "problem"]
  -- parametric.c:432-455
  | .parametric =>
    ["last_direction", "combined_cons_val", "jacobian_product", "linesearch", "merit", "settings", "problem", "cache"]
  -- polish.c:274-287
  | .polishing =>
    ["working_set", "settings", "problem"]
  -- preprocessor/fixed_var_func.c:178-201
  | .fixedVarData =>
    ["jacobian", "product", "direction", "grad", "values", "func", "fixed_values", "fixed_indices"]
  -- preprocessor/preprocessing_state.c:558-588
  | .preprocessingState =>
    ["removed_cons_indices", "fixed_var_indices", "fixed_var_values", "forcing_constraints[].factors",
    "forcing_constraints[].variables", "forcing_constraints", "converted_bounds", "cons_bound_states", "var_bound_states",
    "cons_states", "var_states", "original_problem"]
  -- preprocessor/preprocessor.c:808-855
  | .preprocessor =>
    ["transformed_problem", "cache", "removed_linear_cons", "cons_state_dense", "cons_dual_dense", "restoration",
    "preprocessing_state", "transformation", "linear_max", "linear_min", "linear_ub", "linear_lb", "var_max", "var_min",
    "var_ub", "var_lb", "removed_linear_cons", "linear_entries", "linear_cons_counts", "original_problem", "settings",
    "timer"]
  -- preprocessor/restore.c:834-864
  | .restoration =>
    ["var_map", "linear_cons_map", "dense_stationarity_residuals", "stationarity_residuals", "cache", "cons_dual", "var_dual",
    "working_cons_states", "working_var_states", "settings", "transformed_problem", "original_problem", "preprocessing_state"]
  -- preprocessor/transform.c:622-658
  | .transformation =>
    ["trans_cache", "sparse_cache", "dense_cache", "transformed_func", "transformed_linear_coeffs", "transformed_linear_ub",
    "transformed_linear_lb", "redundant_linear_ub", "redundant_linear_lb", "fixed_linear_ub", "fixed_linear_lb",
    "fixed_variable_values", "transformed_var_ub", "transformed_var_lb", "preprocessing_state", "settings",
    "original_problem"]
  -- problem.c:707-749
  | .problem =>
    ["general_cons_jac", "general_cons_val", "linear_cons_val", "general_cons_duals", "dense_cache", "primal", "linear_ub",
    "linear_lb", "linear_coeffs", "general_ub", "general_lb", "cons_ub", "cons_lb", "var_ub", "var_lb", "settings", "func"]
  -- problem_scaling.c:616-648
  | .problemScaling =>
    ["scaled_cons_duals", "scaled_cons_weights", "scaled_direction", "unscaled_value", "scaled_problem", "scaled_func",
    "scaling", "settings", "problem"]
  -- quasi_newton/bfgs.c:786-826
  | .bfgs =>
    ["block_prod", "block_direction", "prod_cache", "block_prod", "block_prod", "block_point_diff", "block_grad_diff",
    "current_grad", "previous_grad", "point_diff", "grad_diff", "blocks[].prod_cache", "blocks[].inner_cache",
    "blocks[].damped_grad_diffs[]", "blocks[].point_products[]", "blocks[].grad_diffs[]", "blocks[].point_diffs[]",
    "blocks[].damped_grad_diffs", "blocks[].point_products", "blocks[].point_diff_inner_dots",
    "blocks[].grad_point_diff_dots", "blocks[].damped_grad_point_diff_dots", "blocks[].sizing_factors",
    "blocks[].bidir_products", "blocks[].grad_diffs", "blocks[].point_diffs", "blocks", "settings"]
  -- quasi_newton/quasi_newton.c:197-212
  | .quasiNewton =>
    ["update_timer", "quasi_newton_data", "func", "quasi_newton_func"]
  -- quasi_newton/sr1.c:638-678
  | .sr1 =>
    ["blocks[].inner_prods[]", "blocks[].grad_diffs[]", "blocks[].step_diffs[]", "blocks[].inner_dots",
    "blocks[].inner_prods", "blocks[].grad_diffs", "blocks[].step_diffs", "blocks", "block_prod", "block_direction",
    "outer_cache", "inner_cache", "prod_cache", "block_step_diff", "block_grad_diff", "current_grad", "previous_grad",
    "step_diff", "grad_diff", "settings"]
  -- restoration.c:275-304
  | .restorationData =>
    ["settings", "problem", "adjoint_product", "forward_product", "forward_cache", "cons_forward", "var_forward",
    "cons_primal", "var_primal", "cons_jac", "cons_val"]
  -- scale.c:873-895
  | .scaling =>
    ["max_cache", "min_cache", "cons_weights", "var_weights"]
  -- soc.c:359-383
  | .soc =>
    ["rhs", "soc_corrected_direction", "soc_direction", "lower_diff", "upper_diff", "settings", "problem"]
  -- step/step_rule.c:90-111
  | .stepRule =>
    ["step_data", "problem"]
  -- step/step_rule_direct.c:39-48
  | .stepDirect =>
    ["settings"]
  -- step/step_rule_minstep.c:179-188
  | .stepMinstep =>
    ["settings"]
  -- step/step_rule_window.c:212-224
  | .stepWindow =>
    ["settings", "model_reductions", "exact_merit_values"]
  -- tr/lsqr.c:343-371
  | .lsqr =>
    ["sparse_cache", "d", "q", "p", "w", "v", "u", "timer", "settings"]
  -- tr/steihaug_solver.c:45-69
  | .steihaug =>
    ["timer", "sparse_cache", "z", "r", "g", "Bd", "d", "settings", "problem"]
  -- tr/tr_solver.c:99-110
  | .trSolver =>
    ["timer", "solver_data"]
  -- tr/trlib_solver.c:54-96
  | .trlib =>
    ["timer", "Q", "sparse_cache", "dense_cache", "h_rhs", "h_lhs", "l", "Hp", "p", "v", "h", "gm", "g", "s", "trlib_timinig",
    "trlib_fwork", "trlib_iwork", "settings", "problem"]
  -- working_set.c:615-637
  | .workingSet =>
    ["content_indices", "constraint_indices", "variable_indices", "constraint_states", "variable_states", "problem"]
  -- working_step.c:520-554
  | .workingStep =>
    ["dense_cache", "sparse_cache", "violated_constraint_multipliers", "initial_cons_val", "step_direction",
    "initial_direction", "initial_rhs", "upper_diff", "lower_diff", "iterate", "settings", "problem"]
  -- problem_solver.c:179-218
  | .problemSolver =>
    ["callback_handlers[]", "merit", "deriv_checker", "step_rule", "trial_point_solver", "elapsed_timer", "trial_iterate",
    "iterate", "vars_dual_diff", "cons_dual_diff", "primal_diff", "dense_cache", "measure", "settings", "problem"]
  -- solver.c:447-502
  | .solver =>
    ["callback_handlers[]", "polishing", "elapsed_timer", "scaled_iterate", "original_iterate", "problem", "problem_scaling",
    "preprocessor", "restoration_problem_solver", "restoration_problem", "restoration_primal", "problem_solver",
    "quasi_newton", "scaled_problem", "primal", "scaled_primal", "scaling_data", "dense_cache", "original_problem",
    "settings"]
  -- trial_point.c:1101-1155
  | .trialPoint =>
    ["cons_weights", "elapsed_timer", "dense_cache", "parametric_solver", "parametric_original_working_set", "soc_data",
    "eqp_solver", "working_step", "linesearch", "aug_jac", "fact", "estimation_data", "cauchy_data", "iterate", "merit",
    "initial_trial_point", "multipliers", "trial_direction", "soc_direction", "newton_direction", "estimation_residuals",
    "cauchy_direction", "lp_step", "settings", "problem"]
  -- sparse/vec.c:773-790
  | .vec =>
    ["indices", "data"]

/-- the structures of the library -/
def lib : Layout OTy := ⟨libFields, libReleased⟩

end Sleqp
