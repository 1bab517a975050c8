import Verif.Model.PySettings

/-!
What the attributes of the settings in Python mean, which values suit them, and their documented defaults.
-/

namespace Sleqp

/-- the names of the attributes, with the names of the library settings meant by them -/
def pyNames : List (String × String) :=
  [("perform_newton_step", "perform_newton_step"), ("global_penalty_resets", "global_penalty_resets"), ("perform_soc", "perform_soc"),
    ("use_quadratic_model", "use_quadratic_model"), ("enable_restoration", "enable_restoration_phase"),
    ("enable_preprocessor", "enable_preprocessor"), ("lp_resolves", "lp_resolves"),
    ("num_quasi_newton_iterates", "num_quasi_newton_iterates"), ("max_newton_iterations", "max_newton_iterations"),
    ("num_threads", "num_threads"), ("deriv_check", "deriv_check"), ("hessian_eval", "hess_eval"),
    ("dual_estimation_type", "dual_estimation_type"), ("initial_tr_choice", "initial_tr_choice"), ("bfgs_sizing", "bfgs_sizing"),
    ("tr_solver", "tr_solver"), ("polishing_type", "polishing_type"), ("step_rule", "step_rule"), ("linesearch", "linesearch"),
    ("parametric_cauchy", "parametric_cauchy"), ("aug_jac_method", "augmented Jacobian method"), ("zero_eps", "zero_eps"), ("eps", "eps"),
    ("deriv_perturbation", "deriv_perturbation"), ("deriv_tol", "deriv_tol"), ("cauchy_tau", "cauchy_tau"), ("cauchy_eta", "cauchy_eta"),
    ("linesearch_tau", "linesearch_tau"), ("linesearch_eta", "linesearch_eta"), ("linesearch_cutoff", "linesearch_cutoff"),
    ("feas_tol", "feas_tol"), ("slack_tol", "slack_tol"), ("stat_tol", "stat_tol"), ("accepted_reduction", "accepted_reduction"),
    ("deadpoint_bound", "deadpoint_bound")]

/-- the library's name of a setting -/
def PyAttr.libraryName : PyAttr → List Char
  | .bool k => boolName k
  | .int k => intName k
  | .enum k _ => enumName k
  | .real k => realName k

/-- a value suits a setting, and is read back as the last argument: truth values for switches, integers (of 32 bits) for counts, numbers for
real settings, members of the enumeration or their names for choices -/
inductive Suits : PyAttr → PyArg → PyArg → Prop
  | bool (k : Fin 8) (b : Bool) : Suits (.bool k) (.bool b) (.bool b)
  | int (k : Fin 3) (n : Int) (h : -2 ^ 31 ≤ n ∧ n < 2 ^ 31) : Suits (.int k) (.int n) (.int n)
  | real (k : Fin 15) (x : Ext ℚ) : Suits (.real k) (.real x) (.real x)
  | whole (k : Fin 15) (n : Int) : Suits (.real k) (.int n) (.real (.fin n))
  | member (k : Fin 13) (e : PyEnumType) (v : Nat) (h : pyEnumHas e v = true) : Suits (.enum k e) (.member e v) (.member e v)
  | name (k : Fin 13) (e : PyEnumType) (s : String) (v : Nat) (h : (s, v) ∈ pyMembers e) : Suits (.enum k e) (.str s) (.member e v)

/-- a value does not fit a setting, so that an exception is to be raised -/
inductive Unfit : PyAttr → PyArg → Prop
  | intNone (k : Fin 3) : Unfit (.int k) .none
  | intStr (k : Fin 3) (s : String) : Unfit (.int k) (.str s)
  | intMember (k : Fin 3) (e : PyEnumType) (v : Nat) : Unfit (.int k) (.member e v)
  | intLarge (k : Fin 3) (n : Int) (h : n < -2 ^ 31 ∨ 2 ^ 31 ≤ n) : Unfit (.int k) (.int n)
  | realNone (k : Fin 15) : Unfit (.real k) .none
  | realStr (k : Fin 15) (s : String) : Unfit (.real k) (.str s)
  | realMember (k : Fin 15) (e : PyEnumType) (v : Nat) : Unfit (.real k) (.member e v)
  | enumNone (k : Fin 13) (e : PyEnumType) : Unfit (.enum k e) .none
  | enumBool (k : Fin 13) (e : PyEnumType) (b : Bool) : Unfit (.enum k e) (.bool b)
  | enumInt (k : Fin 13) (e : PyEnumType) (n : Int) : Unfit (.enum k e) (.int n)
  | enumReal (k : Fin 13) (e : PyEnumType) (x : Ext ℚ) : Unfit (.enum k e) (.real x)
  | enumStr (k : Fin 13) (e : PyEnumType) (s : String) (h : ∀ v, (s, v) ∉ pyMembers e) : Unfit (.enum k e) (.str s)

/-- the value of an attribute after a sequence of assignments: the last one suiting it, in the form in which it is read, or the value `d` before
the first one. Assignments to other attributes may be anything. -/
inductive LastGiven (name : String) (a : PyAttr) (d : PyArg) : List (String × PyArg) → PyArg → Prop
  | start : LastGiven name a d [] d
  | given (ops : List (String × PyArg)) (v v' : PyArg) (h : Suits a v v') : LastGiven name a d (ops ++ [(name, v)]) v'
  | skip (ops : List (String × PyArg)) (p : String × PyArg) (w : PyArg) (h : LastGiven name a d ops w) (hp : p.1 ≠ name ∨ Unfit a p.2) :
      LastGiven name a d (ops ++ [p]) w

/-- the defaults documented, in the form in which they are read in Python -/
def pyDefaults : List (String × PyArg) :=
  [("perform_newton_step", .bool true), ("global_penalty_resets", .bool true), ("perform_soc", .bool true),
    ("use_quadratic_model", .bool true), ("enable_restoration", .bool true), ("enable_preprocessor", .bool false),
    ("lp_resolves", .bool true), ("num_quasi_newton_iterates", .int 5), ("max_newton_iterations", .int 100), ("num_threads", .int (-1)),
    ("deriv_check", .member .derivCheck 0), ("hessian_eval", .member .hessianEval 0), ("dual_estimation_type", .member .dualEstimationType 1),
    ("initial_tr_choice", .member .initialTRChoice 0), ("bfgs_sizing", .member .sizing 1), ("tr_solver", .member .trSolver 3),
    ("polishing_type", .member .polishingType 1), ("step_rule", .member .stepRule 0), ("linesearch", .member .lineSearch 1),
    ("parametric_cauchy", .member .parametricCauchy 0), ("aug_jac_method", .member .augJacMethod 0), ("zero_eps", .real (.fin (1 / 10 ^ 20))),
    ("eps", .real (.fin (1 / 10 ^ 10))), ("deriv_perturbation", .real (.fin (1 / 10 ^ 8))), ("deriv_tol", .real (.fin (1 / 10 ^ 4))),
    ("cauchy_tau", .real (.fin (1 / 2))), ("cauchy_eta", .real (.fin (1 / 10))), ("linesearch_tau", .real (.fin (1 / 2))),
    ("linesearch_eta", .real (.fin (1 / 10 ^ 4))), ("linesearch_cutoff", .real (.fin (1 / 10 ^ 6))), ("feas_tol", .real (.fin (1 / 10 ^ 6))),
    ("slack_tol", .real (.fin (1 / 10 ^ 6))), ("stat_tol", .real (.fin (1 / 10 ^ 6))), ("accepted_reduction", .real (.fin (1 / 10 ^ 8))),
    ("deadpoint_bound", .real (.fin (1 / 10 ^ 12)))]

/-- the names and values documented: the library names of the values, by the names in Python -/
def pyValueNames : List (String × String × String) :=
  [("hessian_eval", "Exact", "Exact"), ("hessian_eval", "SR1", "SR1"), ("hessian_eval", "SimpleBFGS", "SimpleBFGS"),
    ("hessian_eval", "DampedBFGS", "DampedBFGS"), ("dual_estimation_type", "LP", "LP"), ("dual_estimation_type", "LSQ", "LSQ"),
    ("initial_tr_choice", "Narrow", "Narrow"), ("initial_tr_choice", "Wide", "Wide"), ("bfgs_sizing", "NoSizing", "None"),
    ("bfgs_sizing", "CenteredOL", "CenteredOL"), ("tr_solver", "TRlib", "Trlib"), ("tr_solver", "CG", "CG"), ("tr_solver", "LSQR", "LSQR"),
    ("tr_solver", "Auto", "Auto"), ("polishing_type", "NoPolishing", "None"), ("polishing_type", "ZeroDual", "ZeroDual"),
    ("polishing_type", "Inactive", "Inactive"), ("step_rule", "Direct", "Direct"), ("step_rule", "Window", "Window"),
    ("step_rule", "MinStep", "Minstep"), ("linesearch", "Exact", "Exact"), ("linesearch", "Approx", "Approx"),
    ("parametric_cauchy", "Disabled", "Disabled"), ("parametric_cauchy", "Coarse", "Coarse"), ("parametric_cauchy", "Fine", "Fine"),
    ("aug_jac_method", "Auto", "Auto"), ("aug_jac_method", "Standard", "Standard"), ("aug_jac_method", "Reduced", "Reduced"),
    ("aug_jac_method", "Direct", "Direct"), ("deriv_check", "Skip", "Skip"), ("deriv_check", "FirstFunc", "FirstObj"),
    ("deriv_check", "FirstCons", "FirstCons"), ("deriv_check", "SecondSimple", "SecondSimple"), ("deriv_check", "SecondFunc", "SecondObj"),
    ("deriv_check", "SecondCons", "SecondCons")]

end Sleqp
