import Verif.Model.Settings

/-!
Model of the settings in Python, `/repo/bindings/python/src/extension/settings.pxi`, with the enumerations of `types.pxi`.

An exception is the answer `false`, or `none` where a value is expected. The release of the memory is not part of the model.
-/

namespace Sleqp

/-- The enumerations used for settings, bindings/python/src/extension/types.pxi:37-115, 146-151, and, as an example of the others, `Status`,
21-34. -/
inductive PyEnumType where
  | status | derivCheck | hessianEval | sizing | trSolver | polishingType | stepRule | lineSearch | parametricCauchy | initialTRChoice
  | augJacMethod | dualEstimationType
  deriving DecidableEq, Repr

/-- the members and their values, bindings/python/src/extension/types.pxi:21-115, 146-151 with pub_types.h:62-73, 90-196 -/
def pyMembers : PyEnumType → List (String × Nat)
  | .status => [("Unkown", 0), ("Running", 1), ("Optimal", 2), ("Infeasible", 3), ("Unbounded", 4), ("AbortDeadpoint", 5), ("AbortIter", 6),
      ("AbortManual", 7), ("AbortTime", 8)]
  | .derivCheck => [("Skip", 0), ("FirstFunc", 1), ("FirstCons", 2), ("First", 3), ("SecondFunc", 8), ("SecondCons", 16),
      ("SecondExhaustive", 24), ("SecondSimple", 4)]
  | .hessianEval => [("Exact", 0), ("SR1", 1), ("SimpleBFGS", 2), ("DampedBFGS", 3)]
  | .sizing => [("NoSizing", 0), ("CenteredOL", 1)]
  | .trSolver => [("TRlib", 0), ("CG", 1), ("LSQR", 2), ("Auto", 3)]
  | .polishingType => [("NoPolishing", 0), ("ZeroDual", 1), ("Inactive", 2)]
  | .stepRule => [("Direct", 0), ("Window", 1), ("MinStep", 2)]
  | .lineSearch => [("Exact", 0), ("Approx", 1)]
  | .parametricCauchy => [("Disabled", 0), ("Coarse", 1), ("Fine", 2)]
  | .initialTRChoice => [("Narrow", 0), ("Wide", 1)]
  | .augJacMethod => [("Auto", 0), ("Standard", 1), ("Reduced", 2), ("Direct", 3)]
  | .dualEstimationType => [("LP", 0), ("LSQ", 1)]

/-- Whether `enum_type(value)` succeeds. `DerivCheck` is a `Flag`, all combinations of whose five bits are members (types.pxi:37-46); for the
others the value must be that of a member. -/
def pyEnumHas (e : PyEnumType) (v : Nat) : Bool :=
  if e = .derivCheck then decide (v < 32) else (pyMembers e).any fun p => p.2 == v

/-- an object given to, or returned by, the settings -/
inductive PyArg where
  | none
  | bool (b : Bool)
  | int (n : Int)
  | real (x : Ext ℚ)
  | str (s : String)
  | member (e : PyEnumType) (v : Nat)
  deriving DecidableEq

/-- the truth value of an object in Python (members of an `Enum` are true, those of a `Flag` unless they are empty) -/
def PyArg.truth : PyArg → Bool
  | .none => false
  | .bool b => b
  | .int n => decide (n ≠ 0)
  | .real x => decide (x ≠ .fin 0)
  | .str s => decide (s ≠ "")
  | .member e v => decide (e ≠ .derivCheck ∨ v ≠ 0)

/-- The conversion to a C `int`. Whether numbers with a fractional part are converted depends on the versions of Python and Cython and is left
open: `ofReal` is that conversion. -/
def PyArg.asInt (ofReal : Ext ℚ → Option Int) : PyArg → Option Int
  | .bool b => some (if b then 1 else 0)
  | .int n => if -2 ^ 31 ≤ n ∧ n < 2 ^ 31 then some n else Option.none
  | .real x => (ofReal x).bind fun n => if -2 ^ 31 ≤ n ∧ n < 2 ^ 31 then some n else Option.none
  | _ => Option.none

/-- The conversion to a C `double`; integers are not rounded, and not too large. -/
def PyArg.asReal : PyArg → Option (Ext ℚ)
  | .bool b => some (.fin (if b then 1 else 0))
  | .int n => some (.fin n)
  | .real x => some x
  | _ => Option.none

/-- `_EnumConverter.from_py`, bindings/python/src/extension/settings.pxi:25-34: the value of a member (of whatever enumeration), else the value
of the member of that name. -/
def pyFromPy (e : PyEnumType) : PyArg → Option Nat
  | .member _ v => some v
  | .str s => (pyMembers e).lookup s
  | _ => Option.none

/-- `_Prop`, bindings/python/src/extension/settings.pxi:40-66: the kind and the number of a setting, with its enumeration -/
inductive PyAttr where
  | bool (k : Fin 8)
  | int (k : Fin 3)
  | enum (k : Fin 13) (e : PyEnumType)
  | real (k : Fin 15)

/-- `opt_prop_map`, bindings/python/src/extension/settings.pxi:69-115 with pub_settings.h:12-69 -/
def optPropMap : List (String × PyAttr) :=
  [("perform_newton_step", .bool 0), ("global_penalty_resets", .bool 1), ("perform_soc", .bool 2), ("use_quadratic_model", .bool 3),
    ("enable_restoration", .bool 5), ("enable_preprocessor", .bool 6), ("lp_resolves", .bool 7),
    ("num_quasi_newton_iterates", .int 0), ("max_newton_iterations", .int 1), ("num_threads", .int 2),
    ("deriv_check", .enum 0 .derivCheck), ("hessian_eval", .enum 1 .hessianEval), ("dual_estimation_type", .enum 2 .dualEstimationType),
    ("initial_tr_choice", .enum 11 .initialTRChoice), ("bfgs_sizing", .enum 5 .sizing), ("tr_solver", .enum 6 .trSolver),
    ("polishing_type", .enum 7 .polishingType), ("step_rule", .enum 8 .stepRule), ("linesearch", .enum 9 .lineSearch),
    ("parametric_cauchy", .enum 10 .parametricCauchy), ("aug_jac_method", .enum 12 .augJacMethod),
    ("zero_eps", .real 0), ("eps", .real 1), ("deriv_perturbation", .real 3), ("deriv_tol", .real 4), ("cauchy_tau", .real 5),
    ("cauchy_eta", .real 6), ("linesearch_tau", .real 7), ("linesearch_eta", .real 8), ("linesearch_cutoff", .real 9), ("feas_tol", .real 10),
    ("slack_tol", .real 11), ("stat_tol", .real 12), ("accepted_reduction", .real 13), ("deadpoint_bound", .real 14)]

/-- the part of `Settings.__setattr__` after the name has been found, bindings/python/src/extension/settings.pxi:167-188: the settings
afterwards, and whether no exception was raised -/
def PyAttr.set (ofReal : Ext ℚ → Option Int) (s : Settings) : PyAttr → PyArg → Settings × Bool
  | .int k, v =>
    match v.asInt ofReal with
    | some n => s.setInt k.val n
    | none => (s, false)
  | .real k, v =>
    match v.asReal with
    | some x => s.setReal k.val x
    | none => (s, false)
  | .enum k e, v =>
    match pyFromPy e v with
    | some n => s.setEnum k.val n
    | none => (s, false)
  | .bool k, v => s.setBool k.val v.truth

/-- the part of `Settings.__getattr__` after the name has been found, bindings/python/src/extension/settings.pxi:145-163 -/
def PyAttr.get (s : Settings) : PyAttr → Option PyArg
  | .int k => (s.intValue k.val).map .int
  | .real k => (s.realValue k.val).map .real
  | .enum k e => (s.enumValue k.val).bind fun v => if pyEnumHas e v then some (.member e v) else none
  | .bool k => (s.boolValue k.val).map .bool

/-- `Settings.__setattr__`, bindings/python/src/extension/settings.pxi:165-188. -/
def pySetAttr (ofReal : Ext ℚ → Option Int) (s : Settings) (name : String) (v : PyArg) : Settings × Bool :=
  match optPropMap.lookup name with
  | none => (s, false)
  | some a => a.set ofReal s v

/-- `Settings.__getattr__`, bindings/python/src/extension/settings.pxi:143-163. -/
def pyGetAttr (s : Settings) (name : String) : Option PyArg := (optPropMap.lookup name).bind fun a => a.get s

/-- `Settings(**values)`, bindings/python/src/extension/settings.pxi:118-125: `none` if an exception is raised. -/
def pySettings (allFlags errFlags : Nat) (ofReal : Ext ℚ → Option Int) (values : List (String × PyArg)) : Option Settings :=
  values.foldlM (fun (s : Settings) p => if (pySetAttr ofReal s p.1 p.2).2 then some (pySetAttr ofReal s p.1 p.2).1 else none)
    (settingsCreate allFlags errFlags)

/-- `Settings.props`, bindings/python/src/extension/settings.pxi:127-128. -/
def pyProps (s : Settings) : Option (List (String × PyArg)) := optPropMap.mapM fun p => (pyGetAttr s p.1).map fun v => (p.1, v)

end Sleqp
