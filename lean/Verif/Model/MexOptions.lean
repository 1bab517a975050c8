import Verif.Model.Mex
import Verif.Model.Settings
import Mathlib.Data.Rat.Floor

/-! Model of the options of the MATLAB interface, `/repo/bindings/mex/mex_solve_common.c`. -/

namespace Sleqp

/-- the structure of options: `mxGetField(options, 0, name)` -/
abbrev MexOpts := List Char → Option (MxArray (Ext ℚ))

/-- `read_option_entry`, bindings/mex/mex_solve_common.c:64-94: the number, if there is one. -/
def mexOptionEntry (opts : MexOpts) (name : List Char) : MexRes (Option (Ext ℚ)) :=
  match opts name with
  | none => .ok none
  | some (.cell _) => .err
  | some (.leaf a) =>
    if a.isDouble then
      if a.elements = 1 then (MexRes.ofOption (a.pr 0)).bind fun x => .ok (some x) else .err
    else .err

/-- `read_values`, bindings/mex/mex_solve_common.c:98-121. -/
def mexReadValues {n : Nat} (opts : MexOpts) (set : Settings → Fin n → Ext ℚ → MexRes Settings) :
    List (List Char × Fin n) → Settings → MexRes Settings
  | [], s => .ok s
  | (name, key) :: rest, s =>
    (mexOptionEntry opts name).bind fun
      | none => mexReadValues opts set rest s
      | some x => (set s key x).bind fun s' => mexReadValues opts set rest s'

/-- the return code of a setter -/
def mexOfSetter (r : Settings × Bool) : MexRes Settings := if r.2 then .ok r.1 else .err

/-- The conversion `(int) value`: towards zero, undefined for NaN and for values out of the range of 32 bit numbers. -/
def cInt : Ext ℚ → Option Int
  | .fin q =>
    let z := if 0 ≤ q then ⌊q⌋ else ⌈q⌉
    if -2 ^ 31 ≤ z ∧ z < 2 ^ 31 then some z else none
  | _ => none

/-- the bits of a 32 bit number -/
def cBits (z : Int) : Nat := (z % 2 ^ 32).toNat

/-- `param_names`, bindings/mex/mex_solve_common.c:19-35, with the names of bindings/mex/mex_fields.h:69-83 -/
def mexRealTable : List (List Char × Fin 15) :=
  [("zero_eps".toList, 0), ("eps".toList, 1), ("obj_lower".toList, 2), ("deriv_pert".toList, 3), ("deriv_tol".toList, 4),
    ("cauchy_tau".toList, 5), ("cauchy_eta".toList, 6), ("linesearch_tau".toList, 7), ("linesearch_eta".toList, 8),
    ("linesearch_cutoff".toList, 9), ("feas_tol".toList, 10), ("slack_tol".toList, 11), ("stat_tol".toList, 12),
    ("accepted_reduction".toList, 13), ("deadpoint_bound".toList, 14)]

/-- `enum_option_names`, bindings/mex/mex_solve_common.c:37-48, with the names of bindings/mex/mex_fields.h:85-95 -/
def mexEnumTable : List (List Char × Fin 13) :=
  [("deriv_check".toList, 0), ("hess_eval".toList, 1), ("dual_estimation_type".toList, 2), ("bfgs_sizing".toList, 5), ("tr_solver".toList, 6),
    ("polishing_type".toList, 7), ("step_rule".toList, 8), ("linesearch".toList, 9), ("parametric_cauchy".toList, 10),
    ("initial_tr_choice".toList, 11), ("aug_jac_method".toList, 12)]

/-- `int_option_names`, bindings/mex/mex_solve_common.c:50-53, with the names of bindings/mex/mex_fields.h:97-99 -/
def mexIntTable : List (List Char × Fin 3) :=
  [("num_quasi_newton_iterates".toList, 0), ("max_newton_iterations".toList, 1), ("num_threads".toList, 2)]

/-- `bool_option_names`, bindings/mex/mex_solve_common.c:55-62, with the names of bindings/mex/mex_fields.h:101-107 -/
def mexBoolTable : List (List Char × Fin 8) :=
  [("perform_newton_step".toList, 0), ("global_penalty_resets".toList, 1), ("perform_soc".toList, 2), ("use_quadratic_model".toList, 3),
    ("always_warm_start_lp".toList, 4), ("enable_restoration_phase".toList, 5), ("enable_preprocessor".toList, 6)]

/-- `set_option_real_value`, bindings/mex/mex_solve_common.c:123-127 -/
def mexSetReal (s : Settings) (k : Fin 15) (x : Ext ℚ) : MexRes Settings := mexOfSetter (s.setReal k.val x)

/-- `set_option_bool_value`, bindings/mex/mex_solve_common.c:142-146 -/
def mexSetBool (s : Settings) (k : Fin 8) (x : Ext ℚ) : MexRes Settings := mexOfSetter (s.setBool k.val (decide (x ≠ .fin 0)))

/-- `set_option_int_value`, bindings/mex/mex_solve_common.c:148-152 -/
def mexSetInt (s : Settings) (k : Fin 3) (x : Ext ℚ) : MexRes Settings :=
  (MexRes.ofOption (cInt x)).bind fun z => mexOfSetter (s.setInt k.val z)

/-- `set_option_enum_value`, bindings/mex/mex_solve_common.c:154-158 -/
def mexSetEnum (s : Settings) (k : Fin 13) (x : Ext ℚ) : MexRes Settings :=
  (MexRes.ofOption (cInt x)).bind fun z => mexOfSetter (s.setEnum k.val (cBits z))

/-- `read_params`, bindings/mex/mex_solve_common.c:129-140, and `read_options`, bindings/mex/mex_solve_common.c:160-193, as called by `mex_solve`,
bindings/mex/mex_solve_common.c:286-334. -/
def mexReadOptions (opts : MexOpts) (s : Settings) : MexRes Settings :=
  (mexReadValues opts mexSetReal mexRealTable s).bind fun s =>
  (mexReadValues opts mexSetBool mexBoolTable s).bind fun s =>
  (mexReadValues opts mexSetInt mexIntTable s).bind fun s =>
  mexReadValues opts mexSetEnum mexEnumTable s

end Sleqp
