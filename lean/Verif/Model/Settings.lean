import Mathlib.Data.Fin.VecNotation
import Mathlib.Data.Rat.Defs
import Mathlib.Data.List.FinRange
import Verif.Model.Ext

/-!
Model of `/repo/src/main/settings.c`, `/repo/src/main/enum.c` and of the enumerations of `/repo/src/main/types.c` it uses.

A C `int` is an `Int`, except for the values of enumeration settings, which take part in bitwise operations: these are given by
their bit pattern read as an unsigned number, so that −1 is `2 ^ 32 - 1`.
A C `double` is an `Ext ℚ`; the decimal defaults are the exact rationals, without rounding to a double.
-/

namespace Sleqp

/-- `SleqpEnum`, enum.h:12-19; the list of entries ends where the C array has its `NULL` name. -/
structure CEnum where
  flags : Bool
  entries : List (List Char × Nat)

/-- `enum_member`, enum.c:7-21. -/
def enumMember : List (List Char × Nat) → Nat → Bool
  | [], _ => false
  | e :: es, value => if e.2 = value then true else enumMember es value

/-- the loop of `flags_member`, enum.c:23-39 -/
def flagsLoop (value : Nat) : List (List Char × Nat) → Nat → Nat
  | [], actual => actual
  | e :: es, actual => flagsLoop value es (if value &&& e.2 ≠ 0 then actual ||| e.2 else actual)

/-- `flags_member`, enum.c:23-39. -/
def flagsMember (es : List (List Char × Nat)) (value : Nat) : Bool := value = flagsLoop value es 0

/-- `sleqp_enum_member`, enum.c:41-50. -/
def cenumMember (e : CEnum) (value : Nat) : Bool :=
  if e.flags then flagsMember e.entries value else enumMember e.entries value

/-- `deriv_check_enum`, types.c:24-33 with pub_types.h:90-101 -/
def derivCheckEnum : CEnum :=
  ⟨true, [("Skip".toList, 0), ("FirstObj".toList, 1), ("FirstCons".toList, 2), ("SecondSimple".toList, 4), ("SecondObj".toList, 8),
    ("SecondCons".toList, 16)]⟩

/-- `hess_eval_enum`, types.c:35-42 -/
def hessEvalEnum : CEnum :=
  ⟨false, [("Exact".toList, 0), ("SR1".toList, 1), ("SimpleBFGS".toList, 2), ("DampedBFGS".toList, 3)]⟩

/-- `bfgs_sizing_enum`, types.c:44-49 -/
def bfgsSizingEnum : CEnum := ⟨false, [("None".toList, 0), ("CenteredOL".toList, 1)]⟩

/-- `dual_estimation_enum`, types.c:61-67 -/
def dualEstimationEnum : CEnum := ⟨false, [("LP".toList, 0), ("LSQ".toList, 1), ("Mixed".toList, 2)]⟩

/-- `tr_solver_enum`, types.c:69-76 -/
def trSolverEnum : CEnum := ⟨false, [("Trlib".toList, 0), ("CG".toList, 1), ("LSQR".toList, 2), ("Auto".toList, 3)]⟩

/-- `polishing_enum`, types.c:78-84 -/
def polishingEnum : CEnum := ⟨false, [("None".toList, 0), ("ZeroDual".toList, 1), ("Inactive".toList, 2)]⟩

/-- `parametric_cauchy_enum`, types.c:86-92 -/
def parametricCauchyEnum : CEnum := ⟨false, [("Disabled".toList, 0), ("Coarse".toList, 1), ("Fine".toList, 2)]⟩

/-- `initial_tr_enum`, types.c:94-99 -/
def initialTrEnum : CEnum := ⟨false, [("Narrow".toList, 0), ("Wide".toList, 1)]⟩

/-- `linesearch_enum`, types.c:101-106 -/
def linesearchEnum : CEnum := ⟨false, [("Exact".toList, 0), ("Approx".toList, 1)]⟩

/-- `step_rule_enum`, types.c:108-114 -/
def stepRuleEnum : CEnum := ⟨false, [("Direct".toList, 0), ("Window".toList, 1), ("Minstep".toList, 2)]⟩

/-- `aug_jac_type_enum`, types.c:116-123 -/
def augJacEnum : CEnum := ⟨false, [("Auto".toList, 0), ("Standard".toList, 1), ("Reduced".toList, 2), ("Direct".toList, 3)]⟩

/-- `get_enum`, settings.c:355-389; `none` for the two settings without an enumeration. -/
def getEnum : Fin 13 → Option CEnum :=
  ![some derivCheckEnum, some hessEvalEnum, some dualEstimationEnum, none, none, some bfgsSizingEnum, some trSolverEnum,
    some polishingEnum, some stepRuleEnum, some linesearchEnum, some parametricCauchyEnum, some initialTrEnum, some augJacEnum]

/-- names of the enumeration settings, settings.c:94-129 -/
def enumName : Fin 13 → List Char :=
  !["deriv_check".toList, "hess_eval".toList, "dual_estimation_type".toList, "float_warning_flags".toList,
    "float_error_flags".toList, "bfgs_sizing".toList, "tr_solver".toList, "polishing_type".toList, "step_rule".toList,
    "linesearch".toList, "parametric_cauchy".toList, "initial_tr_choice".toList, "augmented Jacobian method".toList]

/-- names of the real settings, settings.c:131-185 -/
def realName : Fin 15 → List Char :=
  !["zero_eps".toList, "eps".toList, "obj_lower".toList, "deriv_perturbation".toList, "deriv_tol".toList, "cauchy_tau".toList,
    "cauchy_eta".toList, "linesearch_tau".toList, "linesearch_eta".toList, "linesearch_cutoff".toList, "feas_tol".toList,
    "slack_tol".toList, "stat_tol".toList, "accepted_reduction".toList, "deadpoint_bound".toList]

/-- names of the integer settings, settings.c:219-232 -/
def intName : Fin 3 → List Char :=
  !["num_quasi_newton_iterates".toList, "max_newton_iterations".toList, "num_threads".toList]

/-- names of the Boolean settings, settings.c:250-274 -/
def boolName : Fin 8 → List Char :=
  !["perform_newton_step".toList, "global_penalty_resets".toList, "perform_soc".toList, "use_quadratic_model".toList,
    "always_warm_start_lp".toList, "enable_restoration_phase".toList, "enable_preprocessor".toList, "lp_resolves".toList]

/-- `struct SleqpSettings`, settings.c:75-86 (without the reference count and the two unused members) -/
structure Settings where
  enums : Fin 13 → Nat
  ints : Fin 3 → Int
  bools : Fin 8 → Bool
  reals : Fin 15 → Ext ℚ

/-- `sleqp_settings_create`, settings.c:292-353, with the defaults of settings.c:21-62. `allFlags` is `FE_ALL_EXCEPT` and
`errFlags` is `FE_OVERFLOW | FE_DIVBYZERO | FE_INVALID` of the platform. -/
def settingsCreate (allFlags errFlags : Nat) : Settings :=
  { enums := ![0, 0, 1, allFlags, errFlags, 1, 3, 1, 0, 1, 0, 0, 0]
    ints := ![5, 100, -1]
    bools := ![true, true, true, true, true, true, false, true]
    reals := ![.fin (1 / 10 ^ 20), .fin (1 / 10 ^ 10), .fin (-10 ^ 20), .fin (1 / 10 ^ 8), .fin (1 / 10 ^ 4), .fin (1 / 2),
      .fin (1 / 10), .fin (1 / 2), .fin (1 / 10 ^ 4), .fin (1 / 10 ^ 6), .fin (1 / 10 ^ 6), .fin (1 / 10 ^ 6),
      .fin (1 / 10 ^ 6), .fin (1 / 10 ^ 8), .fin (1 / 10 ^ 12)] }

/-- `OPT_VALID`, settings.c:404-405, together with the array access it protects. -/
def optIdx (n : Nat) (key : Int) : Option (Fin n) := if h : 0 ≤ key ∧ key < n then some ⟨key.toNat, by omega⟩ else none

/-- `valid_member`, settings.c:391-402. -/
def validMember (k : Fin 13) (value : Nat) : Bool :=
  match getEnum k with
  | none => true
  | some e => cenumMember e value

/-- replace one array element -/
def arrSet {n : Nat} {V : Type} (a : Fin n → V) (k : Fin n) (v : V) : Fin n → V := fun j => if j = k then v else a j

namespace Settings

/-- `sleqp_settings_real_value`, settings.c:407-417; `none` when the error is raised (the C function then returns the number −1). -/
def realValue (s : Settings) (key : Int) : Option (Ext ℚ) := (optIdx 15 key).map s.reals

/-- `sleqp_settings_enum_value`, settings.c:434-444; `none` when the error is raised. -/
def enumValue (s : Settings) (key : Int) : Option Nat := (optIdx 13 key).map s.enums

/-- `sleqp_settings_int_value`, settings.c:504-514; `none` when the error is raised. -/
def intValue (s : Settings) (key : Int) : Option Int := (optIdx 3 key).map s.ints

/-- `sleqp_settings_bool_value`, settings.c:531-541; `none` when the error is raised (the C function then returns `true`). -/
def boolValue (s : Settings) (key : Int) : Option Bool := (optIdx 8 key).map s.bools

/-- `sleqp_settings_set_real_value`, settings.c:419-432: the new settings and whether the call succeeded. -/
def setReal (s : Settings) (key : Int) (v : Ext ℚ) : Settings × Bool :=
  match optIdx 15 key with
  | none => (s, false)
  | some k => ({ s with reals := arrSet s.reals k v }, true)

/-- `sleqp_settings_set_enum_value`, settings.c:446-467. -/
def setEnum (s : Settings) (key : Int) (v : Nat) : Settings × Bool :=
  match optIdx 13 key with
  | none => (s, false)
  | some k => if validMember k v then ({ s with enums := arrSet s.enums k v }, true) else (s, false)

/-- the search by name in `sleqp_settings_set_enum_value_from_string`, settings.c:469-502 -/
def findNamed : List (List Char × Nat) → List Char → Option Nat
  | [], _ => none
  | e :: es, name => if e.1 = name then some e.2 else findNamed es name

/-- `sleqp_settings_set_enum_value_from_string`, settings.c:469-502. -/
def setEnumStr (s : Settings) (key : Int) (name : List Char) : Settings × Bool :=
  match optIdx 13 key with
  | none => (s, false)
  | some k =>
    match getEnum k with
    | none => (s, false)
    | some e =>
      match findNamed e.entries name with
      | some v => ({ s with enums := arrSet s.enums k v }, true)
      | none => (s, false)

/-- `sleqp_settings_set_int_value`, settings.c:516-529. -/
def setInt (s : Settings) (key : Int) (v : Int) : Settings × Bool :=
  match optIdx 3 key with
  | none => (s, false)
  | some k => ({ s with ints := arrSet s.ints k v }, true)

/-- `sleqp_settings_set_bool_value`, settings.c:543-556. -/
def setBool (s : Settings) (key : Int) (v : Bool) : Settings × Bool :=
  match optIdx 8 key with
  | none => (s, false)
  | some k => ({ s with bools := arrSet s.bools k v }, true)

end Settings

/-- one call of an updating function -/
inductive Upd where
  | real (key : Int) (v : Ext ℚ)
  | enum (key : Int) (v : Nat)
  | enumStr (key : Int) (name : List Char)
  | int (key : Int) (v : Int)
  | bool (key : Int) (v : Bool)

/-- perform one update -/
def Settings.upd (s : Settings) : Upd → Settings × Bool
  | .real k v => s.setReal k v
  | .enum k v => s.setEnum k v
  | .enumStr k n => s.setEnumStr k n
  | .int k v => s.setInt k v
  | .bool k v => s.setBool k v

/-- perform a sequence of updates, going on after a refused one -/
def Settings.updAll (s : Settings) (us : List Upd) : Settings := us.foldl (fun s u => (s.upd u).1) s

/-! ### Settings files -/

/-- `isspace` in the C locale -/
def isSpace (c : Char) : Bool :=
  c == ' ' || c == '\t' || c == '\n' || c == Char.ofNat 11 || c == Char.ofNat 12 || c == '\r'

/-- `trim`, settings.c:560-582. The first loop only advances the local pointer, so leading white space stays in the buffer; a
buffer of white space only is left alone. -/
def trim (s : List Char) : List Char :=
  if s.dropWhile isSpace = [] then s else (s.reverse.dropWhile isSpace).reverse

/-- result of `extract_key_value` -/
inductive KV where
  | skip
  | assertion
  | pair (key value : List Char)
deriving DecidableEq

/-- `extract_key_value`, settings.c:584-644. Its two tests `!begin` are tests of a pointer that is never `NULL`, so `error` is
never set. `debug` is false when assertions are compiled out. Lines are assumed to fit into the buffer of 1024 characters. -/
def extractKeyValue (debug : Bool) (buffer : List Char) : KV :=
  let b := trim buffer
  if b = [] then .skip
  else if b.head? = some '#' then .skip
  else
    let key := b.takeWhile (fun c => !isSpace c)
    let rest := b.dropWhile (fun c => !isSpace c)
    if debug && rest.isEmpty then .assertion
    else .pair key ((rest.dropWhile isSpace).takeWhile (fun c => !isSpace c))

/-- `strtol` and `strtod`: the number and whether all characters were consumed -/
structure Parsers where
  int : List Char → Int × Bool
  real : List Char → Ext ℚ × Bool

/-- the value of a Boolean in `settings_set_key_value`, settings.c:646-740 -/
def parseBool (value : List Char) : Option Bool :=
  if value = "1".toList ∨ value = "true".toList then some true
  else if value = "0".toList ∨ value = "false".toList then some false
  else none

/-- the loop over the enumerations in `settings_set_key_value`, settings.c:646-740: the new settings and the error flag -/
def setKeyEnum (s : Settings) (key value : List Char) : Settings × Bool :=
  match (List.finRange 13).find? (fun i => enumName i = key) with
  | none => (s, false)
  | some i =>
    match getEnum i with
    | none => (s, true)
    | some e =>
      match Settings.findNamed e.entries value with
      | none => (s, true)
      | some v => ((s.setEnum i.val v).1, false)

/-- `settings_set_key_value`, settings.c:646-740: the new settings and the error flag. The setters are called with valid keys and
members, so their return codes are not modelled. -/
def setKeyValue (p : Parsers) (s : Settings) (key value : List Char) : Settings × Bool :=
  match (List.finRange 3).find? (fun i => intName i = key) with
  | some i => if (p.int value).2 then ((s.setInt i.val (p.int value).1).1, false) else (s, true)
  | none =>
    match (List.finRange 15).find? (fun i => realName i = key) with
    | some i => if (p.real value).2 then ((s.setReal i.val (p.real value).1).1, false) else (s, true)
    | none =>
      match (List.finRange 8).findSome? (fun i => if boolName i = key then (parseBool value).map (fun v => (i, v)) else none) with
      | some iv => ((s.setBool iv.1.val iv.2).1, false)
      | none => setKeyEnum s key value

/-- how reading a file ends -/
inductive ReadRet where
  | okay
  | error
  | assertion
deriving DecidableEq

/-- the loop over the lines in `sleqp_settings_read_file`, settings.c:742-803 -/
def readLines (p : Parsers) (debug : Bool) (s : Settings) : List (List Char) → Settings × ReadRet
  | [] => (s, .okay)
  | l :: ls =>
    match extractKeyValue debug l with
    | .assertion => (s, .assertion)
    | .skip => readLines p debug s ls
    | .pair key value =>
      if (setKeyValue p s key value).2 then ((setKeyValue p s key value).1, .error)
      else readLines p debug (setKeyValue p s key value).1 ls

end Sleqp
