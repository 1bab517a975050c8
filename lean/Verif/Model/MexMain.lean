import Verif.Model.Vec
import Verif.Model.Feas
import Verif.Model.WorkingSet
import Verif.Model.Solver
import Verif.Model.PyErrors

/-!
Model of the entry point of the MATLAB interface, `bindings/mex/mex_main.c`, and of the
results it returns, `bindings/mex/mex_output.c`.

Texts are lists of characters.  What a command does is a parameter; C93–C95, C108, C109 are
about that.
-/

namespace Sleqp

/-- `printf` with the conversions `%s` and `%d`, for arguments already printed; a conversion
without argument and any other conversion is undefined behaviour (`none`). -/
def printf : List Char → List (List Char) → Option (List Char)
  | [], _ => some []
  | '%' :: '%' :: r, args => (printf r args).map ('%' :: ·)
  | '%' :: 's' :: r, a :: args => (printf r args).map (a ++ ·)
  | '%' :: 'd' :: r, a :: args => (printf r args).map (a ++ ·)
  | '%' :: _, _ => none
  | c :: r, args => (printf r args).map (c :: ·)

/-- how a call from MATLAB ends -/
inductive MexReply (α : Type*)
  | returned (a : α)
  | raised (id : String) (msg : List Char)
  | undef

/-- `mexErrMsgIdAndTxt` with the text `fmt` and further arguments -/
def mexRaise {α : Type*} (id : String) (fmt : List Char) (args : List (List Char)) : MexReply α :=
  match printf fmt args with
  | some m => .raised id m
  | none => .undef

/-- the commands, bindings/mex/mex_main.c:86-90 -/
inductive MexCmd
  | info | solve | solveDyn | solveLsq
  deriving DecidableEq

/-- `MexCommand`, bindings/mex/mex_main.c:21-27 -/
structure MexCommand where
  name : String
  cmd : MexCmd
  nlhs : Nat
  nrhs : Nat
  deriving DecidableEq

/-- the table of commands, bindings/mex/mex_main.c:86-90, with the names in bindings/mex/mex_fields.h:17-20 -/
def mexCommands : List MexCommand :=
  [⟨"info", .info, 1, 0⟩, ⟨"solve", .solve, 2, 3⟩, ⟨"solve_dyn", .solveDyn, 2, 3⟩,
    ⟨"solve_lsq", .solveLsq, 2, 3⟩]

/-- `error_prefix`, bindings/mex/mex_main.c:55-79, with the identifiers in bindings/mex/mex_fields.h:4-15 -/
def mexIdent : ErrType → String
  | .failedAssertion => "SLEQP:FailedAssertion"
  | .noMem => "SLEQP:OutOfMemory"
  | .internalError => "SLEQP:InternalError"
  | .funcEvalError => "SLEQP:FuncEvalError"
  | .callbackError => "SLEQP:CallbackError"
  | .mathError => "SLEQP:MathError"
  | .invalidDeriv => "SLEQP:InvalidDeriv"
  | .illegalArgument => "SLEQP:IllegalArgument"

/-- `MEX_IDENTIFIER_DEFAULT`, bindings/mex/mex_fields.h:15 -/
def mexIdentDefault : String := "SLEQP:Error"

/-- an argument of the call: a text or anything else -/
inductive CallArg (β : Type*)
  | text (s : String)
  | other (b : β)

/-- how a command ends: with results, or with an error and the text of its message (before it
is stored) -/
inductive MexOutcome (α : Type*)
  | ok (a : α)
  | error (t : ErrType) (msg : List Char)

/-- the message as stored by `sleqp_set_error`, error.c:22-37: at most 2047 characters -/
def errText (msg : List Char) : List Char := msg.take 2047

/-- a number as printed by `%d` -/
def decText (n : Nat) : List Char := n.repr.toList

/-- `mexFunction`, bindings/mex/mex_main.c:81-161; the log handler is left out. -/
def mexFunction {α β : Type*} (nlhs : Nat) (args : List (CallArg β)) (run : MexCmd → List (CallArg β) → MexOutcome α) : MexReply α :=
  match args with
  | [] => mexRaise mexIdentDefault "Need at least one argument".toList []
  | .other _ :: _ => mexRaise mexIdentDefault "First argument needs to be a string".toList []
  | .text name :: rest =>
    if 256 ≤ name.length then mexRaise mexIdentDefault "Failed to extract command name".toList []
    else
      match mexCommands.find? fun c => decide (name = c.name) with
      | none => mexRaise mexIdentDefault "Invalid command %s".toList [name.toList]
      | some c =>
        if c.nlhs ≠ nlhs then
          mexRaise mexIdentDefault "Invalid number of return values for function '%s', expected %d, received %d".toList
            [name.toList, decText c.nlhs, decText nlhs]
        else if c.nrhs ≠ rest.length then
          mexRaise mexIdentDefault "Invalid number of parameters for function '%s', expected %d, received %d".toList
            [name.toList, decText c.nrhs, decText rest.length]
        else
          match run c.cmd rest with
          | .ok a => .returned a
          | .error t m => mexRaise (mexIdent t) (errText m) []

/-- the text of the error raised when a function of the user throws an exception with report
`report`, `MEX_CALL` in bindings/mex/mex_func_common.h:23-41 -/
def mexExceptionText (report : List Char) : List Char := "Exception '".toList ++ report.take 511 ++ "' in Matlab call".toList

/-- a value of `SLEQP_STATUS`, pub_types.h:62-73 -/
def SStatus.code : SStatus → Nat
  | .unknown => 0
  | .running => 1
  | .optimal => 2
  | .infeasible => 3
  | .unbounded => 4
  | .abortDeadpoint => 5
  | .abortIter => 6
  | .abortManual => 7
  | .abortTime => 8

/-- a value of `SLEQP_ACTIVE_STATE`, pub_types.h:46-60 -/
def ActiveState.code : ActiveState → Nat
  | .inactive => 0
  | .lower => 1
  | .upper => 2
  | .both => 1 ||| 2

/-- the entries of the class `Status` generated for MATLAB, types.c:10-22, bindings/mex/gen_enums.c:10-21 -/
def statusEntries : List (String × Nat) :=
  [("Unknown", SStatus.unknown.code), ("Running", SStatus.running.code), ("Optimal", SStatus.optimal.code),
    ("Infeasible", SStatus.infeasible.code), ("Unbounded", SStatus.unbounded.code),
    ("AbortDeadpoint", SStatus.abortDeadpoint.code), ("AbortIter", SStatus.abortIter.code),
    ("AbortManual", SStatus.abortManual.code), ("AbortTime", SStatus.abortTime.code)]

/-- the entries of the class `ActiveState`, types.c:3-8 -/
def activeStateEntries : List (String × Nat) :=
  [("Inactive", ActiveState.inactive.code), ("Lower", ActiveState.lower.code), ("Upper", ActiveState.upper.code)]

/-- the fields of a structure, each with a column of numbers or nothing so far -/
abbrev MxStruct (K : Type*) := List (String × Option (List K))

/-- `mxSetField(info, 0, name, array)`: without effect if there is no such field -/
def MxStruct.set {K : Type*} (s : MxStruct K) (name : String) (v : List K) : MxStruct K :=
  s.map fun f => if f.1 = name then (f.1, some v) else f

/-- the names of the fields, bindings/mex/mex_output.c:84-91 with bindings/mex/mex_fields.h:60-67 -/
def outputNames : List String :=
  ["primal", "cons_dual", "vars_dal", "elapsed", "iterations", "status", "working_vars", "working_cons"]

variable {K : Type*} [Field K] [LinearOrder K]

/-- `mex_create_solver_output`, bindings/mex/mex_output.c:78-134 (with `create_working_set_output`,
bindings/mex/mex_output.c:41-76): the solution and the structure.  A scalar is a column of length one. -/
def mexOutput (numVars numCons : Nat) (it : Iterate K) (w : WSet) (elapsed : K) (iterations : Nat) (status : SStatus) :
    List K × MxStruct K :=
  let s : MxStruct K := outputNames.map fun n => (n, none)
  let s := s.set "primal" it.primal.toRaw
  let s := s.set "cons_dual" it.consDual.toRaw
  let s := s.set "vars_dal" it.varsDual.toRaw
  let s := s.set "elapsed" [elapsed]
  let s := s.set "iterations" [(iterations : K)]
  let s := s.set "status" [(status.code : K)]
  let s := s.set "working_vars" ((List.range numVars).map fun j => ((w.varState j).code : K))
  let s := s.set "working_cons" ((List.range numCons).map fun i => ((w.consState i).code : K))
  (it.primal.toRaw, s)

end Sleqp
