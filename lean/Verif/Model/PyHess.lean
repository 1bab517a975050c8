import Verif.Model.HessStruct

/-!
Model of how the block structure of a Hessian is set from Python: the method `set_hessian_struct` of a function, called by the
constructors of problems (`/repo/bindings/python/src/extension/problem.pxi`) with a `HessianStruct`
(`/repo/bindings/python/src/extension/hess_struct.pxi`), and how the structure is handed on to the functions a solver wraps around that
of the user.
-/

namespace Sleqp
namespace PyHess

/-- kinds of problems: `Problem`, `LSQProblem` and `DynProblem`, problem.pxi:261-484 -/
inductive Kind
  | plain
  | lsq
  | dyn
  deriving DecidableEq

/-- exceptions, as far as they are told apart: `AttributeError`, `ValueError` (an illegal argument, call.pxi:16-25), all others -/
inductive Exc
  | attribute
  | value
  | other
  deriving DecidableEq

/-- What a method does with the structure, one step after the other. Reading from the structure has no effect and is left out. -/
inductive Cmd
  /-- `hess_struct.clear()`, hess_struct.pxi:14-15 -/
  | clear
  /-- `hess_struct.push(end)`, hess_struct.pxi:17-18; `caught` says whether the method catches an exception raised by this call -/
  | push (e : Int) (caught : Bool)
  /-- an exception which leaves the method -/
  | raise (x : Exc)
  deriving DecidableEq

/-- the body of a method: the structure afterwards and the exception that left it. An access outside of the array is not an exception; it does not
occur on valid structures (`C130_valid_partial`). -/
def runCmds (h : HessStruct) : List Cmd → Except HErr (HessStruct × Option Exc)
  | [] => .ok (h, none)
  | .clear :: cs => runCmds h.clear cs
  | .raise x :: _ => .ok (h, some x)
  | .push e caught :: cs =>
    match h.pushBlock e with
    | .ok h' => runCmds h' cs
    | .error .illegalArgument => if caught then runCmds h cs else .ok (h, some .value)
    | .error .outOfBounds => .error .outOfBounds

/-- Outcome of a constructor: a problem with its block structure, or an exception. -/
inductive Made
  | made (h : HessStruct)
  | raised (x : Exc)
  | undefined
  deriving DecidableEq

/-- `except AttributeError: pass`, problem.pxi:314-317, 396-399, 468-471 -/
def afterHook : Except HErr (HessStruct × Option Exc) → Made
  | .error _ => .undefined
  | .ok (h, none) => .made h
  | .ok (h, some .attribute) => .made h
  | .ok (_, some x) => .raised x

/-- `__cinit__` of the three classes, problem.pxi:264-317, 342-399, 419-471, as far as the structure is concerned: the function is created with
a single block (func.c:73-74), then the method is called if there is one (`hook`). `LSQProblem` has no property `hess_struct`
(problem.pxi:334-406, unlike the two other classes), so the argument of the call already raises an `AttributeError`. Everything that can fail earlier
(creation of function and problem) is taken to succeed. Not modelled: subclasses of `LSQProblem` which add the property. -/
def makeProblem (k : Kind) (n : Nat) (hook : Option (List Cmd)) : Made :=
  match HessStruct.create n false with
  | .error _ => .undefined
  | .ok h =>
    match hook with
    | none => afterHook (.ok (h, some .attribute))
    | some cs => if k = .lsq then afterHook (.ok (h, some .attribute)) else afterHook (runCmds h cs)

/-- A function wrapped around another one of the same dimension: created with a single block, then given a copy of the structure
(problem_scaling.c:341-376, quasi_newton/bfgs.c:828-859, quasi_newton/sr1.c:680-710). -/
def wrap (n : Nat) (h : HessStruct) : Except HErr HessStruct :=
  match HessStruct.create n false with
  | .error x => .error x
  | .ok t => HessStruct.copy h t

/-- `depth` functions wrapped around each other: none, or one each for scaling and for quasi-Newton updates -/
def wraps (n : Nat) : Nat → HessStruct → Except HErr HessStruct
  | 0, h => .ok h
  | depth + 1, h =>
    match wrap n h with
    | .error x => .error x
    | .ok h' => wraps n depth h'

end PyHess
end Sleqp
