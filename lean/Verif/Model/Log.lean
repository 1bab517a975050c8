import Mathlib.Tactic.TypeStar

/-!
Model of logging: `log.c`, the macros in `pub_log.h`, and the logger of the Python interface,
`bindings/python/src/extension/log.pxi`.

Times and the formatting of messages are left out: a message is the text after formatting.  The
library is used from one thread.
-/

namespace Sleqp

/-- the levels of messages, pub_log.h:17-25 -/
inductive LogLevel
  | error | warn | info | debug
  deriving DecidableEq, Repr

/-- `SLEQP_LOG_LEVEL`, pub_log.h:17-25 -/
def LogLevel.code : LogLevel → Int
  | .error => 1
  | .warn => 2
  | .info => 3
  | .debug => 4

/-- the static variables `level` and `handler` of log.c -/
structure LogState (H : Type*) where
  level : Int
  handler : H

/-- what happens: the level or the handler is set, or the library logs a message, possibly with
the place in the source -/
inductive LogOp (H : Type*)
  | setLevel (v : Int)
  | setHandler (h : H)
  | msg (l : LogLevel) (text : List Char)
  | trace (l : LogLevel) (file : List Char) (line : Nat) (text : List Char)

/-- the text passed on by `sleqp_log_msg_level`, log.c:89-103: a buffer of 2048 characters -/
def logText (text : List Char) : List Char := text.take 2047

/-- the text passed on by `sleqp_log_trace_level`, log.c:111-137 (without format codes): a buffer
of 4096 characters -/
def traceText (file : List Char) (line : Nat) (text : List Char) : List Char :=
  (file ++ ':' :: line.repr.toList ++ ' ' :: logText text).take 4095

/-- one operation: `sleqp_log_set_level`, log.c:39-43, `sleqp_log_set_handler`, log.c:105-109, the
macros in pub_log.h:64-80; the new state and the calls of handlers -/
def LogState.step {H : Type*} (s : LogState H) : LogOp H → LogState H × List (H × LogLevel × List Char)
  | .setLevel v => ({ s with level := v }, [])
  | .setHandler h => ({ s with handler := h }, [])
  | .msg l t => (s, if s.level ≥ l.code then [(s.handler, l, logText t)] else [])
  | .trace l f n t => (s, if s.level ≥ l.code then [(s.handler, l, traceText f n t)] else [])

/-- a history -/
def LogState.run {H : Type*} (s : LogState H) : List (LogOp H) → LogState H × List (H × LogLevel × List Char)
  | [] => (s, [])
  | o :: os =>
    let r := (s.step o).1.run os
    (r.1, (s.step o).2 ++ r.2)

/-! ### Python -/

/-- handlers: `builtin_handler`, log.c:68-85, which prints to the error stream, and
`sleqp_python_handler`, bindings/python/src/extension/log.pxi:5-19 -/
inductive PyLogHandler
  | builtin | python
  deriving DecidableEq

/-- the levels of messages in Python, bindings/python/src/extension/log.pxi:8-13: `logging.ERROR` is 40,
`logging.WARNING` 30, `logging.INFO` 20, `logging.DEBUG` 10 -/
def LogLevel.python : LogLevel → Int
  | .error => 40
  | .warn => 30
  | .info => 20
  | .debug => 10

/-- the levels of loggers known to `setLevel`, bindings/python/src/extension/log.pxi:44-51: `logging.CRITICAL` is 50,
`logging.NOTSET` is 0 -/
def pyLogLevel : Int → Option Int
  | 10 => some 4
  | 50 => some 1
  | 40 => some 1
  | 30 => some 2
  | 20 => some 3
  | 0 => some 4
  | _ => none

/-- the logger `sleqp_logger` and the library: `ours` whether it is a `SleqpLogger`, `level` the level
of the logger -/
structure PyLog where
  lib : LogState PyLogHandler
  ours : Bool
  level : Int

/-- Import of the module, bindings/python/src/extension/log.pxi:35-63: `logging.getLogger` returns the logger named `sleqp` if
there is one already (with level `existing`), otherwise a `SleqpLogger` is created, which installs the handler and sets
the level `NOTSET`; `lib` is the level of the library when it is loaded. -/
def PyLog.load (lib : Int) (existing : Option Int) : PyLog :=
  match existing with
  | some lv => ⟨⟨lib, .builtin⟩, false, lv⟩
  | none => ⟨⟨4, .python⟩, true, 0⟩

/-- `setLevel`, bindings/python/src/extension/log.pxi:41-55; the Boolean tells whether the assertion fails -/
def PyLog.setLevel (s : PyLog) (lv : Int) : PyLog × Bool :=
  if s.ours then
    match pyLogLevel lv with
    | some c => ({ s with level := lv, lib := { s.lib with level := c } }, false)
    | none => ({ s with level := lv }, true)
  else ({ s with level := lv }, false)

/-- a history of levels set; errors are caught -/
def PyLog.setLevels (s : PyLog) (l : List Int) : PyLog := l.foldl (fun s lv => (s.setLevel lv).1) s

/-- where a message goes -/
inductive PyLogOut
  | stderr (l : LogLevel) (text : List Char)
  | record (level : Int) (text : List Char)
  deriving DecidableEq

/-- The library logs a message: `sleqp_python_handler`, bindings/python/src/extension/log.pxi:5-19, and `Logger.log` of Python:
the record is made if its level is not below the effective level of the logger, which is its own, or that of its parents
(`parent`) if its own is `NOTSET`. -/
def PyLog.message (s : PyLog) (parent : Int) (l : LogLevel) (text : List Char) : List PyLogOut :=
  ((s.lib.step (.msg l text)).2).flatMap fun d =>
    match d.1 with
    | .builtin => [.stderr d.2.1 d.2.2]
    | .python => if d.2.1.python ≥ (if s.level = 0 then parent else s.level) then [.record d.2.1.python d.2.2] else []

end Sleqp
