import Mathlib.Data.Nat.Notation

/-!
Model of the state shared by several threads using the library: `/repo/src/main/error.c`, `/repo/src/main/log.c` and the reference counts of
objects.

Threads are numbered by `ι`, objects (settings, functions, problems, solvers) by `ο`. Memory is sequentially consistent. A reference count is
read and written in two steps: `++refcount` and `--refcount` act on a plain `int` (settings.c:823, 838; func.c:468, 483; problem.c:754, 769).
Errors are numbers, and times are what `localtime` makes of them. Level and handler of messages, which are global on purpose, are left out.
Locking a mutex does not fail.
-/

namespace Sleqp

/-- what a thread may do -/
inductive TCall (ο : Type)
  /-- `sleqp_set_error`, error.c:22-37 -/
  | setError (e : ℕ)
  /-- `sleqp_error_msg`, error.c:10-14, `sleqp_error_type`, error.c:16-20 -/
  | readError
  /-- e.g. `sleqp_settings_capture`, settings.c:820-826 -/
  | capture (o : ο)
  /-- e.g. `sleqp_settings_release`, settings.c:828-846 -/
  | release (o : ο)
  /-- any other use of an object -/
  | use (o : ο)
  /-- `localtime_synced`, log.c:45-66, called by `builtin_handler`, log.c:68-85, for the time `t` -/
  | log (t : ℕ)
deriving DecidableEq, Repr

/-- what a thread gets to see: an error, whether an object it used still exists, the time of a message -/
inductive Seen
  | error (e : Option ℕ)
  | exists? (b : Bool)
  | time (t : ℕ)
deriving DecidableEq, Repr

/-- where a thread is: between calls; having read a count that it will increase or decrease; in `localtime_synced`, having locked the mutex,
called `localtime`, copied the result -/
inductive TStage (ο : Type)
  | idle
  | inc (o : ο) (v : Int)
  | dec (o : ο) (v : Int)
  | locked (t : ℕ)
  | converted (t : ℕ)
  | copied (t : ℕ)
deriving DecidableEq, Repr

/-- a thread: calls to come, stage, thread-local error (error.c:7-8), what it has seen -/
structure TThread (ο : Type) where
  rest : List (TCall ο)
  stage : TStage ο
  err : Option ℕ
  seen : List Seen
deriving DecidableEq, Repr

/-- state of the process: reference counts, objects freed, owner of the mutex (log.c:48), static buffer of `localtime` -/
structure TState (ι ο : Type) where
  rc : ο → Int
  freed : ο → Bool
  mutex : Option ι
  buf : ℕ
  thread : ι → TThread ο

variable {ι ο : Type} [DecidableEq ι] [DecidableEq ο]

/-- update of a function -/
def fset {α β : Type} [DecidableEq α] (f : α → β) (a : α) (b : β) : α → β := fun x => if x = a then b else f x

/-- one step of the thread `i`, which does nothing if the thread waits for the mutex or has finished -/
def TState.step (s : TState ι ο) (i : ι) : TState ι ο :=
  match (s.thread i).stage with
  | .inc o v => { s with rc := fset s.rc o (v + 1), thread := fset s.thread i { s.thread i with stage := .idle } }
  | .dec o v =>
    { s with rc := fset s.rc o (v - 1), freed := fset s.freed o (s.freed o || v - 1 == 0),
             thread := fset s.thread i { s.thread i with stage := .idle } }
  | .locked t => { s with buf := t, thread := fset s.thread i { s.thread i with stage := .converted t } }
  | .converted t =>
    { s with thread := fset s.thread i { s.thread i with stage := .copied t, seen := (s.thread i).seen ++ [.time s.buf] } }
  | .copied _ => { s with mutex := none, thread := fset s.thread i { s.thread i with stage := .idle } }
  | .idle =>
    match (s.thread i).rest with
    | [] => s
    | .setError e :: cs => { s with thread := fset s.thread i { s.thread i with rest := cs, err := some e } }
    | .readError :: cs =>
      { s with thread := fset s.thread i { s.thread i with rest := cs, seen := (s.thread i).seen ++ [.error (s.thread i).err] } }
    | .capture o :: cs => { s with thread := fset s.thread i { s.thread i with rest := cs, stage := .inc o (s.rc o) } }
    | .release o :: cs => { s with thread := fset s.thread i { s.thread i with rest := cs, stage := .dec o (s.rc o) } }
    | .use o :: cs =>
      { s with thread := fset s.thread i { s.thread i with rest := cs, seen := (s.thread i).seen ++ [.exists? (!s.freed o)] } }
    | .log t :: cs =>
      match s.mutex with
      | some _ => s
      | none => { s with mutex := some i, thread := fset s.thread i { s.thread i with rest := cs, stage := .locked t } }

/-- a schedule -/
def TState.run (s : TState ι ο) : List ι → TState ι ο
  | [] => s
  | i :: is => (s.step i).run is

/-- the start: reference counts `rc`, and threads about to perform `p` -/
def TState.start (rc : ο → Int) (p : ι → List (TCall ο)) : TState ι ο :=
  ⟨rc, fun _ => false, none, 0, fun i => ⟨p i, .idle, none, []⟩⟩

/-- work done by threads, one after the other: thread and seconds -/
abbrev Work (ι : Type) := List (ι × ℕ)

/-- the clock of timers, `clock()` (timer.c:71, 92, 128): processor time used by the whole process -/
def Work.clock (w : Work ι) : ℕ := (w.map Prod.snd).sum

end Sleqp
