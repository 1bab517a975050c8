import Verif.Model.Timer

/-!
Model of the time limit of a solve: `/repo/src/main/solver/solve.c` and `/repo/src/main/problem_solver/solve.c`.

Clock readings are parameters. Everything else happening in an iteration is reduced to whether it ran out of time and whether the loop
ends after it; the reasons for the end of a loop other than time are not told apart. The timer of the problem solver is stopped whenever its
limit is tested, so that these tests do not depend on a reading.
-/

namespace Sleqp
variable {K : Type*} [Field K] [LinearOrder K]

/-- one iteration: readings at the start of its timer (problem_solver/solve.c:181), when its trial point is given its limit
(problem_solver/iteration.c:64-82), at the stop of its timer (problem_solver/solve.c:186); whether it returned `SLEQP_ABORT_TIME`;
whether the loop ends after it for another reason (dead point, status other than running) -/
structure IterTime (K : Type*) where
  start : K
  read : K
  stop : K
  timedOut : Bool
  ends : Bool
deriving DecidableEq, Repr

/-- how a loop ends -/
inductive LoopEnd | time | other
deriving DecidableEq, Repr

/-- a limit given to a trial point: reading, limit -/
structure Granted (K : Type*) where
  iter : IterTime K
  limit : Option K
deriving DecidableEq, Repr

/-- the loop of `sleqp_problem_solver_solve`, problem_solver/solve.c:94-214. After the last iteration of the list the loop ends because of
the iteration limit or an abort request, unless the time is used up (problem_solver/solve.c:158-179). -/
def psLoop (t : Timer K) (limit : Option K) : List (IterTime K) → Option (LoopEnd × List (Granted K))
  | [] => some (if t.exhausted 0 limit then .time else .other, [])
  | r :: rest =>
    if t.exhausted r.start limit then some (.time, [])
    else
      match t.startAt r.start with
      | none => none
      | some t1 =>
        match t1.stopAt r.stop with
        | none => none
        | some t2 =>
          if r.timedOut || t2.exhausted r.stop limit then some (.time, [⟨r, Timer.remaining (t1.ttl r.read) limit⟩])
          else if r.ends then some (.other, [⟨r, Timer.remaining (t1.ttl r.read) limit⟩])
          else (psLoop t2 limit rest).map fun x => (x.1, ⟨r, Timer.remaining (t1.ttl r.read) limit⟩ :: x.2)

/-- one pass of the loop of `run_solving_loop`: readings for the test of the limit (solver/solve.c:116) and for the remaining time
(solver/solve.c:127-128), iterations of the problem solver, and whether a further pass follows (phase change) -/
structure PassTime (K : Type*) where
  check : K
  read : K
  iters : List (IterTime K)
  more : Bool
deriving DecidableEq, Repr

/-- the loop of `run_solving_loop`, solver/solve.c:95-254; the problem solver resets its timer (problem_solver/solve.c:148). After the last
pass of the list the loop ends because of the iteration limit, unless the time is used up. -/
def passLoop (t : Timer K) (limit : Option K) (last : K) : List (PassTime K) → Option (LoopEnd × List (Granted K))
  | [] => some (if t.exhausted last limit then .time else .other, [])
  | p :: rest =>
    if t.exhausted p.check limit then some (.time, [])
    else
      match psLoop .reset (Timer.remaining (t.ttl p.read) limit) p.iters with
      | none => none
      | some (.time, log) => some (.time, log)
      | some (.other, log) =>
        if p.more then (passLoop t limit last rest).map fun x => (x.1, log ++ x.2) else some (.other, log)

/-- a call of `sleqp_solver_solve`: limit, reading at its start, passes, reading at a last test of the limit, reading at its end -/
structure SolveCall (K : Type*) where
  limit : Option K
  start : K
  passes : List (PassTime K)
  last : K
  stop : K
deriving DecidableEq, Repr

/-- `sleqp_solver_solve`, solver/solve.c:256-298: the timer is started and stopped, but not reset -/
def solveCall (t : Timer K) (c : SolveCall K) : Option (Timer K × LoopEnd × List (Granted K)) :=
  match t.startAt c.start with
  | none => none
  | some t1 =>
    match passLoop t1 c.limit c.last c.passes with
    | none => none
    | some (e, log) =>
      match t1.stopAt c.stop with
      | none => none
      | some t2 => some (t2, e, log)

/-- several calls for the same solver, whose timer is created with it (solver.c:304) -/
def solveCalls (t : Timer K) : List (SolveCall K) → Option (Timer K)
  | [] => some t
  | c :: rest =>
    match solveCall t c with
    | none => none
    | some (t', _) => solveCalls t' rest

end Sleqp
