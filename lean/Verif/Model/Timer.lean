import Mathlib.Algebra.Order.Field.Basic

/-!
Model of `/repo/src/main/timer.c`. Clock readings (`clock() / CLOCKS_PER_SEC`) are parameters in seconds; assertion failures
are `none`.
-/

namespace Sleqp
variable {K : Type*} [Field K] [LinearOrder K]

/-- `SleqpTimer`, timer.c:13-23. -/
structure Timer (K : Type*) where
  start : K
  numRuns : Nat
  running : Bool
  total : K
  totalSq : K
  last : K
deriving DecidableEq, Repr

namespace Timer

/-- `sleqp_timer_reset`, timer.c:76-82; also the state after `sleqp_timer_create`, timer.c:53-63. -/
def reset : Timer K := ⟨0, 0, false, 0, 0, 0⟩

/-- `sleqp_timer_start`, timer.c:65-74, at clock reading `now`. -/
def startAt (t : Timer K) (now : K) : Option (Timer K) :=
  if t.running then none else some { t with running := true, start := now }

/-- `currently_elapsed`, timer.c:120-131. -/
def currently (t : Timer K) (now : K) : K := if t.running then now - t.start else 0

/-- `sleqp_timer_stop`, timer.c:101-118 with `current_elapsed`, timer.c:84-99. -/
def stopAt (t : Timer K) (now : K) : Option (Timer K) :=
  if t.running then
    let elapsed := now - t.start
    if 0 ≤ elapsed then
      some { t with
        numRuns := t.numRuns + 1
        last := elapsed
        total := t.total + elapsed
        totalSq := t.totalSq + elapsed * elapsed
        running := false }
    else none
  else none

/-- `sleqp_timer_add`, timer.c:133-142. -/
def add (t : Timer K) (v : K) : Timer K := { t with last := t.last + v, total := t.total + v, totalSq := t.totalSq + v * v }

/-- `sleqp_timer_elapsed`, timer.c:144-148. -/
def elapsed (t : Timer K) (now : K) : K := t.last + t.currently now

/-- `sleqp_timer_get_avg`, timer.c:150-161. -/
def avg (t : Timer K) : Option K :=
  if t.running then none else if t.numRuns = 0 then some 0 else some (t.total / t.numRuns)

/-- `sleqp_timer_get_ttl`, timer.c:163-167; `sleqp_solver_elapsed_seconds`, solver.c:440-444, returns this for the timer
started and stopped by each solve. -/
def ttl (t : Timer K) (now : K) : K := t.total + t.currently now

/-- the argument of the square root in `sleqp_timer_get_std`, timer.c:169-182. -/
def variance (t : Timer K) : Option K :=
  if t.numRuns = 0 then some 0 else t.avg.map fun a => t.totalSq / t.numRuns - a * a

/-- `sleqp_remaining_time`, timer.c:324-335; `none` is `SLEQP_NONE`. -/
def remaining (elapsed : K) (limit : Option K) : Option K := limit.map fun l => max (l - elapsed) 0

/-- `sleqp_timer_exhausted_time_limit`, timer.c:337-346. -/
def exhausted (t : Timer K) (now : K) (limit : Option K) : Bool :=
  match limit with
  | none => false
  | some l => decide (max (l - t.ttl now) 0 ≤ 0)

end Timer

/-! ### display units -/

/-- `TimeUnit`, timer.c:25-34. -/
inductive TimeUnit | day | hour | minute | second | milli | micro
deriving DecidableEq, Repr

/-- number of characters of the suffix, `conversions`, timer.c:45-51. -/
def TimeUnit.len : TimeUnit → Nat
  | .day => 1 | .hour => 1 | .minute => 3 | .second => 1 | .milli => 2 | .micro => 2

/-- one step of `round_up_time`, timer.c:190-212: multiply with `factor`, go on to the `rest` if at least 1 -/
def roundUpFrom (time : K) (cur : TimeUnit) : List (TimeUnit × K) → K × TimeUnit
  | [] => (time, cur)
  | (u, f) :: rest => if 1 ≤ time * f then roundUpFrom (time * f) u rest else (time, cur)

/-- one step of `round_down_time`, timer.c:214-232 -/
def roundDownFrom (time : K) (cur : TimeUnit) : List (TimeUnit × K) → K × TimeUnit
  | [] => (time, cur)
  | (u, f) :: rest => if 1 ≤ time then (time, cur) else roundDownFrom (time * f) u rest

/-- `round_time`, timer.c:234-251: displayed value, suffix and length of the suffix (`none`: not written). The loops
start with the unit second, whose factor is 1. -/
def roundTime (time : K) : K × TimeUnit × Option Nat :=
  if time = 0 then (time, .second, none)
  else if 1 ≤ time then
    let r := roundUpFrom time .second [(.second, 1), (.minute, 1 / 60), (.hour, 1 / 60), (.day, 1 / 24)]
    (r.1, r.2, some r.2.len)
  else
    let r := roundDownFrom time .second [(.second, 1), (.milli, 1000), (.micro, 1000)]
    (r.1, r.2, some r.2.len)

end Sleqp
