import Verif.Model.TimeLimits

/-!
What is meant by clock readings in order, by time which passes between LP solves, and by timers being ready for use.
-/

namespace Sleqp
variable {K : Type*} [Field K] [LinearOrder K]

/-- Readings of an LP solve are in order. -/
def LpRun.Ordered (r : LpRun K) : Prop := r.start ≤ r.stop

/-- LP solves (each with the solve of the reduced problem following it, if any) which begin at `t` or later, one after the other. -/
def LpsOrdered : K → List (LpRun K × Option (LpRun K)) → Prop
  | _, [] => True
  | t, (r, none) :: rest => t ≤ r.start ∧ r.start ≤ r.stop ∧ LpsOrdered r.stop rest
  | t, (r, some q) :: rest => t ≤ r.start ∧ r.start ≤ r.stop ∧ r.stop ≤ q.start ∧ q.start ≤ q.stop ∧ LpsOrdered q.stop rest

/-- The time after `t`, up to the last of the given LP solves, in which no LP is solved, together with the time spent with reduced
problems. -/
def idleTime : K → List (LpRun K × Option (LpRun K)) → K
  | _, [] => 0
  | t, (r, none) :: rest => (r.start - t) + idleTime r.stop rest
  | t, (r, some q) :: rest => (r.start - t) + (q.stop - r.stop) + idleTime q.stop rest

/-- Each timer of the solution of an equality constrained problem is stopped after it was started. -/
def EqpRun.Ordered (r : EqpRun K) : Prop :=
  r.startEqp ≤ r.stopEqp ∧ r.startNewton ≤ r.stopNewton ∧ r.startTr ≤ r.stopTr ∧ r.startInner ≤ r.stopInner

/-- Clock readings in order, for a step, … -/
def StepRun.Ordered (r : StepRun K) : Prop :=
  LpsOrdered r.read r.lps ∧ ∀ (read : K) (skip : Bool) (er : EqpRun K), r.eqp = some (read, skip, er) → er.Ordered

/-- … and for a trial point. -/
def TpRun.Ordered (r : TpRun K) : Prop := r.start ≤ r.stop ∧ ∀ st ∈ r.steps, st.Ordered

/-- No timer (except the one which is reset for each trial point) is running, so that all of them can be started. -/
def TpTime.Ready (s : TpTime K) : Prop :=
  s.cauchy.std.timer.running = false ∧ s.cauchy.red.timer.running = false ∧ s.eqp.eqp.running = false ∧
    s.eqp.newton.running = false ∧ s.eqp.tr.running = false ∧ s.eqp.inner.running = false

/-- Trial points one after the other, with all limits given; a time-out of one of them ends a solve, and the next one belongs to
a further solve. -/
def TpTime.history (s : TpTime K) : List (TpRun K) → Option (TpTime K × List (List (Grant K)))
  | [] => some (s, [])
  | r :: rest =>
    match s.run r with
    | none => none
    | some (s', _, log) =>
      match s'.history rest with
      | none => none
      | some (s'', logs) => some (s'', log :: logs)

end Sleqp
