import Verif.Model.TimerNest

/-! How timers are nested, how a run ends, and which runs leave no timer running. -/

namespace Sleqp

/-- nesting depth of timers, outermost largest; functions are ordered by their layers -/
def TimerId.rank : TimerId → ℕ × ℕ
  | .solver => (10, 0)
  | .problem _ => (9, 0)
  | .trial _ => (8, 0)
  | .eqp _ => (7, 0)
  | .newton _ => (6, 0)
  | .tr _ => (5, 0)
  | .krylov _ => (4, 0)
  | .linesearch _ => (3, 0)
  | .lp _ _ => (3, 0)
  | .augCreate _ => (3, 0)
  | .augSolve _ => (3, 0)
  | .factorize _ => (2, 0)
  | .substitute _ => (2, 0)
  | .update => (1, 0)
  | .func layer _ => (0, 2 * layer + 1)
  | .lsq layer _ => (0, 2 * layer)

/-- `j` may run while `i` does -/
def TimerId.Inside (i j : TimerId) : Prop := j.rank.1 < i.rank.1 ∨ (j.rank.1 = i.rank.1 ∧ j.rank.2 < i.rank.2)

/-- the timers of a run are nested properly, and may run while `i` does -/
def Act.Within : Act → TimerId → Prop
  | .skip, _ => True
  | .stop _, _ => True
  | .seq a b, i => a.Within i ∧ b.Within i
  | .timed id a, i => i.Inside id ∧ a.Within id
  | .reset _, _ => False
  | .shown _, _ => False
  | .catchTime _, _ => False

/-- the return code of a run, `none` for `SLEQP_OKAY` -/
def Act.ret : Act → Option EarlyRet
  | .skip => none
  | .stop r => some r
  | .seq a b => match a.ret with
    | some r => some r
    | none => b.ret
  | .timed _ a => a.ret
  | .reset _ => none
  | .shown _ => none
  | .catchTime a => match a.ret with
    | some .time => none
    | r => r

/-- no early return passes a timer that it would leave running -/
def Act.Tidy : Act → Prop
  | .skip => True
  | .stop _ => True
  | .seq a b => a.Tidy ∧ (a.ret = none → b.Tidy)
  | .timed id a => a.Tidy ∧ ∀ r, a.ret = some r → stopsFor id r = true
  | .reset _ => True
  | .shown _ => True
  | .catchTime a => a.Tidy

/-- the run starts the timer `id` -/
def Act.starts (id : TimerId) : Act → Bool
  | .skip => false
  | .stop _ => false
  | .seq a b => a.starts id || (a.ret.isNone && b.starts id)
  | .timed j a => j == id || a.starts id
  | .reset _ => false
  | .shown _ => false
  | .catchTime a => a.starts id

/-- the return code of the run passes the timer `id`, that is, it comes from what this timer measures -/
def Act.passes (id : TimerId) : Act → Bool
  | .skip => false
  | .stop _ => false
  | .seq a b => if a.ret.isSome then a.passes id else b.passes id
  | .timed j a => (j == id && a.ret.isSome) || a.passes id
  | .reset _ => false
  | .shown _ => false
  | .catchTime a => a.passes id && a.ret != some .time

/-- the run resets the timer `id` -/
def Act.resets (id : TimerId) : Act → Bool
  | .skip => false
  | .stop _ => false
  | .seq a b => a.resets id || b.resets id
  | .timed _ a => a.resets id
  | .reset j => j == id
  | .shown _ => false
  | .catchTime a => a.resets id

/-- all parts of a solve satisfy `P`, those outside of trial points as well as those inside -/
def TrialRun.All (P : Act → Prop) (t : TrialRun) : Prop := P t.compute ∧ P t.evaluate ∧ ∀ a, t.correct = some a → P a
def IterRun.All (P : Act → Prop) (i : IterRun) : Prop := P i.start ∧ P i.rest ∧ ∀ a t, i.trial = some (a, t) → P a ∧ t.All P
def PassRun.All (P : Act → Prop) (p : PassRun) : Prop := P p.before ∧ P p.after ∧ ∀ i ∈ p.iters, i.All P
def SolveRun.All (P : Act → Prop) (c : SolveRun) : Prop := P c.finish ∧ ∀ p ∈ c.passes, p.All P

/-- a solve as the code can perform it: the parts use timers further inside than those of trial points, and the timers shown are such -/
def SolveRun.Fits (c : SolveRun) : Prop :=
  (c.All fun a => a.Within (.trial false)) ∧ ∀ id ∈ c.display, (TimerId.trial false).Inside id

/-- at most timers of trial points are running -/
def OnlyTrials (s : Running) : Prop := ∀ id, s id = true → ∃ ph, id = .trial ph

/-- nothing is running -/
def idleTimers : Running := fun _ => false

end Sleqp
