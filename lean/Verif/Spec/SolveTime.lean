import Verif.Model.SolveTime

/-! Order of clock readings, and the times a time limit speaks about. -/

namespace Sleqp
variable {K : Type*} [Field K] [LinearOrder K]

/-- readings of iterations do not decrease, beginning with `t` and up to `stop` -/
def ItersOrdered (t stop : K) : List (IterTime K) → Prop
  | [] => t ≤ stop
  | r :: rest => t ≤ r.start ∧ r.start ≤ r.read ∧ r.read ≤ r.stop ∧ ItersOrdered r.stop stop rest

/-- time between iterations, beginning with `t` -/
def gaps (t : K) : List (IterTime K) → K
  | [] => 0
  | r :: rest => (r.start - t) + gaps r.stop rest

/-- end of the last iteration, `t` if there is none -/
def lastStop (t : K) : List (IterTime K) → K
  | [] => t
  | r :: rest => lastStop r.stop rest

/-- readings of passes do not decrease -/
def PassesOrdered (t last stop : K) : List (PassTime K) → Prop
  | [] => t ≤ last ∧ last ≤ stop
  | p :: rest => t ≤ p.check ∧ p.check ≤ p.read ∧ ItersOrdered p.read (lastStop p.read p.iters) p.iters ∧
      PassesOrdered (lastStop p.read p.iters) last stop rest

/-- readings of a call do not decrease -/
def SolveCall.Ordered (c : SolveCall K) : Prop := PassesOrdered c.start c.last c.stop c.passes

/-- the longest time in a pass not spent in iterations -/
def SolveCall.idle (c : SolveCall K) : K := (c.passes.map fun p => gaps p.read p.iters).foldr max 0

/-- some iteration ran out of time by itself -/
def SolveCall.iterTimedOut (c : SolveCall K) : Prop := ∃ p ∈ c.passes, ∃ r ∈ p.iters, r.timedOut = true

end Sleqp
