import Verif.Model.WorkingSet

/-!
Model of `dual_estimation/dual_estimation_lsq.c` (from the solution of the least-squares
system on) and of the combination in `dual_estimation/dual_estimation_mixed.c`.
-/

namespace Sleqp
variable {K : Type*} [Field K] [LinearOrder K]

/-- one multiplier in the loop of `estimate_duals_internal`,
dual_estimation/dual_estimation_lsq.c:19-146: pushes or clips it; `none`: assert -/
def lsqPush (st : ActiveState) (dual : Vec K) (clipped : Nat) (i : Nat) (v : K) : Option (Vec K × Nat) :=
  match st with
  | .inactive => none
  | .upper =>
    if v > 0 then (dual.push i v).map fun d => (d, clipped)
    else if v < 0 then some (dual, clipped + 1) else some (dual, clipped)
  | .lower =>
    if v < 0 then (dual.push i v).map fun d => (d, clipped)
    else if v > 0 then some (dual, clipped + 1) else some (dual, clipped)
  | .both => (dual.push i v).map fun d => (d, clipped)

/-- state of the loop: variable multipliers, clipped ones, constraint multipliers, clipped ones -/
abbrev LsqDuals (K : Type*) := (Vec K × Nat) × (Vec K × Nat)

/-- loop body of `estimate_duals_internal`, dual_estimation/dual_estimation_lsq.c:19-146 -/
def lsqDualBody (w : WSet) (s : LsqDuals K) (e : Nat × K) : Option (LsqDuals K) :=
  let index := w.content e.1
  if index < w.numVars then (lsqPush (w.varState index) s.1.1 s.1.2 index e.2).map fun a => (a, s.2)
  else
    (lsqPush (w.consState (index - w.numVars)) s.2.1 s.2.2 (index - w.numVars) e.2).map fun a => (s.1, a)

/-- `estimate_duals_internal`, dual_estimation/dual_estimation_lsq.c:19-146, given the
solution `dualSol` of the least-squares system: multipliers of variables and constraints
with the numbers of clipped ones. -/
def lsqDuals (w : WSet) (dualSol consDual varsDual : Vec K) : Option (LsqDuals K) :=
  dualSol.ents.foldlM (lsqDualBody w)
    (((varsDual.reserve dualSol.nnz).clear, 0), ((consDual.reserve dualSol.nnz).clear, 0))

/-- loop body of `merge`, dual_estimation/dual_estimation_mixed.c:22-75: the first estimate
is preferred where present; the asserts say that stored values are nonzero. -/
def mergeDualBody (dual : Vec K) (t : Nat × Option K × Option K) : Option (Vec K) :=
  match t.2.1, t.2.2 with
  | some a, _ => if a ≠ 0 then dual.push t.1 a else none
  | none, some b => if b ≠ 0 then dual.push t.1 b else none
  | none, none => some dual

/-- `merge`, dual_estimation/dual_estimation_mixed.c:22-75. -/
def mergeDuals (lsq : Vec K) (numActive : Nat) (lp dual : Vec K) : Option (Vec K) :=
  if lsq.dim = lp.dim ∧ lsq.dim = dual.dim then
    (merge2 lsq.ents lp.ents).foldlM mergeDualBody ((dual.clear).reserve numActive)
  else none

/-- `copy_or_merge`, dual_estimation/dual_estimation_mixed.c:77-90. -/
def copyOrMerge (clipped : Bool) (numActive : Nat) (lsq lp dual : Vec K) : Option (Vec K) :=
  if !clipped then lsq.copy dual else mergeDuals lsq numActive lp dual

/-- `estimate_duals`, dual_estimation/dual_estimation_mixed.c:92-139, given both estimates
(the second is computed only if something was clipped and is not used otherwise). -/
def mixedDuals (w : WSet) (lsq : LsqDuals K) (lpVars lpCons varsDual consDual : Vec K) :
    Option (Vec K × Vec K) :=
  (copyOrMerge (decide (lsq.1.2 > 0)) w.actVars lsq.1.1 lpVars varsDual).bind fun v =>
  (copyOrMerge (decide (lsq.2.2 > 0)) w.actCons lsq.2.1 lpCons consDual).map fun c => (v, c)

end Sleqp
