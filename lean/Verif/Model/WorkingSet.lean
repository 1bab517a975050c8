import Verif.Model.Vec

/-!
Model of `working_set.c`.  The arrays are functions on `Nat` (entries beyond the array
bounds are never read by the modelled functions); `SLEQP_NONE` is `none`.  A failed
assert or a raised error is `none`.
-/

namespace Sleqp

/-- `SLEQP_ACTIVE_STATE`, pub_types.h:50-60. -/
inductive ActiveState
  | inactive | lower | upper | both
  deriving DecidableEq, Repr

/-- `SleqpWorkingSet`, working_set.c:6-32. -/
structure WSet where
  numVars : Nat
  numCons : Nat
  varState : Nat → ActiveState
  consState : Nat → ActiveState
  actVars : Nat
  actCons : Nat
  varIdx : Nat → Option Nat
  consIdx : Nat → Option Nat
  content : Nat → Nat

namespace WSet

/-- `sleqp_working_set_reset`, working_set.c:70-89; `content_indices` is kept. -/
def reset (w : WSet) : WSet :=
  { w with varState := fun _ => .inactive, varIdx := fun _ => none
           consState := fun _ => .inactive, consIdx := fun _ => none, actCons := 0, actVars := 0 }

/-- `sleqp_working_set_create`, working_set.c:34-68; `junk` stands for the uninitialised
`content_indices`. -/
def create (n m : Nat) (junk : Nat → Nat) : WSet :=
  reset ⟨n, m, fun _ => .inactive, fun _ => .inactive, 0, 0, fun _ => none, fun _ => none, junk⟩

/-- `sleqp_working_set_size`, working_set.c:276-281. -/
def size (w : WSet) : Nat := w.actCons + w.actVars

/-- assignment to an array element -/
def upd {α : Type*} (f : Nat → α) (i : Nat) (x : α) : Nat → α := fun j => if j = i then x else f j

/-- `sleqp_working_set_add_var`, working_set.c:116-148. -/
def addVar (w : WSet) (i : Nat) (st : ActiveState) : Option WSet :=
  if i < w.numVars ∧ w.actCons = 0 ∧ w.varState i = .inactive ∧ st ≠ .inactive then
    some { w with varIdx := upd w.varIdx i (some w.actVars), actVars := w.actVars + 1
                  content := upd w.content w.size i, varState := upd w.varState i st }
  else none

/-- `sleqp_working_set_add_cons`, working_set.c:150-177. -/
def addCons (w : WSet) (i : Nat) (st : ActiveState) : Option WSet :=
  if i < w.numCons ∧ w.consState i = .inactive ∧ st ≠ .inactive then
    some { w with consIdx := upd w.consIdx i (some (w.actVars + w.actCons)), actCons := w.actCons + 1
                  content := upd w.content w.size (w.numVars + i), consState := upd w.consState i st }
  else none

/-- `sleqp_working_set_add`, working_set.c:179-193. -/
def add (w : WSet) (constraint : Bool) (i : Nat) (st : ActiveState) : Option WSet :=
  if constraint then w.addCons i st else w.addVar i st

/-- `sleqp_working_set_copy`, working_set.c:555-604, into `t`: only the array elements
within the bounds are assigned. -/
def copy (s t : WSet) : Option WSet :=
  if s.numVars = t.numVars ∧ s.numCons = t.numCons then
    some { numVars := s.numVars, numCons := s.numCons, actVars := s.actVars, actCons := s.actCons
           varState := fun j => if j < s.numVars then s.varState j else t.varState j
           consState := fun i => if i < s.numCons then s.consState i else t.consState i
           varIdx := fun j => if j < s.numVars then s.varIdx j else t.varIdx j
           consIdx := fun i => if i < s.numCons then s.consIdx i else t.consIdx i
           content := fun k => if k < s.numVars + s.numCons then s.content k else t.content k }
  else none

/-- `sleqp_working_set_eq`, working_set.c:91-114. -/
def eq (a b : WSet) : Option Bool :=
  if a.numCons = b.numCons ∧ a.numVars = b.numVars then
    some ((List.range a.numVars).all (fun j => decide (a.varIdx j = b.varIdx j)) &&
      (List.range a.numCons).all (fun i => decide (a.consIdx i = b.consIdx i)))
  else none

/-- one of the index checks of `sleqp_working_set_valid`, working_set.c:283-446: positions
are below `bound`, unique, and there are `count` of them -/
def idxValid (n : Nat) (idx : Nat → Option Nat) (bound count : Nat) : Bool :=
  (List.range n).all (fun j =>
    match idx j with
    | none => true
    | some p => decide (p < bound) && (List.range n).all fun k => decide (j = k) == decide (some p = idx k)) &&
  decide ((List.range n).countP (fun j => (idx j).isSome) = count)

/-- `sleqp_working_set_valid`, working_set.c:283-446; `none`: the assert
`working_set_size <= num_variables` fails. -/
def valid (w : WSet) : Option Bool :=
  if w.size ≤ w.numVars then
    some (decide ((List.range w.numVars).countP (fun j => decide (w.varState j ≠ .inactive)) = w.actVars) &&
      decide ((List.range w.numCons).countP (fun i => decide (w.consState i ≠ .inactive)) = w.actCons) &&
      idxValid w.numVars w.varIdx w.actVars w.actVars &&
      idxValid w.numCons w.consIdx w.size w.actCons &&
      (List.range w.size).all fun k =>
        decide (w.content k < w.numVars + w.numCons) &&
        (if w.content k < w.numVars then decide (w.varState (w.content k) ≠ .inactive)
         else decide (w.consState (w.content k - w.numVars) ≠ .inactive)) &&
        (List.range w.size).all fun l => decide (l = k) == decide (w.content l = w.content k))
  else none

end WSet

/-- the test of one entry in `supports_range`, working_set.c:448-489 -/
def supportsEntry {K : Type*} [Zero K] [LinearOrder K] (st : ActiveState) (v : K) : Bool :=
  match st with
  | .both => true
  | .lower => decide (¬ v > 0)
  | .upper => decide (¬ v < 0)
  | .inactive => decide (¬ v ≠ 0)

/-- `supports_range`, working_set.c:448-489 (also `sleqp_working_set_supports_cons_dual`,
working_set.c:491-504, and `sleqp_working_set_supports_vars_dual`, working_set.c:506-518). -/
def supportsRange {K : Type*} [Zero K] [LinearOrder K] (states : Nat → ActiveState) (dual : Vec K) : Bool :=
  dual.ents.all fun e => supportsEntry (states e.1) e.2

/-! ### Histories -/

/-- a call on one of several working sets of the same problem -/
inductive WOp
  | add (p : Nat) (constraint : Bool) (i : Nat) (st : ActiveState)
  | reset (p : Nat)
  | copy (source target : Nat)

/-- one call -/
def WOp.apply (pool : Nat → WSet) : WOp → Option (Nat → WSet)
  | .add p c i st => ((pool p).add c i st).map fun w => WSet.upd pool p w
  | .reset p => some (WSet.upd pool p (pool p).reset)
  | .copy s t => ((pool s).copy (pool t)).map fun w => WSet.upd pool t w

def WOp.run (pool : Nat → WSet) (ops : List WOp) : Option (Nat → WSet) := ops.foldlM WOp.apply pool

end Sleqp
