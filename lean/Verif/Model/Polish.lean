import Verif.Model.WorkingSet
import Verif.Model.Cursor

/-! Model of `polish.c`. -/

namespace Sleqp
variable {K : Type*} [Field K] [LinearOrder K]

/-- the cursor points to index `j` -/
def cursorAt (j : Nat) : List (Nat × K) → Bool
  | [] => false
  | e :: _ => decide (e.1 = j)

/-- `sleqp_working_set_state`, working_set.c:243-256. -/
def WSet.state (w : WSet) (constraint : Bool) (i : Nat) : ActiveState :=
  if constraint then w.consState i else w.varState i

/-- loop body of `polish_zero_dual_range`, polish.c:129-170; state: target set, cursor,
`num_removed` -/
def polishZeroBody (source : WSet) (constraints : Bool) (s : WSet × List (Nat × K) × Nat) (i : Nat) :
    Option (WSet × List (Nat × K) × Nat) :=
  let st := source.state constraints i
  if st = .inactive then some s
  else
    let k := cursorTo i s.2.1
    if cursorAt i k then (s.1.add constraints i st).map fun t => (t, k, s.2.2)
    else some (s.1, k, s.2.2 + 1)

/-- `polish_zero_dual_range`, polish.c:129-170: new target set and number of removed entries. -/
def polishZeroRange (source target : WSet) (dual : Vec K) (constraints : Bool) : Option (WSet × Nat) :=
  ((List.range dual.dim).foldlM (polishZeroBody source constraints) (target, dual.ents, 0)).map
    fun s => (s.1, s.2.2)

/-- state of the loop of `polish_inactive_range`, polish.c:43-127 -/
structure PolishLoop (K : Type*) where
  target : WSet
  kd : List (Nat × K)
  klb : List (Nat × K)
  kub : List (Nat × K)
  kp : List (Nat × K)
  removed : Nat

/-- loop body of `polish_inactive_range`, polish.c:43-127 -/
def polishInactiveBody (source : WSet) (constraints : Bool) (feasEps : K) (s : PolishLoop K) (j : Nat) :
    Option (PolishLoop K) :=
  let st := source.state constraints j
  if st = .inactive then some s
  else
    let kd := cursorTo j s.kd
    if cursorAt j kd then (s.target.add constraints j st).map fun t => { s with target := t, kd := kd }
    else
      let klb := cursorTo j s.klb
      let kub := cursorTo j s.kub
      let kp := cursorTo j s.kp
      let activeUpper := isEq (cursorVal j kp) (cursorVal j kub) feasEps
      let activeLower := isEq (cursorVal j klb) (cursorVal j kp) feasEps
      if !(activeLower || activeUpper) then some ⟨s.target, kd, klb, kub, kp, s.removed + 1⟩
      else (s.target.add constraints j st).map fun t => ⟨t, kd, klb, kub, kp, s.removed⟩

/-- `polish_inactive_range`, polish.c:43-127. -/
def polishInactiveRange (source target : WSet) (lb primal ub dual : Vec K) (constraints : Bool) (feasEps : K) :
    Option (WSet × Nat) :=
  ((List.range dual.dim).foldlM (polishInactiveBody source constraints feasEps)
    ⟨target, dual.ents, lb.ents, ub.ents, primal.ents, 0⟩).map fun s => (s.target, s.removed)

/-- the parts of problem and iterate read by the polishing -/
structure PolishData (K : Type*) where
  varLb : Vec K
  varUb : Vec K
  primal : Vec K
  varsDual : Vec K
  consLb : Vec K
  consUb : Vec K
  consVal : Vec K
  consDual : Vec K

/-- `polish_zero_dual`, polish.c:211-240: the new working set of the iterate and the numbers
of removed variables and constraints; `own` is the set owned by the polishing object. -/
def polishZero (d : PolishData K) (source own : WSet) : Option (WSet × Nat × Nat) :=
  (polishZeroRange source own.reset d.varsDual false).bind fun a =>
  (polishZeroRange source a.1 d.consDual true).bind fun b =>
  (b.1.copy source).map fun t => (t, a.2, b.2)

/-- `polish_inactive`, polish.c:172-209. -/
def polishInactive (d : PolishData K) (feasEps : K) (source own : WSet) : Option (WSet × Nat × Nat) :=
  (polishInactiveRange source own.reset d.varLb d.primal d.varUb d.varsDual false feasEps).bind fun a =>
  (polishInactiveRange source a.1 d.consLb d.consVal d.consUb d.consDual true feasEps).bind fun b =>
  (b.1.copy source).map fun t => (t, a.2, b.2)

end Sleqp
