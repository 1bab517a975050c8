import Verif.Model.Transform
import Verif.Model.WorkingSet
import Verif.Model.Feas
import Verif.Model.StepRule

/-!
Model of `/repo/src/main/preprocessor/restore.c`: multipliers and working set of the original problem from those of the
transformed one.

The dense arrays are functions on indices, `sleqp_vec_to_raw` is read as `Vec.value` (C04).  A failed `assert`, an access
outside of a map and a division by zero are `none`.  Evaluation of the original functions at the restored point
(`sleqp_set_and_evaluate`) is not part of the model: the derivatives are given with the original iterate.  The final
asserts about the working sets are left out.
-/

namespace Sleqp

/-- arrays of `SleqpRestoration`, preprocessor/restore.c:14-37. -/
structure RestoreSt (K : Type*) where
  varState : Nat → ActiveState
  consState : Nat → ActiveState
  varDual : Nat → K
  consDual : Nat → K
  res : Nat → K

section
variable {K : Type*}

/-- variables are mapped in `create_maps`, preprocessor/restore.c:39-88. -/
def Presolve.varMap (s : Presolve K) (n : Nat) : List Nat :=
  (List.range n).filter fun j => (s.varSt j).fixed?.isNone

/-- linear constraints are mapped in `create_maps`, preprocessor/restore.c:39-88. -/
def Presolve.linMap (s : Presolve K) (m : Nat) : List Nat :=
  (List.range m).filter fun i => decide (s.consSt i = .unchanged)

/-- the first loop of `prepare_working_set`, preprocessor/restore.c:254-327; `offset` is the number of changed variables
before `j`. -/
def restoreVarState (s : Presolve K) (w : WSet) (j : Nat) : ActiveState :=
  if (s.varSt j).fixed?.isNone then
    w.varState (j - ((List.range j).filter fun k => (s.varSt k).fixed?.isSome).length)
  else .inactive

/-- the other loops of `prepare_working_set`, preprocessor/restore.c:254-327. -/
def restoreConsState (s : Presolve K) (numGen : Nat) (w : WSet) (i : Nat) : ActiveState :=
  if i < numGen then w.consState i
  else if s.consSt (i - numGen) = .unchanged then
    w.consState (i - ((List.range (i - numGen)).filter fun k => decide (s.consSt k ≠ .unchanged)).length)
  else .inactive

end

section
variable {K : Type*} [Field K] [LinearOrder K]

/-- body of the first loop of `prepare_duals`, preprocessor/restore.c:668-710. -/
def putVarDual (map : List Nat) (f : Nat → K) (e : Nat × K) : Option (Nat → K) :=
  map[e.1]?.map fun j => setAt f j e.2

/-- body of the second loop of `prepare_duals`, preprocessor/restore.c:668-710. -/
def putConsDual (numGen : Nat) (map : List Nat) (f : Nat → K) (e : Nat × K) : Option (Nat → K) :=
  if e.1 < numGen then some (setAt f e.1 e.2) else map[e.1 - numGen]?.map fun i => setAt f (numGen + i) e.2

/-- `store_duals`, preprocessor/restore.c:209-231. -/
def storeDuals (zeroEps : K) (n m : Nat) (varDual consDual : Nat → K) (it : Iterate K) : Option (Iterate K) :=
  (it.varsDual.setFromRaw zeroEps ((List.range n).map varDual)).bind fun v =>
  (it.consDual.setFromRaw zeroEps ((List.range m).map consDual)).map fun c =>
    { it with varsDual := v, consDual := c }

/-- `compute_stationarity_residuals`, preprocessor/restore.c:712-736. -/
def restoreResiduals (zeroEps : K) (n m : Nat) (varDual consDual : Nat → K) (it : Iterate K) : Option (Nat → K) :=
  (storeDuals zeroEps n m varDual consDual it).bind fun it1 =>
  (it1.stationarityResiduals n m (Vec.create n 0) zeroEps).map fun r => r.value

/-- `correct_variable_stationarity_residuum`, preprocessor/restore.c:350-361. -/
def correctRes (st : RestoreSt K) (j : Nat) : Option (RestoreSt K) :=
  if st.varDual j = 0 then
    some { st with varDual := setAt st.varDual j (-st.res j), res := setAt st.res j 0 }
  else none

/-- `correct_fixed_variable`, preprocessor/restore.c:627-635. -/
def correctFixed (st : RestoreSt K) (j : Nat) : Option (RestoreSt K) :=
  correctRes { st with varState := setAt st.varState j .both } j

/-- body of the loop of `correct_fixed_variables`, preprocessor/restore.c:637-666. -/
def correctFixedStep (s : Presolve K) (st : RestoreSt K) (e : Nat × K) : Option (RestoreSt K) :=
  match s.varSt e.1 with
  | .boundFixed _ => correctFixed st e.1
  | _ => some st

/-- the multiplier of a converted bound moves from the variable to the constraint,
`correct_converted_bound`, preprocessor/restore.c:506-581. -/
def moveDual (st : RestoreSt K) (i j : Nat) (y : K) (state : ActiveState) : RestoreSt K :=
  { st with
    consState := setAt st.consState i state
    consDual := setAt st.consDual i y
    varDual := setAt st.varDual j 0
    varState := setAt st.varState j .inactive }

/-- `var_state` with `SLEQP_ACTIVE_BOTH` resolved, `correct_converted_bound`, preprocessor/restore.c:506-581. -/
def resolveState (state : ActiveState) (dual : K) : ActiveState :=
  if state = .both then (if dual ≥ 0 then .upper else .lower) else state

/-- `correct_converted_bound`, preprocessor/restore.c:506-581. -/
def correctConverted (numGen : Nat) (st : RestoreSt K) (b : ConvBound K) : Option (RestoreSt K) :=
  let i := b.cons + numGen
  (cdiv (st.varDual b.var) b.factor).bind fun y =>
  if st.consState i = .inactive ∧ st.consDual i = 0 then
    match resolveState (st.varState b.var) (st.varDual b.var) with
    | .inactive => if st.varDual b.var = 0 then some st else none
    | .lower => some (if b.lower then moveDual st i b.var y (if b.factor < 0 then .upper else .lower) else st)
    | .upper => some (if b.upper then moveDual st i b.var y (if b.factor < 0 then .lower else .upper) else st)
    | .both => none
  else none

/-- `desired_var_state_in_forcing_constraint`, preprocessor/restore.c:363-381. -/
def forcedState (atUpper : Bool) (factor : K) : ActiveState :=
  let prodAtUpper := !atUpper
  if (if factor > 0 then prodAtUpper else !prodAtUpper) then .upper else .lower

/-- first loop of `correct_forcing_constraint`, preprocessor/restore.c:383-504: `has_inverted_residual_sign`, `max_index`,
`max_dual`. -/
def scanForced (res : Nat → K) (atUpper : Bool) (acc : Bool × Nat × K) (e : (Nat × K) × Nat) : Option (Bool × Nat × K) :=
  let target := -res e.1.1
  if decide (forcedState atUpper e.1.2 = .upper) = decide (target ≥ 0) then some acc
  else
    (cdiv target e.1.2).map fun y =>
      if |y| > |acc.2.2| then (true, e.2, y) else (true, acc.2)

/-- second loop of `correct_forcing_constraint`, preprocessor/restore.c:383-504. -/
def assignForced (eps : K) (atUpper : Bool) (maxIndex : Nat) (y : K) (st : RestoreSt K) (e : (Nat × K) × Nat) :
    Option (RestoreSt K) :=
  let j := e.1.1
  if e.2 = maxIndex then some { st with res := setAt st.res j 0 }
  else
    let d := -(st.res j + e.1.2 * y)
    if (if forcedState atUpper e.1.2 = .lower then isLeq d 0 eps else isGeq d 0 eps) then
      some { st with
        varState := setAt st.varState j (forcedState atUpper e.1.2)
        varDual := setAt st.varDual j d
        res := setAt st.res j 0 }
    else none

/-- third loop of `correct_forcing_constraint`, preprocessor/restore.c:383-504. -/
def plainForced (atUpper : Bool) (st : RestoreSt K) (e : Nat × K) : Option (RestoreSt K) :=
  correctRes { st with varState := setAt st.varState e.1 (forcedState atUpper e.2) } e.1

/-- the constraint becomes active in `correct_forcing_constraint`, preprocessor/restore.c:383-504. -/
def activateForcing (st : RestoreSt K) (i : Nat) (atUpper : Bool) (y : K) : RestoreSt K :=
  { st with
    consState := setAt st.consState i (if atUpper then .upper else .lower)
    consDual := setAt st.consDual i y }

/-- `correct_forcing_constraint`, preprocessor/restore.c:383-504; `junk` is the initial value of the uninitialised
`max_index`. -/
def correctForcing (eps : K) (numGen junk : Nat) (st : RestoreSt K) (f : Forcing K) : Option (RestoreSt K) :=
  (f.coeffs.zipIdx.foldlM (scanForced st.res f.atUpper) (false, junk, 0)).bind fun acc =>
  let y := acc.2.2
  if acc.1 then
    if (if f.atUpper then y ≥ 0 else y ≤ 0) ∧ st.consDual (numGen + f.cons) = 0 then
      f.coeffs.zipIdx.foldlM (assignForced eps f.atUpper acc.2.1 y) (activateForcing st (numGen + f.cons) f.atUpper y)
    else none
  else f.coeffs.foldlM (plainForced f.atUpper) st

/-- the arrays before the corrections, preprocessor/restore.c:254-736: working set, multipliers and residuals in
`sleqp_restoration_restore_iterate`. -/
def prepareRestore (zeroEps : K) (p : Prob K) (s : Presolve K) (w : WSet) (varsDual consDual : Vec K) (it : Iterate K) :
    Option (RestoreSt K) :=
  (varsDual.ents.foldlM (putVarDual (s.varMap p.numVars)) fun _ => 0).bind fun vd =>
  (consDual.ents.foldlM (putConsDual p.numGen (s.linMap p.numLin)) fun _ => 0).bind fun cd =>
  (restoreResiduals zeroEps p.numVars (p.numGen + p.numLin) vd cd it).map fun res =>
    ⟨restoreVarState s w, restoreConsState s p.numGen w, vd, cd, res⟩

/-- the three corrections in `sleqp_restoration_restore_iterate`, preprocessor/restore.c:738-823: fixed variables,
converted bounds, forcing constraints. -/
def correctAll (eps : K) (p : Prob K) (s : Presolve K) (junk : Nat) (st : RestoreSt K) : Option (RestoreSt K) :=
  ((s.fixedList p.numVars).foldlM (correctFixedStep s) st).bind fun st1 =>
  (s.conv.foldlM (correctConverted p.numGen) st1).bind fun st2 =>
  s.forcing.foldlM (correctForcing eps p.numGen junk) st2

/-- loops of `store_working_set`, preprocessor/restore.c:175-207. -/
def storeWorkingSet (n m : Nat) (varState consState : Nat → ActiveState) (w : WSet) : Option WSet :=
  ((List.range n).foldlM (fun w j => if varState j ≠ .inactive then w.addVar j (varState j) else some w) w.reset).bind
    fun w1 => (List.range m).foldlM (fun w i => if consState i ≠ .inactive then w.addCons i (consState i) else some w) w1

/-- `sleqp_restoration_restore_iterate`, preprocessor/restore.c:738-823: working set `w` and multipliers of the transformed
iterate; working set `w0` of the original iterate `it`, whose point and derivatives have been restored. -/
def restoreMultipliers (eps zeroEps : K) (p : Prob K) (s : Presolve K) (junk : Nat) (w : WSet) (varsDual consDual : Vec K)
    (w0 : WSet) (it : Iterate K) : Option (WSet × Iterate K) :=
  (prepareRestore zeroEps p s w varsDual consDual it).bind fun st =>
  (correctAll eps p s junk st).bind fun st1 =>
  (storeWorkingSet p.numVars (p.numGen + p.numLin) st1.varState st1.consState w0).bind fun w1 =>
  (storeDuals zeroEps p.numVars (p.numGen + p.numLin) st1.varDual st1.consDual it).map fun it1 => (w1, it1)

end
end Sleqp
