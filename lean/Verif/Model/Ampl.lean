import Verif.Model.Cmp
import Verif.Model.Mat
import Verif.Model.WorkingSet
import Verif.Model.Solver

/-!
Model of the AMPL interface, `/repo/bindings/ampl`: the optimization problem read by the
AMPL solver library (ASL) as seen by SLEQP, and what is reported back.

The ASL is an oracle (`Asl`).  Vectors crossing the interface are dense arrays, written
as functions of the index; their conversion to sparse vectors (`sleqp_vec_to_raw`,
`sleqp_vec_set_from_raw`) is C03 and is left out here.
-/

namespace Sleqp

/-- Outcome of an evaluation by the ASL: an error was reported (`*nerror != 0`), some value
is not finite (`sleqp_is_finite`), or finite values. -/
inductive AslEval (α : Type*)
  | error | nonfinite | val (a : α)

/-- change of a value -/
def AslEval.map {α β : Type*} (f : α → β) : AslEval α → AslEval β
  | .error => .error
  | .nonfinite => .nonfinite
  | .val a => .val (f a)

/-- is this a rejected evaluation? bindings/ampl/ampl_func.c:156-187 -/
def AslEval.bad {α : Type*} : AslEval α → Bool
  | .val _ => false
  | _ => true

/-- The problem as read by the ASL: `n_var`, `n_con`, `nlc` (constraints below `nlc` are
nonlinear, the others linear), whether the objective is maximised
(`sleqp_ampl_max_problem`, bindings/ampl/ampl_util.c:3-12), `objconst(0)`, `objval`,
`conval`, `objgrd`, and the products of a direction with the Hessian of the objective
and of each constraint, from which `hvcomp` combines its result. -/
structure Asl (K : Type*) where
  numVars : Nat
  numCons : Nat
  numNonlin : Nat
  maximize : Bool
  offset : K
  obj : (Nat → K) → AslEval K
  cons : (Nat → K) → AslEval (Nat → K)
  grad : (Nat → K) → Nat → K
  hessObj : (Nat → K) → (Nat → K) → Nat → K
  hessCons : Nat → (Nat → K) → (Nat → K) → Nat → K

variable {K : Type*} [Field K] [LinearOrder K]

/-- `AmplFuncData`, bindings/ampl/ampl_func.c:20-49 (and `cons_val` of `SleqpAmplData`). The
`evaluated` flags are two booleans. `seenObj`, `seenCons` are the points at which the
ASL last evaluated objective and constraints: `hvcomp` works there. -/
structure AmplFunc (K : Type*) where
  x : Nat → K
  objVal : AslEval K
  consVal : AslEval (Nat → K)
  cached : Bool
  evalObj : Bool
  evalCons : Bool
  seenObj : Nat → K
  seenCons : Nat → K

namespace AmplFunc

/-- `ampl_func_data_create`, bindings/ampl/ampl_func.c:51-102: `obj_val` is 0, nothing is evaluated. The
arrays are not initialised: their contents are arbitrary. -/
def create (x0 : Nat → K) : AmplFunc K :=
  { x := x0, objVal := .val 0, consVal := .val fun _ => 0, cached := false, evalObj := false, evalCons := false
    seenObj := x0, seenCons := x0 }

/-- `eval_obj`, bindings/ampl/ampl_func.c:122-134. -/
def doObj (A : Asl K) (s : AmplFunc K) : AmplFunc K :=
  { s with objVal := A.obj s.x, evalObj := true, seenObj := s.x }

/-- `eval_cons`, bindings/ampl/ampl_func.c:136-149. -/
def doCons (A : Asl K) (s : AmplFunc K) : AmplFunc K :=
  { s with consVal := A.cons s.x, evalCons := true, seenCons := s.x }

/-- is an error reported? `SLEQP_AMPL_IS_ERROR`, bindings/ampl/ampl_func.c:7 -/
def _root_.Sleqp.AslEval.isError {α : Type*} : AslEval α → Bool
  | .error => true
  | _ => false

/-- `ampl_func_set`, bindings/ampl/ampl_func.c:192-219, with `set_eval`, bindings/ampl/ampl_func.c:151-190: state and
`reject`. `trying` is: the reason is `TRYING_ITERATE` or `TRYING_SOC_ITERATE`. -/
def set (A : Asl K) (trying : Bool) (x : Nat → K) (s0 : AmplFunc K) : AmplFunc K × Bool :=
  let s := { s0 with x := x, evalObj := false, evalCons := false }
  if trying then
    let s1 := s.doObj A
    if s1.objVal.isError then ({ s1 with cached := true }, true)
    else
      let s2 := s1.doCons A
      if s2.consVal.isError then ({ s2 with cached := true }, true)
      else ({ s2 with cached := true }, s2.objVal.bad || s2.consVal.bad)
  else ({ s with cached := false }, false)

/-- objective in the form which is minimised: the constant is added, the sign is changed
for maximisation (bindings/ampl/ampl_func.c:255-260) -/
def _root_.Sleqp.Asl.minForm (A : Asl K) (v : K) : K := if A.maximize then (v + A.offset) * (-1) else v + A.offset

/-- `ampl_obj_val`, bindings/ampl/ampl_func.c:236-263. When the value is not cached, it is returned
but not stored. -/
def getObj (A : Asl K) (s : AmplFunc K) : AmplFunc K × AslEval K :=
  if s.cached then (s, s.objVal.map A.minForm)
  else ({ s with evalObj := true, seenObj := s.x }, (A.obj s.x).map A.minForm)

/-- `ampl_cons_val`, bindings/ampl/ampl_func.c:288-312: only the first `nlc` values are returned, the array is
the one values are stored in. -/
def getCons (A : Asl K) (s : AmplFunc K) : AmplFunc K × AslEval (Nat → K) :=
  if s.cached then (s, s.consVal)
  else (s.doCons A, A.cons s.x)

/-- `ampl_obj_grad`, bindings/ampl/ampl_func.c:265-286 (errors left out). -/
def getGrad (A : Asl K) (s : AmplFunc K) : AmplFunc K × (Nat → K) :=
  ({ s with seenObj := s.x }, fun j => if A.maximize then A.grad s.x j * (-1) else A.grad s.x j)

/-- `ensure_eval`, bindings/ampl/ampl_func.c:358-382: `none` is a failed assert. -/
def ensureEval (A : Asl K) (s : AmplFunc K) : Option (AmplFunc K) :=
  (if s.evalObj then some s
    else if (A.obj s.x).isError then none else some (s.doObj A)).bind fun s =>
  (if s.evalCons then some s
    else if (A.cons s.x).isError then none else some (s.doCons A)).map fun s =>
  { s with cached := true }

/-- `ampl_func_hess_product`, bindings/ampl/ampl_func.c:384-430: for maximisation the multipliers are
negated and so is the product. -/
def getHess (A : Asl K) (s0 : AmplFunc K) (d mult : Nat → K) : Option (AmplFunc K × (Nat → K)) :=
  (s0.ensureEval A).map fun s =>
    let y := fun i => if A.maximize then mult i * (-1) else mult i
    let hv := fun j => 1 * A.hessObj s.seenObj d j + ((List.range A.numNonlin).map fun i => y i * A.hessCons i s.seenCons d j).sum
    (s, fun j => if A.maximize then hv j * (-1) else hv j)

/-- A call on the function. -/
inductive Op (K : Type*)
  | set (trying : Bool) (x : Nat → K)
  | obj
  | cons
  | grad
  | hess (d mult : Nat → K)

/-- one call -/
def Op.apply (A : Asl K) (s : AmplFunc K) : Op K → Option (AmplFunc K)
  | .set t x => some (s.set A t x).1
  | .obj => some (s.getObj A).1
  | .cons => some (s.getCons A).1
  | .grad => some (s.getGrad A).1
  | .hess d m => (s.getHess A d m).map Prod.fst

/-- a history of calls -/
def run (A : Asl K) (s : AmplFunc K) (ops : List (Op K)) : Option (AmplFunc K) :=
  ops.foldlM (fun (s : AmplFunc K) op => op.apply A s) s

end AmplFunc

/-- the loop `while (col >= next_col) push_col(next_col++)`, bindings/ampl/ampl_func.c:337-340 -/
def Mat.pushColsTo (m : Mat K) (next upto : Nat) : Option (Mat K) :=
  (List.range' next (upto - next)).foldlM (fun (m : Mat K) j => m.pushCol j) m

/-- Loop over the nonzeros in `ampl_cons_jac`, bindings/ampl/ampl_func.c:314-356 (`keep` selects the rows
below `nlc`), and in `compute_linear_coeffs`, bindings/ampl/ampl_problem.c:8-44 (`keep` selects the others and
subtracts `nlc`): entries are triplets of row, column, value. -/
def Mat.tripletLoop (keep : Nat → Option Nat) : Mat K → Nat → List (Nat × Nat × K) → Option (Mat K × Nat)
  | m, next, [] => some (m, next)
  | m, next, (r, c, v) :: es =>
    (m.pushColsTo next (c + 1)).bind fun m1 =>
    (match keep r with
      | some r' => m1.push r' c v
      | none => some m1).bind fun m2 =>
    Mat.tripletLoop keep m2 (max next (c + 1)) es

/-- The whole assembly, bindings/ampl/ampl_func.c:314-356, bindings/ampl/ampl_problem.c:8-44. -/
def Mat.fromTriplets (keep : Nat → Option Nat) (m : Mat K) (es : List (Nat × Nat × K)) : Option (Mat K) :=
  (Mat.tripletLoop keep m 0 es).bind fun r => r.1.pushColsTo r.2 m.numCols

/-- `ampl_cons_jac`, bindings/ampl/ampl_func.c:314-356, into the cleared matrix; `es` are the nonzeros of the Jacobian of
all constraints in the order of the ASL. -/
def amplConsJac (numNonlin : Nat) (es : List (Nat × Nat × K)) (dest : Mat K) : Option (Mat K) :=
  Mat.fromTriplets (fun r => if r < numNonlin then some r else none) (dest.clear.reserve es.length) es

/-- `compute_linear_coeffs`, bindings/ampl/ampl_problem.c:8-44, into a new matrix of capacity `nzc`. -/
def amplLinearCoeffs (numCons numNonlin numVars : Nat) (es : List (Nat × Nat × K)) (row : Nat → Nat) (val : Nat → K) :
    Option (Mat K) :=
  Mat.fromTriplets (fun r => if r < numNonlin then none else some (r - numNonlin))
    (Mat.create (numCons - numNonlin) numVars es.length row val) es

/-- Offsets of the linear constraints, bindings/ampl/ampl_problem.c:53-76: `vals` are their values at `x`. -/
def amplLinearOffset (coeffs : Nat → Nat → K) (numVars : Nat) (vals x : Nat → K) (i : Nat) : K :=
  vals i - ((List.range numVars).map fun j => coeffs i j * x j).sum

/-- New bounds of the linear constraints, bindings/ampl/ampl_problem.c:78-94: in both cases the bound is
compared to `-inf`. -/
def amplShiftBounds (inf : K) (off lb ub : K) : K × K :=
  (if lb ≠ -inf then lb - off else lb, if ub ≠ -inf then ub - off else ub)

/-- Multipliers as reported in `sleqp_ampl_report`, bindings/ampl/ampl_output.c:195-243. -/
def amplDual (maximize : Bool) (l : K) : K := if maximize then l else l * (-1)

/-- Objective as printed in `report_with_status_message`, bindings/ampl/ampl_output.c:100-175: the
value of the iterate. -/
def amplReportedObj (iterateObj : K) : K := iterateObj

/-- `map_state`, bindings/ampl/ampl_output.c:37-54, as the codes of the AMPL table of states. -/
def amplState : ActiveState → Nat
  | .inactive => 6
  | .lower => 3
  | .upper => 4
  | .both => 5

/-- `report_with_status_message`, bindings/ampl/ampl_output.c:100-175: `solve_result_num`; whether the objective is
printed is `≠ 501`. -/
def amplResult : SStatus → Nat
  | .optimal => 0
  | .infeasible => 200
  | .unbounded => 300
  | .abortDeadpoint => 500
  | .abortIter => 410
  | .abortTime => 400
  | _ => 501

end Sleqp
