import Verif.Model.AmplRun
import Verif.Spec.MexMain

/-!
What AMPL expects from a run of a solver.
-/

namespace Sleqp

variable {K : Type*} [Field K] [LinearOrder K]

/-- all stages succeed; `s` is the result of the solve -/
def AmplStages.Success (t : AmplStages K) (s : AmplSolved K) : Prop :=
  t.stub = true ∧ t.dims = true ∧ t.data = .ok () ∧ t.problem = .ok () ∧ t.solver = .ok () ∧ t.solve = .ok s

/-- some stage fails with message `m` (for files which cannot be opened: any message) -/
def AmplStages.Failure (t : AmplStages K) (m : List Char) : Prop :=
  t.stub = false ∨ t.dims = false ∨ t.data = .error m ∨ t.problem = .error m ∨ t.solver = .error m ∨ t.solve = .error m

/-- The classes of results of AMPL (section 14.2 of the AMPL book): hundreds of `solve_result_num`. -/
inductive AmplClass
  | solved | infeasible | unbounded | limit | failure

/-- the class of a number -/
def AmplClass.has : AmplClass → Nat → Prop
  | .solved, k => k < 100
  | .infeasible, k => 200 ≤ k ∧ k < 300
  | .unbounded, k => 300 ≤ k ∧ k < 400
  | .limit, k => 400 ≤ k ∧ k < 500
  | .failure, k => 500 ≤ k ∧ k < 600

/-- the class in which the end of a solve belongs -/
def SStatus.amplClass : SStatus → AmplClass
  | .optimal => .solved
  | .infeasible => .infeasible
  | .unbounded => .unbounded
  | .abortIter | .abortTime => .limit
  | _ => .failure

/-- The states of the table `sstatus` of AMPL: 3 at the lower bound, 4 at the upper bound, 5 for
equal bounds, 6 between the bounds. -/
def ActiveState.sstatus : ActiveState → Nat
  | .lower => 3
  | .upper => 4
  | .both => 5
  | .inactive => 6

/-- The solution file `f` describes the result `s`: class of the result, values of the variables,
multipliers with the sign used by AMPL, states of variables and constraints. -/
structure SolFile.Describes (t : AmplStages K) (s : AmplSolved K) (f : SolFile K) : Prop where
  result : s.status.amplClass.has f.result
  primal : ∃ l, f.primal = some l ∧ IsDense s.iter.primal l
  dual : ∃ l, f.dual = some l ∧ l.length = s.iter.consDual.dim ∧
    ∀ i < s.iter.consDual.dim, l[i]? = some ((if t.maximize then 1 else -1) * s.iter.consDual.value i)
  vars : ∃ l, f.varStats = some l ∧ l.length = t.numVars ∧ ∀ j < t.numVars, l[j]? = some (s.ws.varState j).sstatus
  cons : ∃ l, f.consStats = some l ∧ l.length = t.numCons ∧ ∀ i < t.numCons, l[i]? = some (s.ws.consState i).sstatus

end Sleqp
