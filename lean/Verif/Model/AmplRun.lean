import Verif.Model.Ampl
import Verif.Model.MexMain

/-!
Model of a run of the AMPL driver: `bindings/ampl/ampl_main.c`, `bindings/ampl/ampl_output.c`,
`bindings/ampl/ampl_suffix.c`.

What the stages do is given as data: the outcomes of reading the stub, of reading the model (C111), of
creating the problem (C111) and the solver (C84) and of the solve.  The arrays handed to the AMPL
library are blocks of a heap, since the library may keep the pointers.  Failures of allocations and
of the release of objects are left out.
-/

namespace Sleqp

variable {K : Type*} [Field K] [LinearOrder K]

/-- The solver after a solve which ended without error: status, number of iterations, solution and
its working set. -/
structure AmplSolved (K : Type*) where
  status : SStatus
  iterations : Nat
  iter : Iterate K
  ws : WSet

/-- Outcomes of the stages of bindings/ampl/ampl_main.c:11-112: `stub` (line 50), `dims` (line 57), `data`
(line 73), `problem` (line 82), `solver` (line 88) and `solve` (line 93).  A failing stage has a
message. -/
structure AmplStages (K : Type*) where
  numVars : Nat
  numCons : Nat
  maximize : Bool
  stub : Bool
  dims : Bool
  data : Except (List Char) Unit
  problem : Except (List Char) Unit
  solver : Except (List Char) Unit
  solve : Except (List Char) (AmplSolved K)

/-- Contents of the solution file: the message, the number of the result, the values of variables
and multipliers, the suffix `sstatus` of variables and constraints. -/
structure SolFile (K : Type*) where
  message : List Char
  result : Nat
  primal : Option (List K)
  dual : Option (List K)
  varStats : Option (List Nat)
  consStats : Option (List Nat)

/-- How a run ends: with an exit code, having written a solution file or not, or with undefined
behaviour (access to released memory). -/
inductive AmplRun (K : Type*)
  | exit (success : Bool) (sol : Option (SolFile K))
  | undef

/-- The blocks of memory holding suffixes; `none`: released. -/
abbrev SufHeap := List (Option (List Nat))

/-- Suffixes known to the AMPL library: the values themselves, or pointers to them. -/
inductive SufVal
  | copied (l : List Nat)
  | pointer (b : Nat)

/-- `suf_iput` of the AMPL library: `copies` whether it copies the values; in fact it keeps the
pointer. -/
def sufIput (copies : Bool) (h : SufHeap) (b : Nat) : Option SufVal :=
  if copies then (h.getD b none).map .copied else some (.pointer b)

/-- `write_sol` reads a suffix; `none`: released memory is read. -/
def sufRead (h : SufHeap) : SufVal → Option (List Nat)
  | .copied l => some l
  | .pointer b => h.getD b none

/-- `set_suffixes`, bindings/ampl/ampl_output.c:56-98: the arrays are filled, handed over and released. -/
def setSuffixes (copies : Bool) (numVars numCons : Nat) (w : WSet) : Option (SufHeap × SufVal × SufVal) :=
  let h : SufHeap := [some ((List.range numVars).map fun j => amplState (w.varState j)),
    some ((List.range numCons).map fun i => amplState (w.consState i))]
  (sufIput copies h 0).bind fun v => (sufIput copies h 1).map fun c => ([none, none], v, c)

/-- the messages in `report_with_status_message`, bindings/ampl/ampl_output.c:100-175 -/
def amplStatusText : SStatus → String
  | .optimal => "Optimal solution found"
  | .infeasible => "Failed to find feasible solution"
  | .unbounded => "Problem appears unbounded"
  | .abortDeadpoint => "Reached dead point"
  | .abortIter => "Reached iteration limit"
  | .abortTime => "Reached time limit"
  | _ => "Unknown status"

/-- `snprintf` into a buffer of `BUF_SIZE` (512) characters, bindings/ampl/ampl_output.c:7 -/
def bufText (l : List Char) : List Char := l.take 511

/-- `report_error`, bindings/ampl/ampl_output.c:177-193; `name` is the name and version of the solver. -/
def amplReportError (name : String) (msg : List Char) : SolFile K :=
  ⟨bufText (name.toList ++ ": ".toList ++ errText msg), 502, none, none, none, none⟩

/-- `sleqp_ampl_report`, bindings/ampl/ampl_output.c:195-243, without error, with
`report_with_status_message`, bindings/ampl/ampl_output.c:100-175; `showObj` prints the objective with the
precision of AMPL.  `none`: undefined behaviour. -/
def amplReport (copies : Bool) (name : String) (showObj : K → List Char) (t : AmplStages K) (s : AmplSolved K) :
    Option (SolFile K) :=
  (setSuffixes copies t.numVars t.numCons s.ws).bind fun (h, v, c) =>
    (sufRead h v).bind fun vs => (sufRead h c).map fun cs =>
      let val := if amplResult s.status = 501 then []
        else bufText (", objective: ".toList ++ showObj (amplReportedObj s.iter.objVal) ++ ", iterations: ".toList ++
          decText s.iterations)
      ⟨bufText (name.toList ++ ": ".toList ++ (amplStatusText s.status).toList ++ val), amplResult s.status,
        some s.iter.primal.toRaw, some (s.iter.consDual.toRaw.map (amplDual t.maximize)), some vs, some cs⟩

/-- The driver, bindings/ampl/ampl_main.c:11-120 -/
def amplRun (copies : Bool) (name : String) (showObj : K → List Char) (t : AmplStages K) : AmplRun K :=
  if !t.stub then .exit false none
  else if !t.dims then .exit false none
  else
    match t.data with
    | .error _ => .exit false none
    | .ok _ =>
      match t.problem with
      | .error _ => .exit false none
      | .ok _ =>
        match t.solver with
        | .error _ => .exit false none
        | .ok _ =>
          match t.solve with
          | .error m => .exit false (some (amplReportError name m))
          | .ok s =>
            match amplReport copies name showObj t s with
            | some f => .exit true (some f)
            | none => .undef

end Sleqp
