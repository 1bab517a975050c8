import Verif.Model.Mex
import Verif.Model.Events

/-!
Model of the callbacks of the MATLAB / Octave interface: `mex_func.c`, `mex_lsq.c`, `mex_dyn.c`, `mex_hess.c` and the
callback for accepted iterates in `mex_solve_common.c`, all in `/repo/bindings/mex`.

What is modelled is which function handle is called with which arguments; the conversion of the results is in
`Model/Mex.lean`.  A handle is an element of a type `H`; a call of the null handle, and writing past the end of an array,
is undefined (`none`).
-/

namespace Sleqp

/-- names of callbacks, bindings/mex/mex_fields.h:25-30, 43-47, 58 -/
inductive MexField
  | objVal | objGrad | consVal | consJac | hess | hessProd | lsqRes | lsqFwd | lsqAdj | eval | accepted
  deriving DecidableEq

/-- a field of the structure of callbacks: a function handle or some other array -/
inductive MexEntry (H : Type*)
  | handle (h : H)
  | other

/-- the structure of callbacks; absent fields are `none` -/
abbrev MexFuncs (H : Type*) := MexField → Option (MexEntry H)

/-- `mex_callback_from_struct`, bindings/mex/mex_func_common.c:6-18 -/
def MexFuncs.get {H : Type*} (f : MexFuncs H) (name : MexField) : MexRes H :=
  match f name with
  | some (.handle h) => .ok h
  | _ => .err

/-- An argument of a callback: a dense array of doubles, or the structure with the error bound, the weight of the objective
and (if there are constraints) the weights of the constraints. -/
inductive MexArg (K : Type*)
  | array (rows cols : Nat) (data : List K)
  | info (bound weight : K) (weights : Option (List K))
  deriving DecidableEq

/-- a call `feval(fn, args...)` with `nlhs` results -/
structure MexCall (H K : Type*) where
  fn : H
  args : List (MexArg K)
  nlhs : Nat
  deriving DecidableEq

/-- the type of the function -/
inductive MexKind
  | regular | lsq | dyn
  deriving DecidableEq

/-- `MexHess`, bindings/mex/mex_hess.h; `dir` is the array `hess_dir`, present if products are computed by the callback;
`nargs` the length of `args` -/
structure MexHess (H K : Type*) where
  fn : H
  dir : Option (List K)
  consDual : List K
  nargs : Nat

/-- `FuncData`, bindings/mex/mex_func.c:22-38, `LSQFuncData`, bindings/mex/mex_lsq.c:6-24, and `DynFuncData`,
bindings/mex/mex_dyn.c:8-30, in one -/
structure MexData (H K : Type*) where
  kind : MexKind
  objVal : Option H
  objGrad : Option H
  consVal : Option H
  consJac : Option H
  lsqRes : Option H
  lsqFwd : Option H
  lsqAdj : Option H
  eval : Option H
  hess : Option (MexHess H K)
  primal : List K
  forwardDir : List K
  adjointDir : List K
  bound : K
  weight : K
  weights : Option (List K)

section
variable {K : Type*} [Field K] [LinearOrder K] {H : Type*}

/-- `mxCreateDoubleMatrix`: filled with zeros -/
def mxZeros (n : Nat) : List K := List.replicate n 0

/-- `sleqp_vec_to_raw(vec, mxGetPr(array))`, sparse/vec.c:105-119: the first `dim` elements are overwritten -/
def mxWrite (buf : List K) (v : Vec K) : Option (List K) :=
  if v.dim ≤ buf.length then some (v.toRaw ++ buf.drop v.dim) else none

/-- `mex_hess_init`, bindings/mex/mex_hess.c:7-43 -/
def mexHessInit (f : MexFuncs H) (n m : Nat) : MexRes (MexHess H K) :=
  if (f .hessProd).isSome then (f.get .hessProd).bind fun h => .ok ⟨h, some (mxZeros n), mxZeros m, 0⟩
  else (f.get .hess).bind fun h => .ok ⟨h, none, mxZeros m, 0⟩

/-- handles that are only needed if there are constraints -/
def MexFuncs.getCons (f : MexFuncs H) (m : Nat) (name : MexField) : MexRes (Option H) :=
  if 0 < m then (f.get name).bind fun h => .ok (some h) else .ok none

/-- the Hessian is set up on demand -/
def mexHessOpt (f : MexFuncs H) (n m : Nat) (withHess : Bool) : MexRes (Option (MexHess H K)) :=
  if withHess then (mexHessInit f n m).bind fun h => .ok (some h) else .ok none

/-- `create_func_data`, bindings/mex/mex_func.c:123-173 -/
def mexFuncCreate (f : MexFuncs H) (n m : Nat) (withHess : Bool) : MexRes (MexData H K) :=
  (f.get .objVal).bind fun ov =>
  (f.get .objGrad).bind fun og =>
  (f.getCons m .consVal).bind fun cv =>
  (f.getCons m .consJac).bind fun cj =>
  (mexHessOpt f n m withHess).bind fun hess =>
  .ok { kind := .regular, objVal := some ov, objGrad := some og, consVal := cv, consJac := cj, lsqRes := none
        lsqFwd := none, lsqAdj := none, eval := none, hess := hess, primal := mxZeros n, forwardDir := [], adjointDir := []
        bound := 0, weight := 0, weights := none }

/-- `create_lsq_func_data`, bindings/mex/mex_lsq.c:45-96, with `get_num_residuals`, bindings/mex/mex_lsq.c:27-43; `k` is
the number of elements of the array the callback for the residuals returns for the starting point. -/
def mexLsqCreate (f : MexFuncs H) (n m : Nat) (k : H → Nat) : MexRes (MexData H K) :=
  (f.get .lsqRes).bind fun r =>
  (f.get .lsqFwd).bind fun fw =>
  (f.get .lsqAdj).bind fun ad =>
  (f.getCons m .consVal).bind fun cv =>
  (f.getCons m .consJac).bind fun cj =>
  .ok { kind := .lsq, objVal := none, objGrad := none, consVal := cv, consJac := cj, lsqRes := some r
        lsqFwd := some fw, lsqAdj := some ad, eval := none, hess := none, primal := mxZeros n
        forwardDir := mxZeros n, adjointDir := mxZeros (k r), bound := 0, weight := 0, weights := none }

/-- `create_dyn_func_data`, bindings/mex/mex_dyn.c:38-113 -/
def mexDynCreate (f : MexFuncs H) (n m : Nat) (withHess : Bool) : MexRes (MexData H K) :=
  (f.get .eval).bind fun ev =>
  (f.get .objGrad).bind fun og =>
  (f.getCons m .consJac).bind fun cj =>
  (mexHessOpt f n m withHess).bind fun hess =>
  .ok { kind := .dyn, objVal := none, objGrad := some og, consVal := none, consJac := cj, lsqRes := none
        lsqFwd := none, lsqAdj := none, eval := some ev, hess := hess, primal := mxZeros n, forwardDir := [], adjointDir := []
        bound := 0, weight := 0, weights := if 0 < m then some (mxZeros m) else none }

/-- the function of the given type, bindings/mex/mex_problem.c:189-217; `k` residuals -/
def mexCreate (kind : MexKind) (f : MexFuncs H) (n m k : Nat) (withHess : Bool) : MexRes (MexData H K) :=
  match kind with
  | .regular => mexFuncCreate f n m withHess
  | .lsq => mexLsqCreate f n m fun _ => k
  | .dyn => mexDynCreate f n m withHess

/-- what the library asks of a function -/
inductive MexOp (K : Type*)
  | set (x : Vec K)
  | objVal | objGrad | consVal | consJac
  | hessProd (dir duals : Vec K)
  | residuals
  | jacForward (dir : Vec K)
  | jacAdjoint (dir : Vec K)
  | eval
  | errorBound (e : K)
  | objWeight (w : K)
  | consWeights (w : List K)

/-- a call with the handle `fn` -/
def mexCall (fn : Option H) (args : List (MexArg K)) (nlhs : Nat) : Option (MexCall H K) :=
  fn.map fun h => ⟨h, args, nlhs⟩

/-- the point as argument: a row, bindings/mex/mex_func.c:170 -/
def MexData.point (d : MexData H K) : MexArg K := .array 1 d.primal.length d.primal

/-- `error_info`, bindings/mex/mex_dyn.c:84-110 -/
def MexData.info (d : MexData H K) : MexArg K := .info d.bound d.weight d.weights

/-- `reserve_args`, bindings/mex/mex_hess.c:45-57 -/
def mexReserveArgs (nargs n : Nat) : Nat := if nargs > n then nargs else n

/-- `prepare_args`, bindings/mex/mex_hess.c:59-83: the array is reserved and filled, the first `default ++ extra` elements
are used. -/
def mexPrepareArgs (nargs : Nat) (default extra : List (MexArg K)) : Option (Nat × List (MexArg K)) :=
  let c := mexReserveArgs nargs (1 + default.length + extra.length)
  if 1 + default.length + extra.length ≤ c then some (c, default ++ extra) else none

/-- `mex_hess_prod`, bindings/mex/mex_hess.c:224-245, with `hess_prod_direct`, bindings/mex/mex_hess.c:141-172, and
`hess_prod_matrix`, bindings/mex/mex_hess.c:174-222, up to the call -/
def mexHessCall (h : MexHess H K) (point : MexArg K) (dir duals : Vec K) (extra : List (MexArg K)) :
    Option (MexHess H K × MexCall H K) :=
  (mxWrite h.consDual duals).bind fun y =>
    match h.dir with
    | some b =>
      (mxWrite b dir).bind fun b' =>
        let args := [point, .array b'.length 1 b', .array y.length 1 y]
        if extra.length = 0 then some ({ h with dir := some b', consDual := y }, ⟨h.fn, args, 1⟩)
        else (mexPrepareArgs h.nargs args extra).map fun r =>
          ({ h with dir := some b', consDual := y, nargs := r.1 }, ⟨h.fn, r.2, 1⟩)
    | none =>
      let args := [point, .array y.length 1 y]
      if extra.length = 0 then some ({ h with consDual := y }, ⟨h.fn, args, 1⟩)
      else (mexPrepareArgs h.nargs args extra).map fun r => ({ h with consDual := y, nargs := r.1 }, ⟨h.fn, r.2, 1⟩)

/-- One callback of the library, from setting the point to products with the Hessian and the Jacobian:
bindings/mex/mex_func.c:41-121, bindings/mex/mex_lsq.c:98-186 and bindings/mex/mex_dyn.c:115-254.  The second component is
the call made, if any. -/
def MexData.step (d : MexData H K) : MexOp K → Option (MexData H K × Option (MexCall H K))
  | .set x => (mxWrite d.primal x).map fun p => ({ d with primal := p }, none)
  | .objVal => (mexCall d.objVal [d.point] 1).map fun c => (d, some c)
  | .objGrad => (mexCall d.objGrad [d.point] 1).map fun c => (d, some c)
  | .consVal => (mexCall d.consVal [d.point] 1).map fun c => (d, some c)
  | .consJac => (mexCall d.consJac [d.point] 1).map fun c => (d, some c)
  | .hessProd dir duals =>
    d.hess.bind fun h =>
      (mexHessCall h d.point dir duals (if d.kind = .dyn then [d.info] else [])).map fun r =>
        ({ d with hess := some r.1 }, some r.2)
  | .residuals => (mexCall d.lsqRes [d.point] 1).map fun c => (d, some c)
  | .jacForward v =>
    (mxWrite d.forwardDir v).bind fun b =>
      (mexCall d.lsqFwd [d.point, .array 1 b.length b] 1).map fun c => ({ d with forwardDir := b }, some c)
  | .jacAdjoint v =>
    (mxWrite d.adjointDir v).bind fun b =>
      (mexCall d.lsqAdj [d.point, .array 1 b.length b] 1).map fun c => ({ d with adjointDir := b }, some c)
  | .eval => (mexCall d.eval [d.point, d.info] 3).map fun c => (d, some c)
  | .errorBound e => some ({ d with bound := e }, none)
  | .objWeight w => some ({ d with weight := w }, none)
  | .consWeights w =>
    d.weights.bind fun b =>
      if b.length ≤ w.length then some ({ d with weights := some (w.take b.length) }, none) else none

/-- a history of callbacks and the calls made -/
def MexData.run (d : MexData H K) : List (MexOp K) → Option (MexData H K × List (Option (MexCall H K)))
  | [] => some (d, [])
  | op :: ops => (d.step op).bind fun r => (r.1.run ops).map fun q => (q.1, r.2 :: q.2)

/-- `accepted_iterate`, bindings/mex/mex_solve_common.c:207-229, up to the call: `buf` is the array created by
`create_callback_data`, bindings/mex/mex_solve_common.c:231-239, `it` the iterate passed to the callback (see `acceptedEvent`,
`Model/Events.lean`) -/
def mexAccepted (fn : H) (buf : List K) (it : Iterate K) : Option (List K × MexCall H K) :=
  (mxWrite buf it.primal).map fun b => (b, ⟨fn, [.array b.length 1 b], 1⟩)

/-- what `accepted_iterate`, bindings/mex/mex_solve_common.c:207-229, does with the result of the call: a logical number
tells whether to abort, any other array is an error -/
def mexAcceptedResult (logical : Option Bool) : MexRes Bool :=
  match logical with
  | some b => .ok b
  | none => .err

end
end Sleqp
