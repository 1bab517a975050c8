import Verif.Model.Presolve

/-!
Model of `/repo/src/main/preprocessor/transform.c`: the problem handed to the solver after preprocessing.

The work vectors of the transformation are overwritten before use; they are created anew here (with the sizes of
`sleqp_transformation_create`, preprocessor/transform.c:48-136).  The function itself is modelled in
`Verif.Model.FixedVar`.
-/

namespace Sleqp

/-- value a variable is fixed to -/
def VarSt.fixed? {K : Type*} : VarSt K → Option K
  | .unchanged => none
  | .boundFixed v => some v
  | .forcingFixed v => some v

section
variable {K : Type*}

/-- loop of `create_fixed_variables`, preprocessor/preprocessing_state.c:437-474. -/
def Presolve.fixedList (s : Presolve K) (n : Nat) : List (Nat × K) :=
  (List.range n).filterMap fun j => (s.varSt j).fixed?.map fun v => (j, v)

/-- loop of `create_removed_linear_constraints`, preprocessor/preprocessing_state.c:476-508. -/
def Presolve.removedList (s : Presolve K) (m : Nat) : List Nat :=
  (List.range m).filter fun i => decide (s.consSt i ≠ .unchanged)

/-- `sleqp_preprocessing_state_flush`, preprocessor/preprocessing_state.c:510-521, with the asserts on the counters. -/
def Presolve.flush (s : Presolve K) (n m : Nat) : Option (List (Nat × K) × List Nat) :=
  if (s.fixedList n).length = s.numFixed ∧ (s.removedList m).length = s.numRemovedCons then
    some (s.fixedList n, s.removedList m)
  else none

/-- loop of `replace_redundant_bound`, preprocessor/transform.c:218-258: over the indices `j` and the entries of the source
not yet passed. -/
def replaceLoop (req : Nat → BoundReq) (st : BoundReq) (value : K) : List Nat → List (Nat × K) → List (Nat × K)
  | [], _ => []
  | j :: js, src =>
    if req j = st then (j, value) :: replaceLoop req st value js src
    else
      match src.dropWhile fun e => decide (e.1 < j) with
      | [] => replaceLoop req st value js []
      | (i, v) :: t =>
        if i = j then (j, v) :: replaceLoop req st value js t else replaceLoop req st value js ((i, v) :: t)

/-- `replace_redundant_bound`, preprocessor/transform.c:218-258. -/
def replaceRedundant (numRemoved : Nat) (req : Nat → BoundReq) (source target : Vec K) (st : BoundReq) (value : K) :
    Option (Vec K) :=
  ((target.clear).reserve (min source.dim (source.nnz + numRemoved))).pushAll
    (replaceLoop req st value (List.range source.dim) source.ents)

end

section
variable {K : Type*} [Field K] [LinearOrder K]

/-- `create_transformed_var_lb`, preprocessor/transform.c:293-362, and `create_transformed_var_ub`,
preprocessor/transform.c:364-433, depending on the redundancy `st` with its infinite `value`, and the function `pick`
(`SLEQP_MAX`, `SLEQP_MIN`) applied to the converted bounds `cb`. -/
def transVarBound (s : Presolve K) (zeroEps : K) (n : Nat) (fixed : List Nat) (source : Vec K) (st : BoundReq)
    (value : K) (pick : K → K → K) (cb : ConvBound K → K) : Option (Vec K) :=
  (replaceRedundant s.numVarBounds s.varReq source (Vec.create n n) st value).bind fun t =>
  let dense := s.conv.foldl (fun d b => setAt d b.var (pick (d b.var) (cb b))) t.value
  ((Vec.create (n - fixed.length) (n - fixed.length)).setFromRaw zeroEps ((List.range n).map dense)).bind fun sp =>
  sp.removeEntries (Vec.create (n - fixed.length) 0) fixed

/-- bounds of the linear constraints without the contribution of the fixed variables,
`transform_linear_constraints`, preprocessor/transform.c:435-561. -/
def fixedLinBound (zeroEps : K) (A : Mat K) (nt : Nat) (fx : List (Nat × K)) (bound : Vec K) : Option (Vec K) :=
  if fx.length > 0 then
    (((Vec.create A.numCols 0).reserve fx.length).pushAll fx).bind fun x =>
    (A.multVec x).bind fun d =>
    ((Vec.create nt nt).setFromRaw zeroEps ((List.range A.numRows).map d)).bind fun act =>
    bound.addScaled act 1 (-1) zeroEps (Vec.create A.numRows 0)
  else some bound

/-- `transform_linear_constraints`, preprocessor/transform.c:435-561, for one of the bound vectors; the number of removed
*variable* bounds decides about the replacement and the reserved memory. -/
def transLinBound (s : Presolve K) (zeroEps : K) (A : Mat K) (fx : List (Nat × K)) (removed : List Nat) (bound : Vec K)
    (st : BoundReq) (value : K) : Option (Vec K) :=
  (fixedLinBound zeroEps A (A.numCols - fx.length) fx bound).bind fun b =>
  (if s.numVarBounds > 0 then replaceRedundant s.numVarBounds s.consReq b (Vec.create A.numRows 0) st value
    else some b).bind fun r =>
  r.removeEntries (Vec.create (A.numRows - removed.length) 0) removed

/-- `sleqp_transformation_create_transformed_problem`, preprocessor/transform.c:563-619; `row`, `val`: uninitialised
arrays. -/
def transformProb (inf zeroEps : K) (p : Prob K) (s : Presolve K) (row : Nat → Nat) (val : Nat → K) :
    Except PErr (Prob K) :=
  (orAssert (s.flush p.numVars p.numLin)).bind fun fr =>
  let fx := fr.1
  let fixed := fx.map Prod.fst
  let nt := p.numVars - fx.length
  (orAssert (transVarBound s zeroEps p.numVars fixed p.varLb .redLower (-inf) max ConvBound.lb)).bind fun vl =>
  (orAssert (transVarBound s zeroEps p.numVars fixed p.varUb .redUpper inf min ConvBound.ub)).bind fun vu =>
  (orAssert (transLinBound s zeroEps p.coeffs fx fr.2 p.linLb .redLower (-inf))).bind fun ll =>
  (orAssert (transLinBound s zeroEps p.coeffs fx fr.2 p.linUb .redUpper inf)).bind fun lu =>
  (orAssert (p.coeffs.removeEntries (Mat.create (p.numLin - fr.2.length) nt 0 row val) fixed fr.2)).bind fun a =>
  (probCreate finBounds 0 nt p.numGen vl vu p.genLb p.genUb a ll lu row val).bind fun q =>
  if q.numVars + s.numFixed = p.numVars ∧ q.numGen + q.numLin + s.numRemovedCons = p.numGen + p.numLin then .ok q
  else .error .failedAssertion

/-- `sleqp_preprocessor_create`, preprocessor/preprocessor.c:636-743: analysis and transformed problem. -/
def preprocess (inf feasEps zeroEps : K) (p : Prob K) (row : Nat → Nat) (val : Nat → K) :
    Except PErr (Presolve K × Prob K) :=
  (orAssert (presolve inf feasEps p)).bind fun s => (transformProb inf zeroEps p s row val).map fun q => (s, q)

end
end Sleqp
