import Verif.Model.Problem
import Verif.Model.Preprocessing

/-!
Model of `/repo/src/main/preprocessor/preprocessor.c` and `/repo/src/main/preprocessor/preprocessing_state.c`:
the analysis of variable bounds and linear constraints.

The dense copies of the bounds made by `sleqp_vec_to_raw` are read as `Vec.value` (the same numbers, C04).  The
other arrays are functions on indices; all indices written are rows and columns of the coefficient matrix.  A failed
`assert` is `none`.  The flag `infeasible` of the preprocessor is kept in the same structure as the preprocessing state.
-/

namespace Sleqp

/-- `SleqpVariableState`, preprocessor/preprocessing_state.h:37-49. -/
inductive VarSt (K : Type*)
  | unchanged
  | boundFixed (value : K)
  | forcingFixed (value : K)
  deriving DecidableEq

/-- `SleqpConstraintState`, preprocessor/preprocessing_state.h:51-63 (`SLEQP_CONS_FORCING` is never used). -/
inductive ConsSt
  | unchanged
  | redundant
  | boundConverted (bound : Nat)
  deriving DecidableEq

/-- the bit set `SleqpBoundRequirementState`, preprocessor/preprocessing_state.h:65-72. -/
structure BoundReq where
  lower : Bool
  upper : Bool
  deriving DecidableEq

/-- `SLEQP_BOUND_REQUIRED` -/
def BoundReq.required : BoundReq := ⟨false, false⟩
/-- `SLEQP_BOUND_REDUNDANT_LOWER` -/
def BoundReq.redLower : BoundReq := ⟨true, false⟩
/-- `SLEQP_BOUND_REDUNDANT_UPPER` -/
def BoundReq.redUpper : BoundReq := ⟨false, true⟩
/-- `|=` on bit sets -/
def BoundReq.or (a b : BoundReq) : BoundReq := ⟨a.lower || b.lower, a.upper || b.upper⟩

/-- `SleqpConvertedBound`, preprocessor/preprocessing_state.h:13-23; the bits of `state` are `lower`, `upper`. -/
structure ConvBound (K : Type*) where
  cons : Nat
  var : Nat
  factor : K
  lb : K
  ub : K
  lower : Bool
  upper : Bool

/-- `SleqpForcingConstraint`, preprocessor/preprocessing_state.h:25-35; `atUpper` says whether `state` is
`SLEQP_UPPER_BOUND`. -/
structure Forcing (K : Type*) where
  cons : Nat
  coeffs : List (Nat × K)
  atUpper : Bool

/-- `SleqpPreprocessingState`, preprocessor/preprocessing_state.c:7-35, and the flag `infeasible`,
preprocessor/preprocessor.c:26-67. -/
structure Presolve (K : Type*) where
  varSt : Nat → VarSt K
  consSt : Nat → ConsSt
  varReq : Nat → BoundReq
  consReq : Nat → BoundReq
  conv : List (ConvBound K)
  forcing : List (Forcing K)
  numRedundant : Nat
  numFixed : Nat
  numVarBounds : Nat
  numConsBounds : Nat
  infeasible : Bool

namespace Presolve
variable {K : Type*}

/-- `sleqp_preprocessing_state_reset`, preprocessor/preprocessing_state.c:74-106. -/
def init : Presolve K :=
  ⟨fun _ => .unchanged, fun _ => .unchanged, fun _ => .required, fun _ => .required, [], [], 0, 0, 0, 0, false⟩

/-- `sleqp_preprocessing_state_fix_variable_to_bounds`, preprocessor/preprocessing_state.c:304-324. -/
def fixVar [DecidableEq K] (s : Presolve K) (j : Nat) (v : K) : Option (Presolve K) :=
  if s.varSt j = .unchanged then
    some { s with varSt := setAt s.varSt j (.boundFixed v), numFixed := s.numFixed + 1 }
  else none

/-- `sleqp_preprocessing_state_remove_linear_constraint`, preprocessor/preprocessing_state.c:282-302. -/
def removeCons (s : Presolve K) (i : Nat) : Option (Presolve K) :=
  if s.consSt i = .unchanged then
    some { s with
      consSt := setAt s.consSt i .redundant
      consReq := setAt s.consReq i ⟨true, true⟩
      numRedundant := s.numRedundant + 1 }
  else none

/-- `sleqp_preprocessing_state_convert_linear_constraint_to_bound`, preprocessor/preprocessing_state.c:108-147. -/
def convertCons [DecidableEq K] (s : Presolve K) (b : ConvBound K) : Option (Presolve K) :=
  if s.varSt b.var = .unchanged ∧ s.consSt b.cons = .unchanged then
    some { s with
      conv := s.conv ++ [b]
      consSt := setAt s.consSt b.cons (.boundConverted s.conv.length) }
  else none

/-- `sleqp_preprocessing_state_add_variable_bound_requirement`, preprocessor/preprocessing_state.c:377-391. -/
def addVarReq (s : Presolve K) (j : Nat) (r : BoundReq) : Presolve K :=
  { s with
    numVarBounds := if s.varReq j = .required then s.numVarBounds + 1 else s.numVarBounds
    varReq := setAt s.varReq j ((s.varReq j).or r) }

/-- `sleqp_preprocessing_state_add_linear_constraint_bound_requirement`,
preprocessor/preprocessing_state.c:393-407. -/
def addConsReq (s : Presolve K) (i : Nat) (r : BoundReq) : Presolve K :=
  { s with
    numConsBounds := if s.consReq i = .required then s.numConsBounds + 1 else s.numConsBounds
    consReq := setAt s.consReq i ((s.consReq i).or r) }

/-- `preprocessor->infeasible = true` -/
def setInfeasible (s : Presolve K) : Presolve K := { s with infeasible := true }

/-- append a forcing constraint -/
def pushForcing (s : Presolve K) (f : Forcing K) : Presolve K := { s with forcing := s.forcing ++ [f] }

/-- `sleqp_preprocessing_state_num_removed_linear_constraints`, preprocessor/preprocessing_state.c:416-421. -/
def numRemovedCons (s : Presolve K) : Nat := s.numRedundant + s.conv.length

end Presolve

section
variable {K : Type*} [Field K] [LinearOrder K]

/-- Loop over the entries of one column in `sleqp_preprocessing_state_add_forcing_constraint`,
preprocessor/preprocessing_state.c:149-280, second pass: the coefficients of row `i`. -/
def colCoeffs (i : Nat) : List (Nat × K) → List K
  | [] => []
  | (r, v) :: t => if r < i then colCoeffs i t else if i < r then [] else if v = 0 then [] else v :: colCoeffs i t

/-- Loop over the entries of one column in `sleqp_preprocessing_state_add_forcing_constraint`,
preprocessor/preprocessing_state.c:149-280, first pass: the number of coefficients of row `i`, for which memory is
allocated. -/
def countCoeffs (i : Nat) : List (Nat × K) → Nat
  | [] => 0
  | (r, v) :: t =>
    if r < i then countCoeffs i t
    else if i < r then 0
    else if v = 0 then countCoeffs i t
    else countCoeffs i t + 1

/-- the arrays `variables`, `factors` filled by `sleqp_preprocessing_state_add_forcing_constraint`,
preprocessor/preprocessing_state.c:149-280. -/
def forcingCoeffs (A : Mat K) (i : Nat) : List (Nat × K) :=
  (List.range A.numCols).flatMap fun j => (colCoeffs i (A.col j)).map fun v => (j, v)

/-- value of a variable in a forcing constraint, preprocessor/preprocessing_state.c:243-257; `lo`, `hi` are the bounds of
the variables. -/
def forcedValue (lo hi : Nat → K) (atUpper : Bool) (e : Nat × K) : K :=
  if decide (e.2 > 0) ≠ !atUpper then lo e.1 else hi e.1

/-- one coefficient in the second pass of `sleqp_preprocessing_state_add_forcing_constraint`,
preprocessor/preprocessing_state.c:149-280. -/
def forceVar (inf : K) (lo hi : Nat → K) (atUpper : Bool) (s : Presolve K) (e : Nat × K) : Option (Presolve K) :=
  if isFinite inf (forcedValue lo hi atUpper e) then
    some { s with
      numFixed := if s.varSt e.1 = .unchanged then s.numFixed + 1 else s.numFixed
      varSt := setAt s.varSt e.1 (.forcingFixed (forcedValue lo hi atUpper e)) }
  else none

/-- `sleqp_preprocessing_state_add_forcing_constraint`, preprocessor/preprocessing_state.c:149-280. -/
def addForcing (inf : K) (A : Mat K) (lo hi : Nat → K) (s : Presolve K) (i : Nat) (atUpper : Bool) :
    Option (Presolve K) :=
  (s.removeCons i).bind fun s1 =>
    if ((List.range A.numCols).map fun j => countCoeffs i (A.col j)).sum = 0 then some s1
    else
      ((forcingCoeffs A i).foldlM (forceVar inf lo hi atUpper) s1).map fun s2 =>
        s2.pushForcing ⟨i, forcingCoeffs A i, atUpper⟩

/-- A loop over matrix entries that updates the cell of an array selected by `key`. -/
def scatter {α β : Type*} (key : α → Nat) (g : β → α → β) (f : Nat → β) (l : List α) : Nat → β :=
  l.foldl (fun f e => setAt f (key e) (g (f (key e)) e)) f

/-- body of `compute_cons_counts`, preprocessor/preprocessor.c:70-110: number of nonzero coefficients of a row and the
last one (column and value); `none` stands for the uninitialised entry. -/
def countStep (c : Nat × Option (Nat × K)) (e : Nat × Nat × K) : Nat × Option (Nat × K) :=
  if e.2.2 ≠ 0 then (c.1 + 1, some (e.2.1, e.2.2)) else c

/-- `compute_cons_counts`, preprocessor/preprocessor.c:70-110. -/
def consCounts (A : Mat K) : Nat → Nat × Option (Nat × K) :=
  scatter (fun e => e.1) countStep (fun _ => (0, none)) A.entries

/-- update of one end of the activity range of a row, preprocessor/preprocessor.c:302-352: `fin` is the finiteness
tested, `term` the contribution, `inft` the value stored if it is infinite. -/
def rangeStep (inf : K) (acc : K) (fin : Bool) (term inft : K) : K :=
  if fin then (if isFinite inf acc then acc + term else acc) else inft

/-- body of `compute_linear_bounds`, preprocessor/preprocessor.c:261-357: (minimum, maximum) of a row.  In the branch for
negative coefficients both ends test the upper bound of the variable. -/
def linStep (inf : K) (lo hi : Nat → K) (c : K × K) (e : Nat × Nat × K) : K × K :=
  if e.2.2 = 0 then c
  else if e.2.2 > 0 then
    (rangeStep inf c.1 (isFinite inf (lo e.2.1)) (e.2.2 * lo e.2.1) (-inf),
     rangeStep inf c.2 (isFinite inf (hi e.2.1)) (e.2.2 * hi e.2.1) inf)
  else
    (rangeStep inf c.1 (isFinite inf (hi e.2.1)) (e.2.2 * hi e.2.1) (-inf),
     rangeStep inf c.2 (isFinite inf (hi e.2.1)) (e.2.2 * lo e.2.1) inf)

/-- `compute_linear_bounds`, preprocessor/preprocessor.c:261-357. -/
def linRange (inf : K) (A : Mat K) (lo hi : Nat → K) : Nat → K × K :=
  scatter (fun e => e.1) (linStep inf lo hi) (fun _ => (0, 0)) A.entries

/-- first test of `compute_variable_bounds`, preprocessor/preprocessor.c:176-259 -/
def varStepUb (inf : K) (lo : Nat → K) (lub : Nat → K) (rng : Nat → K × K) (c : K × K) (e : Nat × Nat × K) : K × K :=
  if isFinite inf (lub e.1) && isFinite inf (rng e.1).1 && isFinite inf (lo e.2.1) then
    let b := 1 / e.2.2 * (lub e.1 - (rng e.1).1) + lo e.2.1
    if e.2.2 > 0 then (c.1, min c.2 b) else (max c.1 b, c.2)
  else c

/-- second test of `compute_variable_bounds`, preprocessor/preprocessor.c:176-259 -/
def varStepLb (inf : K) (hi : Nat → K) (llb : Nat → K) (rng : Nat → K × K) (c : K × K) (e : Nat × Nat × K) : K × K :=
  if isFinite inf (llb e.1) && isFinite inf (rng e.1).2 && isFinite inf (hi e.2.1) then
    let b := 1 / e.2.2 * (llb e.1 - (rng e.1).2) + hi e.2.1
    if e.2.2 > 0 then (max c.1 b, c.2) else (c.1, min c.2 b)
  else c

/-- body of `compute_variable_bounds`, preprocessor/preprocessor.c:176-259. -/
def varStep (inf : K) (lo hi llb lub : Nat → K) (rng : Nat → K × K) (c : K × K) (e : Nat × Nat × K) : K × K :=
  if e.2.2 = 0 then c else varStepLb inf hi llb rng (varStepUb inf lo lub rng c e) e

/-- `compute_variable_bounds`, preprocessor/preprocessor.c:176-259. -/
def varRange (inf : K) (A : Mat K) (lo hi llb lub : Nat → K) (rng : Nat → K × K) : Nat → K × K :=
  scatter (fun e => e.2.1) (varStep inf lo hi llb lub rng) (fun j => (lo j, hi j)) A.entries

/-- `convert_linear_constraint_to_bound`, preprocessor/preprocessor.c:112-174, for the row `i` with the single entry
`v` in column `j`; `v ≠ 0`. -/
def convBoundOf (inf : K) (lo hi : Nat → K) (llb lub : K) (i j : Nat) (v : K) : ConvBound K :=
  let ub0 := lub / v
  let lb0 := llb / v
  let lb := if v < 0 then ub0 else lb0
  let ub := if v < 0 then lb0 else ub0
  ⟨i, j, v, lb, ub, isFinite inf lb && decide (lb > lo j), isFinite inf ub && decide (ub < hi j)⟩

/-- `convert_linear_constraint_to_bound`, preprocessor/preprocessor.c:112-174. -/
def convertToBound (inf : K) (lo hi : Nat → K) (llb lub : K) (s : Presolve K) (i : Nat) (e : Option (Nat × K)) :
    Option (Presolve K) :=
  e.bind fun e =>
    if isFinite inf e.2 then
      let b := convBoundOf inf lo hi llb lub i e.1 e.2
      if b.lower || b.upper then s.convertCons b else s.removeCons i
    else none

/-- first loop of `remove_redundant_constraints`, preprocessor/preprocessor.c:543-634 -/
def dropStep (inf : K) (lo hi llb lub : Nat → K) (cnt : Nat → Nat × Option (Nat × K)) (s : Presolve K) (i : Nat) :
    Option (Presolve K) :=
  if s.consSt i ≠ .unchanged then some s
  else if isInfinite inf (-(llb i)) && isInfinite inf (lub i) then s.removeCons i
  else if (cnt i).1 = 0 then
    if llb i > 0 ∨ lub i < 0 then some s.setInfeasible else s.removeCons i
  else if (cnt i).1 = 1 then convertToBound inf lo hi (llb i) (lub i) s i (cnt i).2
  else some s

/-- second loop of `remove_redundant_constraints`, preprocessor/preprocessor.c:543-634 -/
def slackStep (inf feasEps : K) (llb lub : Nat → K) (rng : Nat → K × K) (s : Presolve K) (i : Nat) :
    Option (Presolve K) :=
  if s.consSt i ≠ .unchanged then some s
  else if !isInfinite inf (-(rng i).1) && !isInfinite inf (rng i).2 then
    if isLt (llb i) (rng i).1 feasEps && isGt (lub i) (rng i).2 feasEps then s.removeCons i else some s
  else some s

/-- the test of the upper bound in the first loop of `check_for_constraint_infeasibility`,
preprocessor/preprocessor.c:374-466 -/
def forceUpper (inf feasEps : K) (A : Mat K) (lo hi lub : Nat → K) (rng : Nat → K × K) (s : Presolve K) (i : Nat) :
    Option (Presolve K) :=
  if isFinite inf (lub i) then
    if isLt (lub i - (rng i).1) 0 feasEps then some s.setInfeasible
    else if isEq (lub i - (rng i).1) 0 feasEps then addForcing inf A lo hi s i true
    else some s
  else some s

/-- first loop of `check_for_constraint_infeasibility`, preprocessor/preprocessor.c:374-466 -/
def forceStep (inf feasEps : K) (A : Mat K) (lo hi llb lub : Nat → K) (rng : Nat → K × K) (s : Presolve K) (i : Nat) :
    Option (Presolve K) :=
  if s.consSt i ≠ .unchanged then some s
  else if isFinite inf (llb i) then
    if isLt ((rng i).2 - llb i) 0 feasEps then forceUpper inf feasEps A lo hi lub rng s.setInfeasible i
    else if isEq ((rng i).2 - llb i) 0 feasEps then addForcing inf A lo hi s i false
    else forceUpper inf feasEps A lo hi lub rng s i
  else forceUpper inf feasEps A lo hi lub rng s i

/-- second loop of `check_for_constraint_infeasibility`, preprocessor/preprocessor.c:374-466 -/
def consReqStep (inf feasEps : K) (llb lub : Nat → K) (rng : Nat → K × K) (s : Presolve K) (i : Nat) : Presolve K :=
  if s.consSt i ≠ .unchanged then s
  else
    let s1 := if isGt (rng i).1 (llb i) feasEps && isFinite inf (llb i) then s.addConsReq i .redLower else s
    if isLt (rng i).2 (lub i) feasEps && isFinite inf (lub i) then s1.addConsReq i .redUpper else s1

/-- body of `check_for_variable_infeasibility`, preprocessor/preprocessor.c:468-518 -/
def varReqStep (inf feasEps : K) (lo hi : Nat → K) (vrng : Nat → K × K) (s : Presolve K) (j : Nat) : Presolve K :=
  if s.varSt j ≠ .unchanged then s
  else
    let s0 := if isLt (vrng j).2 (vrng j).1 feasEps then s.setInfeasible else s
    let s1 := if isGt (vrng j).1 (lo j) feasEps && isFinite inf (lo j) then s0.addVarReq j .redLower else s0
    if isLt (vrng j).2 (hi j) feasEps && isFinite inf (hi j) then s1.addVarReq j .redUpper else s1

/-- body of `fix_variables_by_bounds`, preprocessor/preprocessor.c:520-541 -/
def fixStep (lo hi : Nat → K) (s : Presolve K) (j : Nat) : Option (Presolve K) :=
  if lo j = hi j then s.fixVar j (lo j) else some s

/-- The analysis made by `sleqp_preprocessor_create`, preprocessor/preprocessor.c:636-743: `fix_variables_by_bounds`,
preprocessor/preprocessor.c:520-541, and `remove_redundant_constraints`, preprocessor/preprocessor.c:543-634. -/
def presolve (inf feasEps : K) (p : Prob K) : Option (Presolve K) :=
  let lo := p.varLb.value
  let hi := p.varUb.value
  let llb := p.linLb.value
  let lub := p.linUb.value
  let rng := linRange inf p.coeffs lo hi
  ((List.range p.numVars).foldlM (fixStep lo hi) Presolve.init).bind fun s1 =>
  ((List.range p.numLin).foldlM (dropStep inf lo hi llb lub (consCounts p.coeffs)) s1).bind fun s2 =>
  ((List.range p.numLin).foldlM (slackStep inf feasEps llb lub rng) s2).bind fun s3 =>
  ((List.range p.numLin).foldlM (forceStep inf feasEps p.coeffs lo hi llb lub rng) s3).map fun s4 =>
  let s5 := (List.range p.numLin).foldl (consReqStep inf feasEps llb lub rng) s4
  (List.range p.numVars).foldl
    (varReqStep inf feasEps lo hi (varRange inf p.coeffs lo hi llb lub rng)) s5

/-- `SLEQP_PREPROCESSING_RESULT` -/
inductive PreResult
  | success
  | failure
  | infeasible
  deriving DecidableEq

/-- `sleqp_preprocessor_result`, preprocessor/preprocessor.c:745-770. -/
def Presolve.result (s : Presolve K) : PreResult :=
  if s.infeasible then .infeasible
  else if s.numFixed > 0 ∨ s.numRemovedCons > 0 ∨ s.numVarBounds > 0 then .success
  else .failure

end
end Sleqp
