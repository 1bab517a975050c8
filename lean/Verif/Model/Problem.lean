import Verif.Model.Mat
import Verif.Model.Ext

/-!
Model of `problem.c`: creation of problems and evaluation of their constraints.

Bounds are vectors over a value type `V`; the operations the creation performs on values
are a parameter, instantiated for doubles with infinities and NaN (`extBounds`) and, for
problems all of whose bounds are finite, for the field itself (`finBounds`).
The callbacks of the user's function are represented by the vectors they leave behind.
-/

namespace Sleqp

/-- the error codes returned by the creation of a problem -/
inductive PErr
  | illegalArgument
  | failedAssertion
  deriving DecidableEq

/-- a failed assertion as error -/
def orAssert {α : Type*} : Option α → Except PErr α
  | some a => .ok a
  | none => .error .failedAssertion

/-- operations on bound values -/
structure BoundOps (V : Type*) where
  /-- C `a > b` -/
  gt : V → V → Bool
  /-- `vector_map(lb, -INFINITY, -inf)`, problem.c:115-127 -/
  convLb : V → V
  /-- `vector_map(ub, INFINITY, inf)`, problem.c:115-127 -/
  convUb : V → V
  /-- `sleqp_vec_is_finite`, sparse/vec.c:758-770 -/
  finite : Vec V → Bool

/-- doubles -/
def extBounds {K : Type*} [Field K] [LinearOrder K] (inf : K) : BoundOps (Ext K) where
  gt := Ext.gt
  convLb := fun x => if x = .ninf then .fin (-inf) else x
  convUb := fun x => if x = .pinf then .fin inf else x
  finite := Vec.isFiniteChk

/-- finite doubles -/
def finBounds {K : Type*} [LinearOrder K] : BoundOps K where
  gt := fun a b => decide (a > b)
  convLb := id
  convUb := id
  finite := fun _ => true

section
variable {V : Type*}

/-- `check_bounds`, problem.c:53-120: no lower bound above its upper bound; `zero` is the
value of absent entries. -/
def checkBounds (o : BoundOps V) (zero : V) (lb ub : Vec V) : Except PErr Unit :=
  if lb.dim = ub.dim then
    if (merge2 lb.ents ub.ents).all fun t => !o.gt (t.2.1.getD zero) (t.2.2.getD zero) then .ok ()
    else .error .illegalArgument
  else .error .failedAssertion

/-- `copy_create_vector`, problem.c:136-161; `target` is the existing vector or a new one. -/
def copyCreate (source : Vec V) (n : Nat) (target : Vec V) : Except PErr (Vec V) :=
  if source.isValid && decide (source.dim = n) then
    orAssert (source.copy ((target.resize n).reserve source.nnz))
  else .error .failedAssertion

/-- `convert_lb`, problem.c:163-179, and `convert_ub`, problem.c:181-197, depending on the
conversion `conv`. -/
def convertBound (o : BoundOps V) (conv : V → V) (source : Vec V) (n : Nat) (target : Vec V) :
    Except PErr (Vec V) :=
  (copyCreate source n target).bind fun t =>
    let t' : Vec V := { t with ents := t.ents.map fun e => (e.1, conv e.2) }
    if o.finite t' then .ok t' else .error .failedAssertion

/-- `SleqpProblem`, problem.c:15-51, without function, settings and caches. -/
structure Prob (V : Type*) where
  numVars : Nat
  numGen : Nat
  numLin : Nat
  varLb : Vec V
  varUb : Vec V
  genLb : Vec V
  genUb : Vec V
  linLb : Vec V
  linUb : Vec V
  consLb : Vec V
  consUb : Vec V
  coeffs : Mat V

/-- `stack_bounds`, problem.c:199-213. -/
def stackBounds (o : BoundOps V) (zero : V) (p : Prob V) : Except PErr (Prob V) :=
  (orAssert (p.genLb.concat p.linLb p.consLb)).bind fun cl =>
  (orAssert (p.genUb.concat p.linUb p.consUb)).bind fun cu =>
  (checkBounds o zero cl cu).map fun _ => { p with consLb := cl, consUb := cu }

/-- `problem_create`, problem.c:215-271; `n`, `m` are the numbers of variables and
constraints of the function; `row`, `val`: uninitialised arrays. -/
def probCreateBase (o : BoundOps V) (zero : V) (n m : Nat) (varLb varUb genLb genUb : Vec V)
    (row : Nat → Nat) (val : Nat → V) : Except PErr (Prob V) :=
  (convertBound o o.convLb varLb n (Vec.create n varLb.nnz)).bind fun vl =>
  (convertBound o o.convUb varUb n (Vec.create n varUb.nnz)).bind fun vu =>
  (convertBound o o.convLb genLb m (Vec.create m genLb.nnz)).bind fun gl =>
  (convertBound o o.convUb genUb m (Vec.create m genUb.nnz)).bind fun gu =>
  (checkBounds o zero vl vu).map fun _ =>
    ⟨n, m, 0, vl, vu, gl, gu, Vec.create 0 0, Vec.create 0 0, Vec.create 0 0, Vec.create 0 0,
      Mat.create 0 n 0 row val⟩

/-- `sleqp_problem_create_simple`, problem.c:273-290. -/
def probCreateSimple (o : BoundOps V) (zero : V) (n m : Nat) (varLb varUb genLb genUb : Vec V)
    (row : Nat → Nat) (val : Nat → V) : Except PErr (Prob V) :=
  (probCreateBase o zero n m varLb varUb genLb genUb row val).bind (stackBounds o zero)

/-- `sleqp_problem_create`, problem.c:292-362; the assertion that the coefficients are
finite is not modelled. -/
def probCreate (o : BoundOps V) (zero : V) (n m : Nat) (varLb varUb genLb genUb : Vec V) (coeffs : Mat V)
    (linLb linUb : Vec V) (row : Nat → Nat) (val : Nat → V) : Except PErr (Prob V) :=
  (probCreateBase o zero n m varLb varUb genLb genUb row val).bind fun p =>
  (orAssert (coeffs.copy (p.coeffs.resize coeffs.numRows n))).bind fun a =>
  (if a.isValid && decide (a.numCols = n) then Except.ok () else .error .failedAssertion).bind fun _ =>
  (convertBound o o.convLb linLb coeffs.numRows p.linLb).bind fun ll =>
  (convertBound o o.convUb linUb coeffs.numRows p.linUb).bind fun lu =>
  stackBounds o zero { p with numLin := coeffs.numRows, coeffs := a, linLb := ll, linUb := lu }

end

section
variable {K : Type*} [Field K] [LinearOrder K]

/-- `sleqp_problem_cons_val`, problem.c:549-584: `primal` is the current point, `general`
what the function's callback returns, `linear` the cache, `out` the vector to fill.  Only
the returned vector is modelled (the caches are overwritten before use). -/
def Prob.consVal (p : Prob K) (zeroEps : K) (primal general linear out : Vec K) : Option (Vec K) :=
  if p.numLin = 0 then some general
  else
    (p.coeffs.multVec primal).bind fun d =>
    if p.numGen = 0 then out.setFromRaw zeroEps ((List.range p.numLin).map d)
    else
      (linear.setFromRaw zeroEps ((List.range p.numLin).map d)).bind fun l => general.concat l out

/-- `sleqp_problem_cons_jac`, problem.c:586-604: `general` is the Jacobian the callback
returns. -/
def Prob.consJac (p : Prob K) (general out : Mat K) : Option (Mat K) :=
  if p.numLin = 0 then some general
  else if p.numGen = 0 then p.coeffs.copy out
  else general.vstack p.coeffs out

/-- `prepare_cons_duals`, problem.c:606-629; `cache` is `general_cons_duals`. -/
def Prob.prepareDuals (p : Prob K) (duals cache : Vec K) : Option (Vec K) :=
  ((cache.reserve duals.nnz).clear).pushAll (duals.ents.takeWhile fun e => decide (¬ e.1 ≥ p.numGen))

/-- the multipliers `sleqp_problem_hess_prod`, problem.c:631-651, passes to the function -/
def Prob.hessDuals (p : Prob K) (duals cache : Vec K) : Option (Vec K) :=
  if p.numLin = 0 then some duals else p.prepareDuals duals cache

/-- `vec_has_finite`, problem.c:675-695. -/
def vecHasFinite (inf : K) (v : Vec K) : Bool :=
  decide (v.nnz ≠ v.dim) || v.ents.any fun e => isFinite inf |e.2|

/-- `sleqp_problem_is_unconstrained`, problem.c:697-704. -/
def Prob.isUnconstrained (inf : K) (p : Prob K) : Bool :=
  !(vecHasFinite inf p.varLb || vecHasFinite inf p.varUb || vecHasFinite inf p.consLb || vecHasFinite inf p.consUb)

end

end Sleqp
