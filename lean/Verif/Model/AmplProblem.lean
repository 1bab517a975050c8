import Verif.Model.Ampl
import Verif.Model.Problem

/-!
Model of the creation of a problem from an AMPL model, `bindings/ampl/ampl_data.c` and
`bindings/ampl/ampl_problem.c`.

What the AMPL solver library (ASL) has read is a value of `AmplRead`.  The objective is not
part of it (see `Asl`).  Numbers are elements of an ordered field; the number representing
infinity in the ASL and that of SLEQP are parameters.
-/

namespace Sleqp

/-- What the ASL has read: `n_var`, `n_con`, `nlc`, `nzc`, the arrays of bounds and the
initial point set in bindings/ampl/ampl_data.c:56-61, the lists `Cgrad[i]` as pairs of `goff` and
`varno`, and the values computed by `conval` and `jacval` (evaluation errors are not
modelled). -/
structure AmplRead (K : Type*) where
  numVars : Nat
  numCons : Nat
  numNonlin : Nat
  nzc : Nat
  varLb : Nat → K
  varUb : Nat → K
  consLb : Nat → K
  consUb : Nat → K
  x : Nat → K
  cgrad : Nat → List (Nat × Nat)
  conVal : (Nat → K) → Nat → K
  jacVal : (Nat → K) → Nat → K

/-- Row and column of each nonzero, bindings/ampl/ampl_data.c:81-91; `none` is a failed assertion, an
entry `none` is one which was not written. -/
def amplScatter (numCons nzc : Nat) (cgrad : Nat → List (Nat × Nat)) : Option (Nat → Option (Nat × Nat)) :=
  (List.range numCons).foldlM (fun (a : Nat → Option (Nat × Nat)) i =>
    (cgrad i).foldlM (fun (a : Nat → Option (Nat × Nat)) cg =>
      if cg.1 < nzc then some (setAt a cg.1 (some (i, cg.2))) else none) a) fun _ => none

/-- The assertions on the order of the nonzeros, bindings/ampl/ampl_data.c:93-107; the last nonzero is
looked at only as successor. -/
def amplOrdered (numVars numCons nzc : Nat) (a : Nat → Option (Nat × Nat)) : Bool :=
  (List.range (nzc - 1)).all fun k =>
    match a k, a (k + 1) with
    | some (r, c), some (r', c') =>
      decide (c < numVars) && decide (r < numCons) && decide (c ≤ c') && (decide (c ≠ c') || decide (r < r'))
    | _, _ => false

variable {K : Type*} [Field K] [LinearOrder K]

/-- `map_ampl_inf`, bindings/ampl/ampl_data.c:5-23; `aInf` is `Infinity` of the ASL (and `negInfinity` its
negative), `inf` that of SLEQP. -/
def mapAmplInf (aInf inf v : K) : K := if v = -aInf then -inf else if v = aInf then inf else v

/-- The nonzeros of the Jacobian at the initial point as read by `compute_linear_coeffs`,
bindings/ampl/ampl_problem.c:8-44; `none`: an entry was never written. -/
def amplTriplets (d : AmplRead K) (a : Nat → Option (Nat × Nat)) : Option (List (Nat × Nat × K)) :=
  (List.range d.nzc).mapM fun k => (a k).map fun rc => (rc.1, rc.2, d.jacVal d.x k)

/-- A range of an array as sparse vector, into a new vector: `sleqp_vec_create_empty` and
`sleqp_vec_set_from_raw`, sparse/vec.c:71-103. -/
def rawVec (zeroEps : K) (n : Nat) (f : Nat → K) : Option (Vec K) :=
  (Vec.create n 0).setFromRaw zeroEps ((List.range n).map f)

/-- `sleqp_ampl_data_create`, bindings/ampl/ampl_data.c:25-111, after reading, then
`sleqp_ampl_problem_create`, bindings/ampl/ampl_problem.c:99-221; `row`, `val`: uninitialised arrays.
The number of constraints of the function is `nlc` (`sleqp_ampl_func_create`,
bindings/ampl/ampl_func.c:432-461). -/
def amplProblem (aInf inf zeroEps : K) (d : AmplRead K) (row : Nat → Nat) (val : Nat → K) : Except PErr (Prob K) :=
  (orAssert (amplScatter d.numCons d.nzc d.cgrad)).bind fun a =>
  if amplOrdered d.numVars d.numCons d.nzc a then
    let varLb := fun j => mapAmplInf aInf inf (d.varLb j)
    let varUb := fun j => mapAmplInf aInf inf (d.varUb j)
    let consLb := fun i => mapAmplInf aInf inf (d.consLb i)
    let consUb := fun i => mapAmplInf aInf inf (d.consUb i)
    (orAssert (rawVec zeroEps d.numVars varLb)).bind fun vl =>
    (orAssert (rawVec zeroEps d.numVars varUb)).bind fun vu =>
    if d.numCons - d.numNonlin > 0 then
      (orAssert ((amplTriplets d a).bind fun es => amplLinearCoeffs d.numCons d.numNonlin d.numVars es row val)).bind fun coeffs =>
      let off := amplLinearOffset coeffs.value d.numVars (fun i => d.conVal d.x (d.numNonlin + i)) d.x
      let shifted := fun i => amplShiftBounds inf (off i) (consLb (d.numNonlin + i)) (consUb (d.numNonlin + i))
      (orAssert (rawVec zeroEps d.numNonlin consLb)).bind fun gl =>
      (orAssert (rawVec zeroEps d.numNonlin consUb)).bind fun gu =>
      (orAssert (rawVec zeroEps (d.numCons - d.numNonlin) fun i => (shifted i).1)).bind fun ll =>
      (orAssert (rawVec zeroEps (d.numCons - d.numNonlin) fun i => (shifted i).2)).bind fun lu =>
      probCreate finBounds 0 d.numVars d.numNonlin vl vu gl gu coeffs ll lu row val
    else
      (orAssert (rawVec zeroEps d.numCons consLb)).bind fun gl =>
      (orAssert (rawVec zeroEps d.numCons consUb)).bind fun gu =>
      probCreateSimple finBounds 0 d.numVars d.numNonlin vl vu gl gu row val
  else .error .failedAssertion

end Sleqp
