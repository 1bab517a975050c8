import Verif.Model.Vec

/-!
Values with NaN and infinities, for the places where non-finite doubles decide
the outcome.  Comparison follows IEEE 754: every comparison with NaN is false.
-/

namespace Sleqp

/-- A `double`: finite value, `±inf` or NaN (rounding not modelled). -/
inductive Ext (K : Type*) where
  | fin (x : K)
  | pinf
  | ninf
  | nan
deriving DecidableEq

namespace Ext
variable {K : Type*} [LinearOrder K]

/-- C `isnan`. -/
def isNan : Ext K → Bool
  | nan => true
  | _ => false

/-- C `isinf`. -/
def isInf : Ext K → Bool
  | pinf => true
  | ninf => true
  | _ => false

/-- C `a <= b` on doubles. -/
def le : Ext K → Ext K → Bool
  | nan, _ => false
  | _, nan => false
  | ninf, _ => true
  | _, pinf => true
  | fin x, fin y => decide (x ≤ y)
  | _, _ => false

/-- C `a < b` on doubles. -/
def lt : Ext K → Ext K → Bool
  | nan, _ => false
  | _, nan => false
  | ninf, ninf => false
  | ninf, _ => true
  | pinf, _ => false
  | fin _, pinf => true
  | fin x, fin y => decide (x < y)
  | fin _, ninf => false

/-- C `a >= b`. -/
def ge (a b : Ext K) : Bool := le b a

/-- C `a > b`. -/
def gt (a b : Ext K) : Bool := lt b a

/-- `SLEQP_MAX(a,b) = a > b ? a : b`. -/
def cmax (a b : Ext K) : Ext K := if gt a b then a else b

end Ext

/-- `sleqp_vec_is_finite`, sparse/vec.c:758-770: the loop runs over
`k < nnz - 1`, i.e. over all entries but the last. -/
def Vec.isFiniteChk {K : Type*} [LinearOrder K] (v : Vec (Ext K)) : Bool :=
  v.ents.dropLast.all fun e => !(e.2.isNan || e.2.isInf)

end Sleqp
