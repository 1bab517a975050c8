import Verif.Model.Feas
import Verif.Model.Lsq
import Verif.Model.Problem
import Mathlib.Algebra.Order.Field.Basic

/-!
Model of `/repo/src/main/scale.c` and `/repo/src/main/problem_scaling.c`: scaling by
powers of two.

`ldexp x k` is `x * 2 ^ k` (overflow, underflow and the floating point
exception flags checked by `SLEQP_MATH_CHECK` are not modelled).  The weight arrays are lists;
reading past their end is the outcome `none`.
-/

namespace Sleqp

/-- `struct SleqpScaling`, scale.c:19-32; the numbers of variables and constraints
are the lengths of the lists, the caches are local. -/
structure Scaling where
  objW : ℤ
  varW : List ℤ
  consW : List ℤ
  deriving DecidableEq

/-- `sleqp_scaling_create`, scale.c:93-134 (negative sizes are no naturals). -/
def Scaling.create (numVars numCons : Nat) : Scaling :=
  ⟨0, List.replicate numVars 0, List.replicate numCons 0⟩

/-- `sleqp_scaling_reset`, scale.c:75-91. -/
def Scaling.reset (s : Scaling) : Scaling :=
  ⟨0, s.varW.map fun _ => 0, s.consW.map fun _ => 0⟩

/-- `sleqp_scaling_set_obj_weight`, scale.c:154-159. -/
def Scaling.setObjWeight (s : Scaling) (w : ℤ) : Scaling := { s with objW := w }

/-- `sleqp_scaling_set_var_weight`, scale.c:170-181: `none` is
`SLEQP_ILLEGAL_ARGUMENT`. -/
def Scaling.setVarWeight (s : Scaling) (j : Nat) (w : ℤ) : Option Scaling :=
  if j < s.varW.length then some { s with varW := s.varW.set j w } else none

/-- `sleqp_scaling_set_cons_weight`, scale.c:210-221. -/
def Scaling.setConsWeight (s : Scaling) (i : Nat) (w : ℤ) : Option Scaling :=
  if i < s.consW.length then some { s with consW := s.consW.set i w } else none

section Values
variable {K : Type*} [Field K]

/-- C `ldexp`. -/
def ldexp (x : K) (k : ℤ) : K := x * 2 ^ k

/-- `apply_const_scaling`, scale.c:34-43. -/
def applyConstScaling (v : Vec K) (k : ℤ) : Vec K :=
  { v with ents := v.ents.map fun e => (e.1, ldexp e.2 k) }

/-- `apply_const_unscaling`, scale.c:45-51. -/
def applyConstUnscaling (v : Vec K) (k : ℤ) : Vec K := applyConstScaling v ((-1) * k)

/-- `apply_unscaling`, scale.c:53-62. -/
def applyUnscaling (v : Vec K) (scales : List ℤ) (offset : ℤ) : Option (Vec K) :=
  (v.ents.mapM fun e => (scales[e.1]?).map fun w => (e.1, ldexp e.2 (w + offset))).map fun l => { v with ents := l }

/-- `apply_scaling`, scale.c:64-73. -/
def applyScaling (v : Vec K) (scales : List ℤ) (offset : ℤ) : Option (Vec K) :=
  (v.ents.mapM fun e => (scales[e.1]?).map fun w => (e.1, ldexp e.2 (-1 * w + offset))).map fun l => { v with ents := l }

/-- `while (index >= cols[col + 1]) ++col` in scale.c; the first argument counts the
columns left, reading `cols` past its end is `none`. -/
def advanceCol (m : Mat K) (index : Nat) : Nat → Nat → Option Nat
  | 0, _ => none
  | f + 1, c => if index ≥ m.ptr (c + 1) then advanceCol m index f (c + 1) else some c

/-- body of the loops over matrix entries in scale.c: state is the current column and the data
array, `w row col` the exponent. -/
def scaleMatBody (m : Mat K) (w : Nat → Nat → Option ℤ) (s : Nat × (Nat → K)) (index : Nat) :
    Option (Nat × (Nat → K)) :=
  (advanceCol m index (m.numCols - s.1) s.1).bind fun c =>
    (w (m.row index) c).map fun k => (c, setAt s.2 index (ldexp (s.2 index) k))

/-- the loop over matrix entries shared by `sleqp_scale_cons_jac`, `sleqp_scale_linear_coeffs`
and `sleqp_unscale_cons_jac` -/
def scaleMat (m : Mat K) (w : Nat → Nat → Option ℤ) : Option (Mat K) :=
  ((List.range m.nnz).foldlM (scaleMatBody m w) (0, m.val)).map fun s => { m with val := s.2 }

namespace Scaling
variable (s : Scaling)

/-- `sleqp_scale_obj_val`, scale.c:262-266. -/
def scaleObjVal (x : K) : K := ldexp x ((-1) * s.objW)

/-- `sleqp_scale_obj_weight`, scale.c:268-272. -/
def scaleObjWeight (x : K) : K := ldexp x ((-1) * s.objW)

/-- `sleqp_scale_lsq_obj_val`, scale.c:274-278. -/
def scaleLsqObjVal (x : K) : K := ldexp x ((-1) * 2 * s.objW)

/-- `sleqp_scale_lsq_residuals`, scale.c:280-284. -/
def scaleLsqResiduals (v : Vec K) : Vec K := applyConstUnscaling v s.objW

/-- `sleqp_scale_lsq_forward_direction`, scale.c:286-291. -/
def scaleLsqForward (v : Vec K) : Option (Vec K) := applyUnscaling v s.varW 0

/-- `sleqp_scale_lsq_adjoint_direction`, scale.c:293-298. -/
def scaleLsqAdjoint (v : Vec K) : Vec K := applyConstUnscaling v s.objW

/-- `sleqp_scale_point`, scale.c:300-306. -/
def scalePoint (v : Vec K) : Option (Vec K) := applyScaling v s.varW 0

/-- `sleqp_scale_obj_grad`, scale.c:308-316. -/
def scaleObjGrad (v : Vec K) : Option (Vec K) := applyUnscaling v s.varW ((-1) * s.objW)

/-- `sleqp_scale_cons_val`, scale.c:318-324. -/
def scaleConsVal (v : Vec K) : Option (Vec K) := applyScaling v s.consW 0

/-- `sleqp_scale_cons_weights`, scale.c:326-340: the first argument is the array of weights. -/
def scaleConsWeights (w : Nat → K) : List K :=
  (s.consW.mapIdx fun i k => ldexp (w i) (-1 * k))

/-- `sleqp_scale_cons_general`, scale.c:342-348. -/
def scaleConsGeneral (v : Vec K) : Option (Vec K) := applyScaling v s.consW 0

/-- `sleqp_scale_cons_linear`, scale.c:350-360: the weights from `num_general` on.  A linear
dimension exceeding the number of constraints (a pointer before the array) is `none`. -/
def scaleConsLinear (v : Vec K) : Option (Vec K) :=
  if v.dim ≤ s.consW.length then applyScaling v (s.consW.drop (s.consW.length - v.dim)) 0 else none

/-- `sleqp_scale_cons_jac`, scale.c:362-388. -/
def scaleConsJac (m : Mat K) : Option (Mat K) :=
  scaleMat m fun i j => (s.consW[i]?).bind fun a => (s.varW[j]?).map fun b => (-1) * a + b

/-- `sleqp_scale_linear_coeffs`, scale.c:390-421: note the index `num_linear + row`. -/
def scaleLinearCoeffs (m : Mat K) : Option (Mat K) :=
  if m.numRows ≤ s.consW.length then
    scaleMat m fun i j => (s.consW[m.numRows + i]?).bind fun a => (s.varW[j]?).map fun b => (-1) * a + b
  else none

/-- `sleqp_scale_cons_duals`, scale.c:423-431. -/
def scaleConsDuals (v : Vec K) : Option (Vec K) := applyUnscaling v s.consW ((-1) * s.objW)

/-- `sleqp_scale_var_duals`, scale.c:433-441. -/
def scaleVarDuals (v : Vec K) : Option (Vec K) := applyUnscaling v s.varW ((-1) * s.objW)

/-- `sleqp_scale_hessian_product`, scale.c:443-450. -/
def scaleHessProd (v : Vec K) : Option (Vec K) := applyUnscaling v s.varW ((-1) * s.objW)

/-- `sleqp_unscale_obj_val`, scale.c:492-496. -/
def unscaleObjVal (x : K) : K := ldexp x s.objW

/-- `sleqp_unscale_lsq_obj_val`, scale.c:498-502. -/
def unscaleLsqObjVal (x : K) : K := ldexp x (2 * s.objW)

/-- `sleqp_unscale_point`, scale.c:504-510. -/
def unscalePoint (v : Vec K) : Option (Vec K) := applyUnscaling v s.varW 0

/-- `sleqp_unscale_obj_grad`, scale.c:512-519. -/
def unscaleObjGrad (v : Vec K) : Option (Vec K) := applyScaling v s.varW s.objW

/-- `sleqp_unscale_cons_val`, scale.c:521-527. -/
def unscaleConsVal (v : Vec K) : Option (Vec K) := applyUnscaling v s.consW 0

/-- `sleqp_unscale_cons_jac`, scale.c:529-555. -/
def unscaleConsJac (m : Mat K) : Option (Mat K) :=
  scaleMat m fun i j => (s.consW[i]?).bind fun a => (s.varW[j]?).map fun b => (-1) * b + a

/-- `sleqp_unscale_cons_duals`, scale.c:557-565. -/
def unscaleConsDuals (v : Vec K) : Option (Vec K) := applyScaling v s.consW s.objW

/-- `sleqp_unscale_var_duals`, scale.c:567-574. -/
def unscaleVarDuals (v : Vec K) : Option (Vec K) := applyScaling v s.varW s.objW

/-- `sleqp_unscale_hessian_direction`, scale.c:576-587. -/
def unscaleHessDir (direction consDuals : Vec K) : Option (Vec K × Vec K) :=
  (applyUnscaling direction s.varW 0).bind fun d =>
    (applyScaling consDuals s.consW s.objW).map fun y => (d, y)

/-- `sleqp_scale_iterate`, scale.c:452-490. -/
def scaleIterate (lsq : Bool) (it : Iterate K) : Option (Iterate K) :=
  (s.scalePoint it.primal).bind fun x =>
  (s.scaleObjGrad it.objGrad).bind fun g =>
  (s.scaleConsVal it.consVal).bind fun c =>
  (s.scaleConsJac it.consJac).bind fun J =>
  (s.scaleConsDuals it.consDual).bind fun y =>
  (s.scaleVarDuals it.varsDual).map fun z =>
    ⟨x, if lsq then s.scaleLsqObjVal it.objVal else s.scaleObjVal it.objVal, g, c, J, y, z⟩

/-- `sleqp_unscale_iterate`, scale.c:589-628. -/
def unscaleIterate (lsq : Bool) (it : Iterate K) : Option (Iterate K) :=
  (s.unscalePoint it.primal).bind fun x =>
  (s.unscaleObjGrad it.objGrad).bind fun g =>
  (s.unscaleConsVal it.consVal).bind fun c =>
  (s.unscaleConsJac it.consJac).bind fun J =>
  (s.unscaleConsDuals it.consDual).bind fun y =>
  (s.unscaleVarDuals it.varsDual).map fun z =>
    ⟨x, if lsq then s.unscaleLsqObjVal it.objVal else s.unscaleObjVal it.objVal, g, c, J, y, z⟩

/-- the copies and scalings of the four bound vectors in `sleqp_problem_scaling_flush`,
problem_scaling.c:538-613 (`target` holds the vectors of the scaled problem). -/
def flushBounds (p target : Bounds K) : Option (Bounds K) :=
  ((p.varsLb.copy target.varsLb).bind s.scalePoint).bind fun vl =>
  ((p.varsUb.copy target.varsUb).bind s.scalePoint).bind fun vu =>
  ((p.consLb.copy target.consLb).bind s.scaleConsVal).bind fun cl =>
  ((p.consUb.copy target.consUb).bind s.scaleConsVal).map fun cu => ⟨vl, vu, cl, cu⟩

/-- the remaining part of `sleqp_problem_scaling_flush`, problem_scaling.c:538-613: bounds of the
general and linear constraints and linear coefficients; the result is
`(general_lb, general_ub, linear_lb, linear_ub, linear_coeffs)`. -/
def flushLinear (p target : Prob K) : Option (Vec K × Vec K × Vec K × Vec K × Mat K) :=
  ((p.genLb.copy target.genLb).bind s.scaleConsGeneral).bind fun gl =>
  ((p.genUb.copy target.genUb).bind s.scaleConsGeneral).bind fun gu =>
  ((p.linLb.copy target.linLb).bind s.scaleConsLinear).bind fun ll =>
  ((p.linUb.copy target.linUb).bind s.scaleConsLinear).bind fun lu =>
  ((p.coeffs.copy target.coeffs).bind s.scaleLinearCoeffs).map fun A => (gl, gu, ll, lu, A)

/-- `scaled_func_set_value`, problem_scaling.c:33-67: the point handed to the user's function;
`cache` is `unscaled_value`. -/
def funcPoint (cache scaledValue : Vec K) : Option (Vec K) :=
  (scaledValue.copy cache).bind s.unscalePoint

/-- `scaled_func_hess_prod`, problem_scaling.c:140-187: `H direction duals product` is the user's
callback. -/
def funcHessProd (H : Vec K → Vec K → Vec K → Option (Vec K)) (dirCache dualCache direction duals product : Vec K) :
    Option (Vec K) :=
  (direction.copy dirCache).bind fun d =>
  (duals.copy dualCache).bind fun y =>
  (s.unscaleHessDir d y).bind fun q =>
  (H q.1 q.2 product).bind s.scaleHessProd

/-- `scaled_lsq_func_residuals`, `scaled_lsq_func_jac_forward`, `scaled_lsq_func_jac_adjoint`,
problem_scaling.c:249-273: the callbacks of the scaled least-squares function, given those of
the original one.  `cache` is `scaled_direction`, resized before each use. -/
def lsqUser (cache : Vec K) (u : LsqUser (Vec K) K) : LsqUser (Vec K) K where
  numVars := u.numVars
  numRes := u.numRes
  resid p dest := (s.funcPoint (Vec.create u.numVars u.numVars) p).bind fun x =>
    (u.resid x dest).map s.scaleLsqResiduals
  fwd p d dest := (s.funcPoint (Vec.create u.numVars u.numVars) p).bind fun x =>
    ((d.copy (cache.resize d.dim)).bind s.scaleLsqForward).bind fun d' =>
      (u.fwd x d' dest).map s.scaleLsqAdjoint
  adj p y dest := (s.funcPoint (Vec.create u.numVars u.numVars) p).bind fun x =>
    (y.copy (cache.resize y.dim)).bind fun y' =>
      (u.adj x (s.scaleLsqAdjoint y') dest).bind s.scaleLsqForward
  residNnz := u.residNnz
  fwdNnz := u.fwdNnz
  adjNnz := u.adjNnz

end Scaling

/-- `sleqp_problem_scaling_create`, problem_scaling.c:447-530: the weights must match the problem; the
scaled function is created with the number of *all* constraints
(`func_create`, problem_scaling.c:341-377, and its variants). -/
def Scaling.createProblem {V : Type*} (s : Scaling) (o : BoundOps V) (zero : V) (p : Prob V) (row : Nat → Nat)
    (val : Nat → V) : Except PErr (Prob V) :=
  if p.numVars = s.varW.length ∧ p.numGen + p.numLin = s.consW.length then
    probCreate o zero p.numVars (p.numGen + p.numLin) p.varLb p.varUb p.genLb p.genUb p.coeffs p.linLb p.linUb row val
  else .error .illegalArgument

section Ordered
variable [LinearOrder K]

/-- `MAX_WEIGHT`, scale.c:12. -/
def maxWeight : ℤ := 30

/-- `CLIP_WEIGHT`, scale.c:17. -/
def clipWeight (w : ℤ) : ℤ := min (max w (-maxWeight)) maxWeight

/-- exponent computed from a largest entry `m` in `sleqp_obj_scaling_from_grad` and
`compute_scale_factors`, scale.c:670-745; `frexp` is the exponent returned by C `frexp`. -/
def factorFromMax (frexp : K → ℤ) (m : K) : ℤ :=
  if m ≠ 0 then clipWeight (frexp (1 / m) - 1) else 0

/-- `sleqp_obj_scaling_from_grad`, scale.c:630-668. -/
def Scaling.objFromGrad (s : Scaling) (frexp : K → ℤ) (grad : Vec K) (eps : K) : Scaling :=
  s.setObjWeight (factorFromMax frexp
    (grad.ents.foldl (fun m e => if isZero (|e.2|) eps then m else max m (|e.2|)) 0))

/-- body of the loop of `compute_scale_factors`, scale.c:670-745: `column` selects the factors of
the columns, state is the current column and `max_vals`. -/
def factorsBody (m : Mat K) (column : Bool) (pre : List ℤ) (eps : K) (s : Nat × (Nat → K)) (index : Nat) :
    Option (Nat × (Nat → K)) :=
  (advanceCol m index (m.numCols - s.1) s.1).bind fun c =>
    (pre[(if column then m.row index else c : Nat)]?).map fun w =>
      (c, if isZero (|ldexp (m.val index) w|) eps then s.2
          else setAt s.2 (if column then c else m.row index)
            (max (s.2 (if column then c else m.row index)) (|ldexp (m.val index) w|)))

/-- `compute_scale_factors`, scale.c:670-745. -/
def computeFactors (frexp : K → ℤ) (m : Mat K) (column : Bool) (pre : List ℤ) (eps : K) : Option (List ℤ) :=
  ((List.range m.nnz).foldlM (factorsBody m column pre eps) (0, fun _ => 0)).map fun s =>
    (List.range (if column then m.numCols else m.numRows)).map fun i => factorFromMax frexp (s.2 i)

/-- body of the loop of `max_matrix_ratio`, scale.c:747-813: state is the current column, `min_vals`
and `max_vals`. -/
def ratioBody (m : Mat K) (column : Bool) (eps : K) (s : Nat × (Nat → K) × (Nat → K)) (index : Nat) :
    Option (Nat × (Nat → K) × (Nat → K)) :=
  (advanceCol m index (m.numCols - s.1) s.1).map fun c =>
    if isZero (|m.val index|) eps then (c, s.2)
    else
      (c, setAt s.2.1 (if column then c else m.row index)
            (min (s.2.1 (if column then c else m.row index)) (|m.val index|)),
          setAt s.2.2 (if column then c else m.row index)
            (max (s.2.2 (if column then c else m.row index)) (|m.val index|)))

/-- `max_matrix_ratio`, scale.c:747-813. -/
def maxMatrixRatio (inf : K) (m : Mat K) (column : Bool) (eps : K) : Option K :=
  ((List.range m.nnz).foldlM (ratioBody m column eps) (0, (fun _ => inf), fun _ => 0)).map fun s =>
    (List.range (if column then m.numCols else m.numRows)).foldl
      (fun r i => if s.2.2 i = 0 then r else max r (s.2.2 i / s.2.1 i)) 0

/-- `sleqp_scaling_from_cons_jac`, scale.c:815-870. -/
def Scaling.fromConsJac (s : Scaling) (inf : K) (frexp : K → ℤ) (m : Mat K) (eps : K) : Option Scaling :=
  (maxMatrixRatio inf m true eps).bind fun varRatio =>
  (maxMatrixRatio inf m false eps).bind fun consRatio =>
  if varRatio < consRatio then
    (computeFactors frexp m true s.reset.consW eps).bind fun b =>
      (computeFactors frexp m false b eps).map fun a => ⟨0, b, a⟩
  else
    (computeFactors frexp m false s.reset.varW eps).bind fun a =>
      (computeFactors frexp m true a eps).map fun b => ⟨0, b, a⟩

/-- `sleqp_scaling_set_obj_weight_from_nominal`, scale.c:161-168. -/
def Scaling.objFromNominal (s : Scaling) (frexp : K → ℤ) (x : K) : Scaling := { s with objW := frexp x }

/-- `sleqp_scaling_set_var_weight_from_nominal`, scale.c:195-208. -/
def Scaling.varFromNominal (s : Scaling) (frexp : K → ℤ) (j : Nat) (x : K) : Option Scaling :=
  s.setVarWeight j (frexp x)

/-- `sleqp_scaling_set_cons_weight_from_nominal`, scale.c:235-248. -/
def Scaling.consFromNominal (s : Scaling) (frexp : K → ℤ) (i : Nat) (x : K) : Option Scaling :=
  s.setConsWeight i (frexp x)

end Ordered
end Values
end Sleqp
