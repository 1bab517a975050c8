import Mathlib.Algebra.Order.Field.Basic
import Mathlib.Algebra.BigOperators.Group.Finset.Basic

/-!
Model of the function `minimize` of the Python package, `/repo/bindings/python/src/sleqp`: the objects which evaluate the functions given by
the user, and what they remember between evaluations.

The functions given by the user are pure: their results depend on the point and the extra arguments only. A result may however be a view of
the array the function was called with. A point is a list of numbers; all objects refer to one array with the current point (`_MinFunc.x`), which
is overwritten just before they are told about the new point, so each object is modelled with a point of its own. Results are modelled by their
numbers and are assumed to have the right shapes (except for the number of values of the constraints). A Python exception is an `Except.error`;
the solution process ends with it.
-/

namespace Sleqp
open Finset

/-- the kinds of exceptions which occur -/
inductive PyExc where
  | attribute | type | name | value | assertion | index
deriving DecidableEq

/-- An array with indices `ι`: with memory of its own, or a view of the array the function was called with (`lambda x: x`, `lambda x: x[:2]`). -/
inductive Ref (ι K : Type*) where
  | own (v : ι → K)
  | view (src : ι → Option Nat)

/-- the entries of an array, when the array the function was called with has the entries `xd` -/
def Ref.read {ι K : Type*} [Zero K] (xd : List K) : Ref ι K → ι → K
  | own v => v
  | view src => fun i => ((src i).map fun j => xd.getD j 0).getD 0

/-- The value of a function: a plain Python number, or a number or array of NumPy, or a view of the argument. Only the latter two have the
attributes `size` and `shape`. -/
inductive PyVal (K : Type*) where
  | num (x : K)
  | np (l : List K)
  | view (src : List Nat)

/-- the numbers of a value -/
def PyVal.list {K : Type*} [Zero K] (xd : List K) : PyVal K → List K
  | num x => [x]
  | np l => l
  | view src => src.map fun j => xd.getD j 0

/-- `np.atleast_1d`, which copies numbers, but returns arrays as they are, bindings/python/src/sleqp/_derivative.py:116-117 -/
def PyVal.ref {K : Type*} [Zero K] : PyVal K → Ref Nat K
  | num x => .own fun i => [x].getD i 0
  | np l => .own fun i => l.getD i 0
  | view src => .view fun i => src[i]?

/-- entries of a derivative: of component `i` with respect to variable `j` -/
abbrev Entries (K : Type*) := Nat → Nat → K

/-- second derivatives: component, row, column -/
abbrev Tensor (K : Type*) := Nat → Nat → Nat → K

/-- The argument `jac`, `create_derivative`, bindings/python/src/sleqp/_derivative.py:115-130 (`None` is `'2-point'`). For complex steps, the function
is known by the imaginary part of its values at `x + i h e_j`. -/
inductive Jac (K A : Type*) where
  | callable (jac : List K → List A → Ref (Nat × Nat) K)
  | twoPoint
  | threePoint
  | complexStep (im : List K → Nat → K → List A → Nat → K)

/-- The arguments `fun` and `jac`, `create_func`, bindings/python/src/sleqp/_func.py:84-97: separate functions, or (`jac=True`) one function returning both. -/
inductive UserFun (K A : Type*) where
  | point (f : List K → List A → PyVal K) (jac : Jac K A)
  | combined (f : List K → List A → PyVal K × Ref (Nat × Nat) K)

/-- what a function for Hessian products returns: an array of its own, or the array with the direction it was given -/
inductive ProdOut (K : Type*) where
  | fresh (v : Entries K)
  | same

/-- The arguments `hess` and `hessp`, `create_hessian`, bindings/python/src/sleqp/_hessian.py:146-161. Dense, sparse and operator Hessians
(bindings/python/src/sleqp/_hessian.py:28-88) only differ in how they are multiplied. -/
inductive Hess (K A : Type*) where
  | none
  | product (p : List K → (Nat → K) → List A → ProdOut K)
  | callable (h : List K → List A → Tensor K)
  | twoPoint
  | threePoint
  | complexStep

/-- a function with its derivatives; `dim` is the number of its values, `matrix` says whether its first derivative is a matrix (with two
dimensions) or a vector -/
structure MinFun (K A : Type*) where
  user : UserFun K A
  hess : Hess K A
  dim : Nat
  matrix : Bool

/-- the constants of bindings/python/src/sleqp/_derivative.py:5-8 -/
structure FdEps (K : Type*) where
  two : K
  three : K

/-- What `PointFunc` or `CombinedFunc` and their Hessian remember, bindings/python/src/sleqp/_func.py:7-71,
bindings/python/src/sleqp/_hessian.py:28-133. -/
structure FunSt (K : Type*) where
  x : List K
  fval : Option (PyVal K)
  gval : Option (Entries K)
  hval : Option (Tensor K)

section
variable {K A ι : Type*} [Field K] [LinearOrder K]

/-- `perturbation`, bindings/python/src/sleqp/_derivative.py:11-12 -/
def perturbation (eps x : K) : K := eps * max |x| 1

/-- the loop of `findiff_twopoint`, bindings/python/src/sleqp/_derivative.py:31-40, from variable `j` on, `k` variables left: `xd` is the array with
the perturbed point, `df` the array with the differences -/
def fdTwo (eps : K) (f : List K → Ref ι K) (f0 : ι → K) (x0 : List K) : Nat → Nat → List K → (ι → Nat → K) → ι → Nat → K
  | 0, _, _, df => df
  | k + 1, j, xd, df =>
    let h := perturbation eps (x0.getD j 0)
    let xd1 := xd.set j (xd.getD j 0 + h)
    let fd := (f xd1).read xd1
    fdTwo eps f f0 x0 k (j + 1) (xd1.set j (x0.getD j 0)) fun i l => if l = j then (fd i - f0 i) / h else df i l

/-- the loop of `findiff_threepoint`, bindings/python/src/sleqp/_derivative.py:61-74: both values are read after `xd` was restored -/
def fdThree (eps : K) (f : List K → Ref ι K) (x0 : List K) : Nat → Nat → List K → (ι → Nat → K) → ι → Nat → K
  | 0, _, _, df => df
  | k + 1, j, xd, df =>
    let h := perturbation eps (x0.getD j 0)
    let xd1 := xd.set j (xd.getD j 0 + h)
    let fpos := f xd1
    let xd2 := xd1.set j (x0.getD j 0 - h)
    let fneg := f xd2
    let xd3 := xd2.set j (x0.getD j 0)
    fdThree eps f x0 k (j + 1) xd3 fun i l => if l = j then (fpos.read xd3 i - fneg.read xd3 i) / (2 * h) else df i l

/-- `f0.size`, bindings/python/src/sleqp/_derivative.py:25, 55: an attribute of NumPy's objects only -/
def sizeOf? (v : PyVal K) : Except PyExc (PyVal K) :=
  match v with
  | .num _ => .error .attribute
  | v => .ok v

/-- `f0`, bindings/python/src/sleqp/_derivative.py:21-25, 51-55: the value remembered or evaluated -/
def baseVal (f : List K → List A → PyVal K) (x : List K) (args : List A) (f0 : Option (PyVal K)) : Except PyExc (Nat → K) :=
  match f0 with
  | some v => (sizeOf? v).map fun v => v.ref.read x
  | none => .ok ((f x args).ref.read x)

/-- The object `deriv` of a `PointFunc`: `derivative`, `findiff_twopoint`, `findiff_threepoint`, `findiff_cs`,
bindings/python/src/sleqp/_derivative.py:15-112; `f0` is the value remembered, if any. The differences are collected in an array without initial
values, here zeros. -/
def evalJac (eps : FdEps K) (f : List K → List A → PyVal K) (jac : Jac K A) (x : List K) (args : List A) (f0 : Option (PyVal K)) :
    Except PyExc (Entries K) :=
  match jac with
  | .callable jac => .ok fun i j => (jac x args).read x (i, j)
  | .twoPoint =>
    (baseVal f x args f0).map fun v => fdTwo eps.two (fun y => (f y args).ref) v x x.length 0 x fun _ _ => 0
  | .threePoint =>
    (baseVal f x args f0).map fun _ => fdThree eps.three (fun y => (f y args).ref) x x.length 0 x fun _ _ => 0
  | .complexStep im =>
    (match f0 with
      | some v => sizeOf? v
      | none => .error .attribute).map fun _ => fun i j =>
        if j < x.length then im x j (perturbation eps.two (x.getD j 0)) [] i / perturbation eps.two (x.getD j 0) else 0

/-- `set_value`, bindings/python/src/sleqp/_func.py:15-21, 45-51, with those of the Hessians, bindings/python/src/sleqp/_hessian.py:21-22, 35-37, 55-57,
78-80, 96-98, 121-122, 132-133 -/
def FunSt.setValue (_ : FunSt K) (x : List K) : FunSt K := ⟨x, none, none, none⟩

variable (eps : FdEps K) (iter : A → Option (List A))

/-- the call `self._eval(self.x, *args)` of a function with the parameters `x, args=()`, bindings/python/src/sleqp/_func.py:53-59: the extra arguments `fun`
is called with. `iter` is the sequence of elements of an argument, if it has one. -/
def evalArgs (args : List A) : Except PyExc (List A) :=
  match args with
  | [] => .ok []
  | [a] =>
    match iter a with
    | some l => .ok l
    | none => .error .type
  | _ => .error .type

/-- `PointFunc.val`, bindings/python/src/sleqp/_func.py:23-26, and `CombinedFunc.val`, 57-61 -/
def MinFun.val (F : MinFun K A) (args : List A) (s : FunSt K) : Except PyExc (PyVal K × FunSt K) :=
  match s.fval with
  | some v => .ok (v, s)
  | none =>
    match F.user with
    | .point f _ => .ok (f s.x args, { s with fval := some (f s.x args) })
    | .combined f =>
      (evalArgs iter args).map fun as => ((f s.x as).1, { s with fval := some (f s.x as).1, gval := some fun i j => (f s.x as).2.read s.x (i, j) })

/-- `PointFunc.grad`, bindings/python/src/sleqp/_func.py:28-32, and `CombinedFunc.grad`, 63-67 (which refers to a variable `x` that does not exist) -/
def MinFun.grad (F : MinFun K A) (args : List A) (s : FunSt K) : Except PyExc (Entries K × FunSt K) :=
  match s.gval with
  | some g => .ok (g, s)
  | none =>
    match F.user with
    | .point f jac => (evalJac eps f jac s.x args s.fval).map fun g => (g, { s with gval := some g })
    | .combined _ => .error .name

/-- `actual_gradient`, bindings/python/src/sleqp/_func.py:74-81, if it can be called -/
def UserFun.gradient : UserFun K A → Option (List K → List A → Ref (Nat × Nat) K)
  | point _ (.callable jac) => some jac
  | point _ _ => none
  | combined f => some fun x args => (f x args).2

/-- the array `df` of differences of the first derivative, as second derivatives: of a vector `g` with entries `g_j`, `df[j, l]` is
the derivative of `g_j` with respect to `x_l`; of a matrix `g`, `df[i, j, l]` is that of `g_il` with respect to `x_j` -/
def toTensor (matrix : Bool) (df : Nat × Nat → Nat → K) : Tensor K :=
  fun i j l => if matrix then df (i, l) j else df (0, j) l

/-- The second derivatives: `GenericHessian`, `SparseHessian`, `DenseHessian`, `HessianOperator`, `FindiffHessian`,
bindings/python/src/sleqp/_hessian.py:28-133. `product` is never given the gradient
(bindings/python/src/sleqp/_func.py:35, 70), so it is evaluated again. -/
def MinFun.evalHess (F : MinFun K A) (args : List A) (x : List K) : Except PyExc (Tensor K) :=
  match F.hess with
  | .none => .error .attribute
  | .product _ => .error .attribute
  | .callable h => .ok (h x args)
  | .twoPoint =>
    match F.user.gradient with
    | some g => .ok (toTensor F.matrix (fdTwo eps.two (fun y => g y args) ((g x args).read x) x x.length 0 x fun _ _ => 0))
    | none => .error .type
  | .threePoint =>
    match F.user.gradient with
    | some g => .ok (toTensor F.matrix (fdThree eps.three (fun y => g y args) x x.length 0 x fun _ _ => 0))
    | none => .error .type
  | .complexStep => .error .attribute

/-- product of the second derivatives with a direction -/
def tensorMul (n : Nat) (T : Tensor K) (d : Nat → K) : Entries K := fun i j => ∑ l ∈ range n, T i j l * d l

/-- `hess_prod`, bindings/python/src/sleqp/_func.py:34-35, 69-71, with `product` of the Hessians, bindings/python/src/sleqp/_hessian.py:24-25, 43-45, 66-68, 86-88, 104-106,
114-130 -/
def MinFun.hessProd (F : MinFun K A) (args : List A) (d : Nat → K) (s : FunSt K) : Except PyExc (ProdOut K × FunSt K) :=
  match F.hess with
  | .product p => .ok (p s.x d args, s)
  | _ =>
    match s.hval with
    | some T => .ok (.fresh (tensorMul s.x.length T d), s)
    | none => (F.evalHess eps args s.x).map fun T => (.fresh (tensorMul s.x.length T d), { s with hval := some T })

/-- the numbers of a product -/
def ProdOut.entries (d : Nat → K) : ProdOut K → Entries K
  | fresh v => v
  | same => fun _ j => d j

/-- the problem as seen by `_MinFunc`, bindings/python/src/sleqp/minimize.py:14-24; without constraints (`constraints=None`) there is no constraint function -/
structure MinProb (K A : Type*) where
  obj : MinFun K A
  cons : Option (List (MinFun K A))
  args : List A

/-- the state of `_MinFunc`, with those of the objective and of the constraints -/
structure MinSt (K : Type*) where
  obj : FunSt K
  cons : List (FunSt K)
  objVal : Option (PyVal K)
  objGrad : Option (Entries K)

/-- run a method of each of the constraint functions, one after the other -/
def eachCons {β : Type*} (m : MinFun K A → FunSt K → Except PyExc (β × FunSt K)) : List (MinFun K A) → List (FunSt K) → Except PyExc (List β × List (FunSt K))
  | F :: Fs, s :: ss =>
    (m F s).bind fun r => (eachCons m Fs ss).map fun rs => (r.1 :: rs.1, r.2 :: rs.2)
  | _, _ => .ok ([], [])

/-- derivatives on top of each other (`np.vstack`) -/
def stackRows : List (Nat × Entries K) → Entries K
  | [] => fun _ _ => 0
  | (d, g) :: t => fun r j => if r < d then g r j else stackRows t (r - d) j

/-- the loop of `ConstraintFunc.hess_prod`, bindings/python/src/sleqp/_cons_func.py:86-106 -/
def consProd (duals : Nat → K) : Nat → List (Nat × Entries K) → (Nat → K) → Nat → K
  | _, [], p => p
  | offset, (d, v) :: t, p => consProd duals (offset + d) t fun j => p j + ∑ i ∈ range d, duals (offset + i) * v i j

/-- what the solver asks for -/
inductive MinOp (K : Type*) where
  | setValue (x : List K)
  | objVal
  | objGrad
  | consVals
  | consJac
  | hessProd (d duals : Nat → K)

/-- and gets -/
inductive MinOut (K : Type*) where
  | nothing
  | value (v : PyVal K)
  | vector (l : List K)
  | entries (g : Entries K)
  | product (p : Nat → K)

/-- `_eval_obj_val`, bindings/python/src/sleqp/minimize.py:47-49 -/
def MinProb.evalVal (P : MinProb K A) (s : MinSt K) : Except PyExc (PyVal K × MinSt K) :=
  match s.objVal with
  | some v => .ok (v, s)
  | none => (P.obj.val iter P.args s.obj).map fun r => (r.1, { s with obj := r.2, objVal := some r.1 })

/-- `_eval_obj_grad`, bindings/python/src/sleqp/minimize.py:51-58 -/
def MinProb.evalGrad (P : MinProb K A) (s : MinSt K) : Except PyExc (Entries K × MinSt K) :=
  (P.evalVal iter s).bind fun r =>
    match r.2.objGrad with
    | some g => .ok (g, r.2)
    | none => (P.obj.grad eps P.args r.2.obj).map fun q => (q.1, { r.2 with obj := q.2, objGrad := some q.1 })

/-- the constraint functions (`None` has no methods) -/
def MinProb.consFuncs (P : MinProb K A) : Except PyExc (List (MinFun K A)) :=
  match P.cons with
  | some Fs => .ok Fs
  | none => .error .attribute

/-- The methods of `_MinFunc`, bindings/python/src/sleqp/minimize.py:26-76 (the direction is read-only, bindings/python/src/extension/func.pxi:239), with those of `ConstraintFunc`, bindings/python/src/sleqp/_cons_func.py:44-106. -/
def MinProb.step (P : MinProb K A) (s : MinSt K) : MinOp K → Except PyExc (MinOut K × MinSt K)
  | .setValue x => .ok (.nothing, ⟨s.obj.setValue x, s.cons.map fun c => c.setValue x, none, none⟩)
  | .objVal => (P.evalVal iter s).map fun r => (.value r.1, r.2)
  | .objGrad => (P.evalGrad eps iter s).map fun r => (.entries r.1, r.2)
  | .consVals =>
    P.consFuncs.bind fun Fs => (eachCons (fun F c => F.val iter P.args c) Fs s.cons).bind fun r =>
      let l := (r.1.map (PyVal.list s.obj.x)).flatten
      if l.length = (Fs.map MinFun.dim).sum then .ok (.vector l, { s with cons := r.2 }) else .error .assertion
  | .consJac =>
    P.consFuncs.bind fun Fs => (eachCons (fun F c => F.grad eps P.args c) Fs s.cons).map fun r =>
      (.entries (stackRows ((Fs.map MinFun.dim).zip r.1)), { s with cons := r.2 })
  | .hessProd d duals =>
    (P.evalGrad eps iter s).bind fun r => (P.obj.hessProd eps P.args d r.2.obj).bind fun q =>
      match P.cons with
      | none => .ok (.product fun j => q.1.entries d 0 j, { r.2 with obj := q.2 })
      | some Fs => (eachCons (fun F c => F.hessProd eps P.args d c) Fs s.cons).bind fun t =>
        match q.1 with
        | .same => .error .value
        | .fresh v => .ok (.product fun j => v 0 j + consProd duals 0 ((Fs.map MinFun.dim).zip (t.1.map fun o => o.entries d)) (fun _ => 0) j,
            { r.2 with obj := q.2, cons := t.2 })

/-- a sequence of requests; the results of those served before the first exception -/
def MinProb.run (P : MinProb K A) : MinSt K → List (MinOp K) → List (Except PyExc (MinOut K))
  | _, [] => []
  | s, op :: ops =>
    match P.step eps iter s op with
    | .ok r => .ok r.1 :: P.run r.2 ops
    | .error e => [.error e]

/-- the state after `minimize` has created the objects -/
def MinProb.init (P : MinProb K A) : MinSt K :=
  ⟨⟨[], none, none, none⟩, (P.cons.getD []).map fun _ => ⟨[], none, none, none⟩, none, none⟩

end
end Sleqp
