import Verif.Model.Minimize

/-!
What the solver should get from the functions given to `minimize`: values, derivatives, and the quotients of differences which replace them.
-/

namespace Sleqp
open Finset

section
variable {K A ι : Type*} [Field K] [LinearOrder K]

/-- the point with another entry `j` -/
def moved (x : List K) (j : Nat) (t : K) : List K := x.set j t

/-- forward difference of `f` in direction `j` with the step `eps max(|x_j|, 1)` -/
def pyForward (eps : K) (f : List K → ι → K) (x : List K) (i : ι) (j : Nat) : K :=
  (f (moved x j (x.getD j 0 + eps * max |x.getD j 0| 1)) i - f x i) / (eps * max |x.getD j 0| 1)

/-- central difference of `f` in direction `j` with the step `eps max(|x_j|, 1)` -/
def pyCentral (eps : K) (f : List K → ι → K) (x : List K) (i : ι) (j : Nat) : K :=
  (f (moved x j (x.getD j 0 + eps * max |x.getD j 0| 1)) i - f (moved x j (x.getD j 0 - eps * max |x.getD j 0| 1)) i)
    / (2 * (eps * max |x.getD j 0| 1))

variable (eps : FdEps K)

/-- the value of a function at a point -/
def UserFun.valueAt (x : List K) (args : List A) : UserFun K A → PyVal K
  | point f _ => f x args
  | combined f => (f x args).1

/-- component `i` of the value of a function -/
def UserFun.comp (u : UserFun K A) (args : List A) (x : List K) (i : Nat) : K := ((u.valueAt x args).list x).getD i 0

/-- the first derivative the user asked for, at a point -/
def UserFun.derivAt (u : UserFun K A) (x : List K) (args : List A) (i j : Nat) : K :=
  match u with
  | point _ (.callable jac) => (jac x args).read x (i, j)
  | point _ .twoPoint => if j < x.length then pyForward eps.two (u.comp args) x i j else 0
  | point _ .threePoint => if j < x.length then pyCentral eps.three (u.comp args) x i j else 0
  | point _ (.complexStep im) =>
    if j < x.length then im x j (eps.two * max |x.getD j 0| 1) args i / (eps.two * max |x.getD j 0| 1) else 0
  | combined f => (f x args).2.read x (i, j)

/-- the entries of a gradient as a function of the point -/
def gradComp (g : List K → List A → Ref (Nat × Nat) K) (args : List A) (x : List K) (p : Nat × Nat) : K := (g x args).read x p

/-- the second derivatives the user asked for, at a point: of component `i`, row `j`, column `l`. The differences of a gradient `(g_j)` give
the columns, those of a Jacobian `(g_il)` the rows. -/
def MinFun.hessAt (F : MinFun K A) (x : List K) (args : List A) (i j l : Nat) : K :=
  match F.hess, F.user.gradient with
  | .callable h, _ => h x args i j l
  | .twoPoint, some g =>
    if F.matrix then (if j < x.length then pyForward eps.two (gradComp g args) x (i, l) j else 0)
    else if l < x.length then pyForward eps.two (gradComp g args) x (0, j) l else 0
  | .threePoint, some g =>
    if F.matrix then (if j < x.length then pyCentral eps.three (gradComp g args) x (i, l) j else 0)
    else if l < x.length then pyCentral eps.three (gradComp g args) x (0, j) l else 0
  | _, _ => 0

/-- the product of the second derivative of component `i` with a direction -/
def MinFun.prodAt (F : MinFun K A) (x : List K) (args : List A) (d : Nat → K) (i j : Nat) : K :=
  match F.hess with
  | .product p => (p x d args).entries d i j
  | _ => ∑ l ∈ range x.length, F.hessAt eps x args i j l * d l

/-- What the solver should get at the point `x`. The extra arguments are those of the objective (`minimize.py:180-183`, as in SciPy). -/
def MinProb.answer (P : MinProb K A) (x : List K) : MinOp K → MinOut K
  | .setValue _ => .nothing
  | .objVal => .value (P.obj.user.valueAt x P.args)
  | .objGrad => .entries (P.obj.user.derivAt eps x P.args)
  | .consVals => .vector ((P.cons.getD []).map fun F => (F.user.valueAt x []).list x).flatten
  | .consJac => .entries (stackRows ((P.cons.getD []).map fun F => (F.dim, F.user.derivAt eps x [])))
  | .hessProd d duals => .product fun j => P.obj.prodAt eps x P.args d 0 j +
      ∑ r ∈ range ((P.cons.getD []).map MinFun.dim).sum,
        duals r * stackRows ((P.cons.getD []).map fun F => (F.dim, F.prodAt eps x [] d)) r j

/-- the answers to a sequence of requests, each at the point set last -/
def MinProb.answers (P : MinProb K A) : List K → List (MinOp K) → List (Except PyExc (MinOut K))
  | _, [] => []
  | _, .setValue y :: ops => .ok .nothing :: P.answers y ops
  | x, op :: ops => .ok (P.answer eps x op) :: P.answers x ops

end

section
variable {K A : Type*}

/-- the array is not a view -/
def Ref.IsOwn {ι : Type*} : Ref ι K → Prop
  | own _ => True
  | view _ => False

/-- a value of NumPy -/
def PyVal.IsNp : PyVal K → Prop
  | num _ => False
  | _ => True

/-- not a view -/
def PyVal.IsOwn : PyVal K → Prop
  | view _ => False
  | _ => True

/-- the first derivative is only available after the value -/
def UserFun.ValueFirst : UserFun K A → Prop
  | point _ (.complexStep _) => True
  | combined _ => True
  | _ => False

/-- values for differences are NumPy's, for central differences they are no views -/
def UserFun.ValuesOk (u : UserFun K A) (args : List A) : Prop :=
  match u with
  | point f .twoPoint => ∀ x, (f x args).IsNp
  | point f .threePoint => ∀ x, (f x args).IsNp ∧ (f x args).IsOwn
  | point f (.complexStep _) => ∀ x, (f x args).IsNp
  | _ => True

/-- second derivatives are available: differences need a gradient, central differences one which returns no views -/
def MinFun.HessOk (F : MinFun K A) (args : List A) : Prop :=
  match F.hess with
  | .product _ => True
  | .callable _ => True
  | .twoPoint => F.user.gradient.isSome
  | .threePoint => ∃ g, F.user.gradient = some g ∧ ∀ x, (g x args).IsOwn
  | _ => False

/-- products are no views of the direction -/
def MinFun.ProdOwn (F : MinFun K A) (args : List A) : Prop :=
  match F.hess with
  | .product p => ∀ x d, p x d args ≠ .same
  | _ => True

def MinOp.IsHess : MinOp K → Prop
  | hessProd _ _ => True
  | _ => False

def MinOp.IsCons : MinOp K → Prop
  | consVals => True
  | consJac => True
  | _ => False

/-- the Jacobian of the constraints is only asked for after their values at the same point -/
def ValuesFirst : Bool → List (MinOp K) → Prop
  | _, [] => True
  | _, .setValue _ :: ops => ValuesFirst false ops
  | _, .consVals :: ops => ValuesFirst true ops
  | b, .consJac :: ops => b = true ∧ ValuesFirst b ops
  | b, _ :: ops => ValuesFirst b ops

end

/-- What `minimize` copes with, for the requests `ops`. -/
structure MinProb.Supported {K A : Type*} [Field K] [LinearOrder K] (P : MinProb K A) (ops : List (MinOp K)) : Prop where
  objArgs : P.obj.user.ValueFirst → P.args = []
  consArgs : P.cons.getD [] ≠ [] → P.args = []
  objVals : P.obj.user.ValuesOk P.args
  consVals : ∀ F ∈ P.cons.getD [], F.user.ValuesOk []
  dims : ∀ F ∈ P.cons.getD [], ∀ x : List K,
    ((F.user.valueAt x []).list x).length = F.dim
  hess : (∃ op ∈ ops, op.IsHess) → P.obj.HessOk P.args ∧ ∀ F ∈ P.cons.getD [], F.HessOk []
  own : P.cons.isSome → P.obj.ProdOwn P.args
  hasCons : (∃ op ∈ ops, op.IsCons) → P.cons.isSome
  order : (∃ F ∈ P.cons.getD [], F.user.ValueFirst) → ValuesFirst false ops

end Sleqp
