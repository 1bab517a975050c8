import Verif.Model.Minimize
import Verif.Model.Python

/-!
Model of the translation of bounds and constraints by the function `minimize` of the Python package, `/repo/bindings/python/src/sleqp`.

Objects of SciPy are modelled by their attributes: `Bounds` and `LinearConstraint` hold arrays, which SciPy lets stand for longer ones if they have
one element (this is what becomes of a number given for all of them, and of a bound left out), `NonlinearConstraint` holds its bounds as they were given.
-/

namespace Sleqp
open Finset

/-- the argument `bounds` -/
inductive BoundsArg (K : Type*) where
  | missing
  | object (lb ub : List (Ext K))
  | pairs (l : List (Option (Ext K) × Option (Ext K)))

/-- bounds of a `NonlinearConstraint`: a number or an array -/
inductive BArr (K : Type*) where
  | scalar (x : Ext K)
  | array (l : List (Ext K))

/-- `np.hstack` of one element -/
def BArr.list {K : Type*} : BArr K → List (Ext K)
  | scalar x => [x]
  | array l => l

/-- the attribute `hess` of a constraint: something `create_hessian` knows, or a quasi-Newton strategy (SciPy's default, `BFGS()`) -/
inductive HessArg where
  | known
  | strategy
deriving DecidableEq

/-- An element of the argument `constraints`: a `NonlinearConstraint`, dictionaries with `'type': 'ineq'` or `'eq'`, or a `LinearConstraint`
with its matrix. -/
inductive ConsArg (K : Type*) where
  | object (lb ub : BArr K) (hess : HessArg)
  | ineq
  | eq
  | linear (rows cols : Nat) (a : Nat → Nat → K) (lb ub : List (Ext K))

/-- the arrays handed to the extension, bindings/python/src/sleqp/minimize.py:227-235 -/
structure MinArrays (K : Type*) where
  varLb : List (Ext K)
  varUb : List (Ext K)
  genLb : List (Ext K)
  genUb : List (Ext K)
  lin : Option (PyMat (Ext K) × List (Ext K) × List (Ext K))

section
variable {K : Type*} [Field K] [LinearOrder K]

/-- `if lb is not None: var_lb[i] = lb`, bindings/python/src/sleqp/_bounds.py:23-26 -/
def setSome (a : List (Ext K)) (i : Nat) : Option (Ext K) → List (Ext K)
  | some l => a.set i l
  | none => a

/-- the loop of `create_variable_bounds`, bindings/python/src/sleqp/_bounds.py:22-26 -/
def setPairs : Nat → List (Option (Ext K) × Option (Ext K)) → List (Ext K) → List (Ext K) → Except PyExc (List (Ext K) × List (Ext K))
  | _, [], lb, ub => .ok (lb, ub)
  | i, (l, u) :: t, lb, ub =>
    if lb.length ≤ i ∧ (l.isSome ∨ u.isSome) then .error .index
    else setPairs (i + 1) t (setSome lb i l) (setSome ub i u)

/-- `create_variable_bounds`, bindings/python/src/sleqp/_bounds.py:6-28 -/
def pyVarBounds (inf : K) (n : Nat) : BoundsArg K → Except PyExc (List (Ext K) × List (Ext K))
  | .missing => .ok (List.replicate n (.fin (-inf)), List.replicate n (.fin inf))
  | .object lb ub => .ok (lb, ub)
  | .pairs l => setPairs 0 l (List.replicate n (.fin (-inf))) (List.replicate n (.fin inf))

/-- `split_linear_constraints`, bindings/python/src/sleqp/_cons.py:32-42: the general constraints -/
def ConsArg.isGeneral : ConsArg K → Bool
  | linear _ _ _ _ _ => false
  | _ => true

/-- the lower bounds of a general constraint, bindings/python/src/sleqp/_bounds.py:39-52 -/
def ConsArg.genLb : ConsArg K → List (Ext K)
  | object lb _ _ => lb.list
  | _ => [.fin 0]

/-- and its upper bounds -/
def ConsArg.genUb (inf : K) : ConsArg K → List (Ext K)
  | object _ ub _ => ub.list
  | ineq => [.fin inf]
  | _ => [.fin 0]

/-- `create_constraint_bounds`, bindings/python/src/sleqp/_bounds.py:31-68 -/
def pyGenBounds (inf : K) (cs : List (ConsArg K)) : Except PyExc (List (Ext K) × List (Ext K)) :=
  let lb := (cs.map ConsArg.genLb).flatten
  let ub := (cs.map (ConsArg.genUb inf)).flatten
  if lb.length = ub.length ∧ (lb.zip ub).all (fun p => p.1.le p.2) then .ok (lb, ub) else .error .assertion

/-- the creation of the functions of general constraints, bindings/python/src/sleqp/_cons_func.py:17-42 (with `create_hessian`,
bindings/python/src/sleqp/_hessian.py:146-161); only whether it fails. -/
def pyConsFuncs : List (ConsArg K) → Except PyExc Unit
  | [] => .ok ()
  | .object (.scalar _) _ _ :: _ => .error .type
  | .object (.array _) _ .strategy :: _ => .error .value
  | _ :: t => pyConsFuncs t

/-- the dimension of a general constraint, bindings/python/src/sleqp/_cons_func.py:23, 34 -/
def ConsArg.dim : ConsArg K → Nat
  | object lb _ _ => lb.list.length
  | _ => 1

/-- the parts of a linear constraint -/
def ConsArg.linPart : ConsArg K → Option (Nat × Nat × (Nat → Nat → K) × List (Ext K) × List (Ext K))
  | linear r c a lb ub => some (r, c, a, lb, ub)
  | _ => none

/-- `create_linear_constraints`, bindings/python/src/sleqp/_linear.py:29-49; the matrix (`scipy.sparse.bmat`) is modelled by its entries. -/
def pyLinear (cs : List (ConsArg K)) : Except PyExc (Option (PyMat (Ext K) × List (Ext K) × List (Ext K))) :=
  match cs.filterMap ConsArg.linPart with
  | [] => .ok none
  | p :: ps =>
    if ps.all (fun q => q.2.1 = p.2.1) then
      .ok (some (.dense ((p :: ps).map fun q => q.1).sum p.2.1 (fun i j => .fin (stackRows ((p :: ps).map fun q => (q.1, q.2.2.1)) i j)),
        ((p :: ps).map fun q => q.2.2.2.1).flatten, ((p :: ps).map fun q => q.2.2.2.2).flatten))
    else .error .value

/-- the translation, bindings/python/src/sleqp/minimize.py:201-235 with `create_constraints`, bindings/python/src/sleqp/_cons.py:45-67; `n` is the length of
`x0`, no constraints are an empty list. -/
def minArrays (inf : K) (n : Nat) (bounds : BoundsArg K) (cs : List (ConsArg K)) : Except PyExc (MinArrays K) :=
  (pyGenBounds inf (cs.filter ConsArg.isGeneral)).bind fun g =>
  (pyConsFuncs (cs.filter ConsArg.isGeneral)).bind fun _ =>
  (pyLinear cs).bind fun lin =>
  (pyVarBounds inf n bounds).map fun v => ⟨v.1, v.2, g.1, g.2, lin⟩

/-- the problem created from the arrays, bindings/python/src/sleqp/minimize.py:227-235 -/
def minProblem (inf : K) (n : Nat) (bounds : BoundsArg K) (cs : List (ConsArg K)) (row row' : Nat → Nat) (val val' : Nat → Ext K) :
    MexRes (Prob (Ext K)) :=
  match minArrays inf n bounds cs with
  | .error _ => .err
  | .ok a => pyProblem inf a.varLb a.varUb a.genLb a.genUb (a.lin.map fun l => l.1) (a.lin.map fun l => l.2.1) (a.lin.map fun l => l.2.2) row row' val val'

end
end Sleqp
