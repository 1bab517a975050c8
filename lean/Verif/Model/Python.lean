import Verif.Model.Mex

/-!
Model of the Python extension, `/repo/bindings/python/src/extension`: the conversion of arrays and matrices from and to the library.

Arrays are one-dimensional unless said otherwise (the functions assert this). An exception raised in Python, and an error code of the
library, is the outcome `err`; a failed `assert` of the library is `undef` (see `MexRes`). The numbers are those of a type `V` with a
`zero`, so that the model serves for bounds (which may be infinite) and for values. `None` is `none`.
-/

namespace Sleqp

section
variable {V : Type*} [DecidableEq V]

/-- the pairs pushed by `array_set_values`, bindings/python/src/extension/sparse.pxi:16-25: the nonzeros, with their positions -/
def pyNonzeros (zero : V) (a : List V) : List (Nat × V) := (a.zipIdx.map fun p => (p.2, p.1)).filter fun e => decide (e.2 ≠ zero)

/-- `array_to_sleqp_sparse_vec`, bindings/python/src/extension/sparse.pxi:28-45: the length of the array is not looked at. -/
def pyToVec (zero : V) (a : Option (List V)) (v : Vec V) : MexRes (Vec V) :=
  match a with
  | none => .ok v.clear
  | some a => MexRes.ofOption ((v.clear.reserve a.length).pushAll (pyNonzeros zero a))

/-- `sleqp_sparse_vec_to_array`, bindings/python/src/extension/sparse.pxi:4-11. -/
def pyFromVec (zero : V) (v : Vec V) : List V := v.ents.foldl (fun a e => a.set e.1 e.2) (List.replicate v.dim zero)

/-- The conversion of an array returned by a callback for the objective gradient (`sleqp_func_obj_grad`,
bindings/python/src/extension/func.pxi:115-137), the constraint values (`sleqp_func_cons_val`, 149-171) or a product with the Hessian
(`sleqp_func_hess_prod`, 221-254); `n` is the number of variables or constraints. -/
def pyChecked (zero : V) (n : Nat) (a : Option (List V)) (v : Vec V) : MexRes (Vec V) :=
  match a with
  | none => .err
  | some a => if a.length = n then pyToVec zero (some a) v else .err

/-- `sleqp_lsq_residuals`, bindings/python/src/extension/lsq.pxi:51-64: neither `None` nor the length is looked at. -/
def pyResiduals (zero : V) (a : Option (List V)) (v : Vec V) : MexRes (Vec V) := pyToVec zero a v

/-- `sleqp_lsq_jac_forward` and `sleqp_lsq_jac_adjoint`, bindings/python/src/extension/lsq.pxi:76-96, 110-129: only `None` is refused. -/
def pyLsqProduct (zero : V) (a : Option (List V)) (v : Vec V) : MexRes (Vec V) :=
  match a with
  | none => .err
  | some a => pyToVec zero (some a) v

/-- A matrix given from Python: a dense one by its entries, a sparse one by its compressed columns. Sparse matrices of other formats are
converted by SciPy first (`matrix_iterator`, bindings/python/src/extension/sparse.pxi:92-106), the result of which is meant here. -/
inductive PyMat (V : Type*) where
  | dense (rows cols : Nat) (entry : Nat → Nat → V)
  | csc (s : Mat V)

namespace PyMat

/-- `shape` -/
def rows : PyMat V → Nat
  | dense r _ _ => r
  | csc s => s.numRows

/-- `shape` -/
def cols : PyMat V → Nat
  | dense _ c _ => c
  | csc s => s.numCols

/-- what the iterators find in a column: the nonzeros, `DenseIterator.__iter__`, bindings/python/src/extension/sparse.pxi:55-64 (the order is
that of the columns), `CSCIterator.__iter__`, 76-81 (in the order stored) -/
def col (zero : V) : PyMat V → Nat → List (Nat × V)
  | dense r _ entry, j => ((List.range r).map fun i => (i, entry i j)).filter fun e => decide (e.2 ≠ zero)
  | csc s, j => (s.col j).filter fun e => decide (e.2 ≠ zero)

/-- the sequence of entries produced by the iterators, with the column -/
def entries (zero : V) (a : PyMat V) : List (Nat × Nat × V) :=
  (List.range a.cols).flatMap fun j => (a.col zero j).map fun e => (j, e.1, e.2)

/-- `length_bound`, bindings/python/src/extension/sparse.pxi:66-67, 83-89; `count_nonzero` counts the stored nonzeros. -/
def bound (zero : V) : PyMat V → Nat
  | dense r c _ => r * c
  | csc s => (((List.range s.numCols).map fun j => ((PyMat.csc s).col zero j).length)).sum

end PyMat

/-- `while last_col != col: push_col`, bindings/python/src/extension/sparse.pxi:130-132, 148-150; `next` is `last_col + 1`. Past `col` the loop
only ends with a failed assertion. -/
def pyPushCols (m : Mat V) (next target : Nat) : Option (Mat V) :=
  if next ≤ target then (List.range' next (target - next)).foldlM (fun (m : Mat V) j => m.pushCol j) m else none

/-- the body of the loop over the entries, bindings/python/src/extension/sparse.pxi:129-146; the state is the matrix and `last_col + 1` -/
def pyMatStep (bound : Nat) (s : Mat V × Nat) (e : Nat × Nat × V) : Option (Mat V × Nat) :=
  (pyPushCols s.1 s.2 (e.1 + 1)).bind fun m1 =>
    ((if m1.nnz = m1.cap then m1.reserve bound else m1).push e.2.1 e.1 e.2.2).map fun m2 => (m2, e.1 + 1)

/-- `matrix_to_sleqp_sparse_matrix`, bindings/python/src/extension/sparse.pxi:109-152, for a matrix which is not `None`. -/
def pyToMat (zero : V) (a : PyMat V) (m : Mat V) : MexRes (Mat V) :=
  if a.rows = m.numRows ∧ a.cols = m.numCols then
    if m.numRows = 0 ∨ m.numCols = 0 then .ok m
    else MexRes.ofOption (((a.entries zero).foldlM (pyMatStep (a.bound zero)) (m, 0)).bind fun s => pyPushCols s.1 s.2 m.numCols)
  else .err

end

section
variable {K : Type*} [Field K] [LinearOrder K]

/-- `create_problem`, bindings/python/src/extension/problem.pxi:10-114, as called by `_Problem.create`, 124-160: the numbers of variables and of
general constraints are those of the lower bounds. The function is not part of the model, the parts of memory not initialised are `row`, `val`
(of the problem) and `row'`, `val'` (of the matrix converted). -/
def pyProblem (inf : K) (varLb varUb genLb genUb : List (Ext K)) (lin : Option (PyMat (Ext K))) (linLb linUb : Option (List (Ext K)))
    (row row' : Nat → Nat) (val val' : Nat → Ext K) : MexRes (Prob (Ext K)) :=
  let zero : Ext K := .fin 0
  let n := varLb.length
  let m := genLb.length
  let l := match lin with
    | some a => a.rows
    | none => 0
  (pyToVec zero (some varLb) (Vec.create n 0)).bind fun vl =>
  (pyToVec zero (some varUb) (Vec.create n 0)).bind fun vu =>
  (pyToVec zero (some genLb) (Vec.create m 0)).bind fun gl =>
  (pyToVec zero (some genUb) (Vec.create m 0)).bind fun gu =>
  (pyToVec zero linLb (Vec.create l 0)).bind fun ll =>
  (pyToVec zero linUb (Vec.create l 0)).bind fun lu =>
  (match lin with
    | some a => pyToMat zero a (Mat.create l n 0 row' val')
    | none => .ok (Mat.create l n 0 row' val')).bind fun coeffs =>
  MexRes.ofExcept (probCreate (extBounds inf) zero n m vl vu gl gu coeffs ll lu row val)

/-- the starting point of `Solver.__cinit__`, bindings/python/src/extension/solver.pxi:21-47, for a problem with `n` variables -/
def pyStart (n : Nat) (primal : List K) : MexRes (Vec K) := pyToVec 0 (some primal) (Vec.create n 0)

end
end Sleqp
