import Verif.Model.Problem

/-!
Model of the MATLAB / Octave interface, `/repo/bindings/mex`: the conversion of arrays from and to the library.

The functions `mxGetPr`, `mxGetNumberOfElements`, `mxIsDouble`, … of MATLAB are modelled by what their documentation says. Reading an
element an array does not have, and a failed `assert`, is the outcome `undef`; an error code returned by the library is `err`.
-/

namespace Sleqp

/-- An array without cells. A sparse array is given by its compressed columns: `mxGetJc` is `ptr`, `mxGetIr` is `row`, `mxGetPr` is
`val`. Arrays of any other class (integers, logical values, strings, handles, …) are only known by their number of elements. -/
inductive MxLeaf (V : Type*) where
  | dense (rows cols : Nat) (data : List V)
  | sparse (s : Mat V)
  | other (elements : Nat)

/-- An array or a cell array (the code looks at most one level into a cell array). -/
inductive MxArray (V : Type*) where
  | leaf (a : MxLeaf V)
  | cell (as : List (MxLeaf V))

/-- how a function of the interface ends -/
inductive MexRes (α : Type*) where
  | ok (a : α)
  | err
  | undef

namespace MexRes

def bind {α β : Type*} (r : MexRes α) (f : α → MexRes β) : MexRes β :=
  match r with
  | ok a => f a
  | err => err
  | undef => undef

/-- an operation with asserts: a failed one is undefined behaviour -/
def ofOption {α : Type*} : Option α → MexRes α
  | some a => ok a
  | none => undef

end MexRes

namespace MxLeaf
variable {V : Type*}

/-- `mxGetNumberOfElements` -/
def elements : MxLeaf V → Nat
  | dense _ _ data => data.length
  | sparse s => s.numRows * s.numCols
  | other n => n

/-- `mxIsDouble` -/
def isDouble : MxLeaf V → Bool
  | dense .. => true
  | sparse _ => true
  | other _ => false

/-- `mxGetPr(array)[k]`: a dense array of doubles has all its elements there, a sparse one only those stored -/
def pr : MxLeaf V → Nat → Option V
  | dense _ _ data, k => data[k]?
  | sparse s, k => if k < s.nnz then some (s.val k) else none
  | other _, _ => none

/-- the first `n` elements -/
def prList (a : MxLeaf V) (n : Nat) : Option (List V) := (List.range n).mapM a.pr

end MxLeaf

section
variable {V : Type*}

/-- `array_or_cell_size`, bindings/mex/mex_problem.c:11-33 -/
def MxArray.size : MxArray V → Nat
  | .cell as => as.foldl (fun s a => s + a.elements) 0
  | .leaf a => a.elements

/-- the loop over the cells in `mex_create_vec_from_array`, bindings/mex/mex_problem.c:56-95 -/
def mexPushCells (v : Vec V) : Nat → List (MxLeaf V) → MexRes (Vec V)
  | _, [] => .ok v
  | offset, a :: as =>
    (MexRes.ofOption (a.prList a.elements)).bind fun data =>
    (MexRes.ofOption (v.pushAll (data.zipIdx.map fun p => (p.2 + offset, p.1)))).bind fun v' =>
    mexPushCells v' (offset + a.elements) as

/-- `mex_create_vec_from_array`, bindings/mex/mex_problem.c:56-95 (a new full vector). -/
def mexCreateVec (a : MxArray V) : MexRes (Vec V) :=
  match a with
  | .cell as => mexPushCells (Vec.create a.size a.size) 0 as
  | .leaf b =>
    (MexRes.ofOption (b.prList a.size)).bind fun data =>
    MexRes.ofOption ((Vec.create a.size a.size).pushAll (data.zipIdx.map fun p => (p.2, p.1)))

/-- `create_vec_from_array_default`, bindings/mex/mex_problem.c:97-114 (the default value is not zero). -/
def mexCreateVecDefault (a : Option (MxArray V)) (n : Nat) (value : V) : MexRes (Vec V) :=
  match a with
  | some a => mexCreateVec a
  | none => .ok ⟨n, n, (List.range n).map fun i => (i, value)⟩

end

section
variable {K : Type*} [Field K] [LinearOrder K]

/-- `mex_array_to_real`, bindings/mex/mex_func_common.c:50-59. -/
def mexToReal (a : MxLeaf K) : MexRes K :=
  if a.isDouble then
    if a.elements = 1 then MexRes.ofOption (a.pr 0) else .err
  else .err

/-- `mex_array_to_vec`, bindings/mex/mex_func_common.c:95-106. -/
def mexToVec (zeroEps : K) (a : MxLeaf K) (v : Vec K) : MexRes (Vec K) :=
  if a.isDouble then
    if a.elements = v.dim then
      (MexRes.ofOption (a.prList v.dim)).bind fun data => MexRes.ofOption (v.setFromRaw zeroEps data)
    else .err
  else .err

/-- The double loop over the entries of a sparse array, bindings/mex/mex_func_common.c:133-150, bindings/mex/mex_hess.c:109-136: the entries of the
columns `js` if `index` is the first entry not yet visited. -/
def mexCols (s : Mat K) : Nat → List Nat → List (List (Nat × K))
  | _, [] => []
  | index, j :: js =>
    ((List.range' index (s.ptr (j + 1) - index)).map fun k => (s.row k, s.val k)) :: mexCols s (max index (s.ptr (j + 1))) js

/-- `array_to_sparse_matrix`, bindings/mex/mex_func_common.c:108-151, on the matrix cleared by `sleqp_func_cons_jac`, func.c:204-232. -/
def mexToMat (a : MxLeaf K) (m : Mat K) : MexRes (Mat K) :=
  match a with
  | .sparse s =>
    if s.numRows = m.numRows ∧ s.numCols = m.numCols then
      MexRes.ofOption ((m.clear.reserve (s.ptr m.numCols)).assembleFrom 0 (mexCols s 0 (List.range m.numCols)))
    else .err
  | _ => .err

/-- the inner loop of `prod_from_hess_matrix`, bindings/mex/mex_hess.c:85-139: the entries of column `col` -/
def mexHessCol (d : Nat → K) (col : Nat) : List (Nat × K) → (Nat → K) → MexRes (Nat → K)
  | [], p => .ok p
  | (row, value) :: es, p =>
    if row < col then .err
    else if row = col then mexHessCol d col es (setAt p row (p row + value * d col))
    else
      let p1 := setAt p row (p row + value * d col)
      mexHessCol d col es (setAt p1 col (p1 col + value * d row))

/-- the outer loop of `prod_from_hess_matrix`, bindings/mex/mex_hess.c:85-139 -/
def mexHessCols (d : Nat → K) : List (Nat × List (Nat × K)) → (Nat → K) → MexRes (Nat → K)
  | [], p => .ok p
  | (col, es) :: cs, p => (mexHessCol d col es p).bind fun p' => mexHessCols d cs p'

/-- `prod_from_hess_matrix`, bindings/mex/mex_hess.c:85-139; the array `product` is filled with zeros first. -/
def mexHessProduct (s : Mat K) (d : Nat → K) : MexRes (Nat → K) :=
  mexHessCols d ((List.range s.numCols).zip (mexCols s 0 (List.range s.numCols))) fun _ => 0

/-- `hess_prod_matrix`, bindings/mex/mex_hess.c:174-222, from the array the callback returned on; `n` variables. -/
def mexHessProd (zeroEps : K) (n : Nat) (a : MxLeaf K) (dir res : Vec K) : MexRes (Vec K) :=
  match a with
  | .sparse s =>
    if s.numRows = n ∧ s.numCols = n then
      (mexHessProduct s fun i => dir.toRaw.getD i 0).bind fun p => MexRes.ofOption (res.setFromRaw zeroEps ((List.range n).map p))
    else .err
  | _ => .err

/-- `create_array_from_vec`, bindings/mex/mex_output.c:5-15; the same conversion is used for the arguments of the callbacks. -/
def mexFromVec (v : Vec K) : MxLeaf K := .dense v.dim 1 v.toRaw

/-- `num_cons_from_options`, bindings/mex/mex_problem.c:41-54 (the options were checked to be a structure before). -/
def mexNumCons (consLb : Option (MxArray (Ext K))) : Nat :=
  match consLb with
  | some a => a.size
  | none => 0

/-- an error code of the library -/
def MexRes.ofExcept {ε α : Type*} : Except ε α → MexRes α
  | .ok a => .ok a
  | .error _ => .err

/-- The problem of `mex_problem_create`, bindings/mex/mex_problem.c:160-234, with `create_bounds_from_options`, bindings/mex/mex_problem.c:116-130; `inf` is `sleqp_infinity()`. The function is not part of the model; an error of
`sleqp_problem_create_simple` is an error of the interface. -/
def mexProblem (inf : K) (x0 : MxArray (Ext K)) (varLb varUb consLb consUb : Option (MxArray (Ext K)))
    (row : Nat → Nat) (val : Nat → Ext K) : MexRes (Prob (Ext K)) :=
  (mexCreateVecDefault varLb x0.size (.fin (-inf))).bind fun vl =>
  (mexCreateVecDefault varUb x0.size (.fin inf)).bind fun vu =>
  (mexCreateVecDefault consLb (mexNumCons consLb) (.fin (-inf))).bind fun cl =>
  (mexCreateVecDefault consUb (mexNumCons consLb) (.fin inf)).bind fun cu =>
  MexRes.ofExcept (probCreateSimple (extBounds inf) (.fin 0) x0.size (mexNumCons consLb) vl vu cl cu row val)

end
end Sleqp
