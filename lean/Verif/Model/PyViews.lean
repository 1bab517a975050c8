import Verif.Model.Mat
import Verif.Model.WorkingSet

/-!
Model of the objects of the Python interface which refer to data of the library: the wrappers of iterates (`iterate.pxi`) and working sets
(`working_set.pxi`), and the Jacobian matrices handed out (`sparse_matrix.pxi`), with the reference counts of the library.

Modelled is one iterate of one solver with its Jacobian and its working set. Other references of the library to them are left out. The memory of rows and
values of the Jacobian is a block with an identity of its own, since reallocating it moves it (the C standard allows it to stay, which is not
something a caller can rely on); the array of columns has a fixed size and stays. Memory which has been released is `none`.
Vectors are copied element by element into new arrays, see `Model/Python`.
-/

namespace Sleqp
variable {K : Type*}

/-- memory for the rows and values of a matrix, of a given size -/
structure MatBlock (K : Type*) where
  cap : Nat
  row : Nat → Nat
  val : Nat → K

/-- a `csc_matrix` over memory of the library, bindings/python/src/extension/sparse_matrix.pxi:24-45: the block its arrays refer to, and their length. It
also refers to the matrix by a `MatrixRef`. -/
structure JacView where
  block : Nat
  nnz : Nat
deriving DecidableEq

/-- an iterate (iterate.c), its Jacobian and its working set, and the objects referring to them: the solver, wrappers of the iterate, matrices
handed out, wrappers of the working set -/
structure PyRefs (K : Type*) where
  mem : Nat → Option (MatBlock K)
  next : Nat
  cur : Nat
  ptr : Option (Nat → Nat)
  numRows : Nat
  numCols : Nat
  nnz : Nat
  iterRefs : Nat
  matRefs : Nat
  setRefs : Nat
  solver : Bool
  iterates : Nat
  views : List JacView
  sets : Nat

namespace PyRefs

/-- a solver with an iterate whose Jacobian is `m`: the solver has the only reference to the iterate, and the iterate those to Jacobian and working set -/
def ofMat (m : Mat K) : PyRefs K :=
  { mem := fun b => if b = 0 then some ⟨m.cap, m.row, m.val⟩ else none, next := 1, cur := 0, ptr := some m.ptr, numRows := m.numRows, numCols := m.numCols
    nnz := m.nnz, iterRefs := 1, matRefs := 1, setRefs := 1, solver := true, iterates := 0, views := [], sets := 0 }

/-- `sleqp_mat_release`, sparse/mat.c:962-980, with `sparse_matrix_free`. -/
def releaseMat (s : PyRefs K) : Option (PyRefs K) :=
  if s.matRefs = 0 then none
  else if s.matRefs = 1 then some { s with matRefs := 0, mem := setAt s.mem s.cur none, ptr := none }
  else some { s with matRefs := s.matRefs - 1 }

/-- `sleqp_working_set_release`; the memory is released with the last reference -/
def releaseSet (s : PyRefs K) : Option (PyRefs K) :=
  if s.setRefs = 0 then none else some { s with setRefs := s.setRefs - 1 }

/-- `sleqp_iterate_release`, iterate.c:663-681, with `iterate_free`, iterate.c:628-653. -/
def releaseIter (s : PyRefs K) : Option (PyRefs K) :=
  if s.iterRefs = 0 then none
  else if s.iterRefs = 1 then (releaseSet { s with iterRefs := 0 }).bind releaseMat
  else some { s with iterRefs := s.iterRefs - 1 }

/-- what is done in Python, and by the library -/
inductive Op (K : Type*) where
  /-- `solver.solution`, or the argument of a callback -/
  | getIterate
  | dropIterate
  /-- `iterate.cons_jac` -/
  | getJac
  | dropJac (k : Nat)
  /-- `iterate.working_set` -/
  | getSet
  | dropSet
  /-- the solver assigns a Jacobian to the iterate, in a callback's iteration or in a later one -/
  | update (m : Mat K)
  /-- the solver object is deleted -/
  | dropSolver

/-- what can be done: objects are obtained from others, and deleted, as long as they exist -/
def can (s : PyRefs K) : Op K → Prop
  | .getIterate => s.solver = true
  | .dropIterate => 0 < s.iterates
  | .getJac => 0 < s.iterates
  | .dropJac k => k < s.views.length
  | .getSet => 0 < s.iterates
  | .dropSet => 0 < s.sets
  | .update m => s.solver = true ∧ m.numRows = s.numRows ∧ m.numCols = s.numCols ∧ m.nnz ≤ m.cap
  | .dropSolver => s.solver = true

/-- `sleqp_mat_copy`, sparse/mat.c:743-770 (evaluations of the Jacobian, starting with `sleqp_mat_clear` and `sleqp_mat_reserve`, have the same effect). -/
def update (s : PyRefs K) (m : Mat K) : Option (PyRefs K) :=
  (s.mem s.cur).bind fun b =>
  s.ptr.bind fun p =>
    let write (b : MatBlock K) : MatBlock K :=
      { b with row := fun k => if k < m.nnz then m.row k else b.row k, val := fun k => if k < m.nnz then m.val k else b.val k }
    let ptr := some fun j => if j ≤ s.numCols then m.ptr j else p j
    if m.nnz ≤ b.cap then some { s with mem := setAt s.mem s.cur (some (write b)), nnz := m.nnz, ptr := ptr }
    else some { s with mem := setAt (setAt s.mem s.cur none) s.next (some (write { b with cap := m.nnz })), cur := s.next, next := s.next + 1, nnz := m.nnz, ptr := ptr }

/-- The operations. `none` stands for the use of memory which has been released. `Iterate`, bindings/python/src/extension/iterate.pxi:3-79; `WorkingSet`,
bindings/python/src/extension/working_set.pxi:3-20, 111-112; `Solver.solution`, bindings/python/src/extension/solver.pxi:186-198; an empty Jacobian raises an exception,
see `jacRaises`. -/
def step (s : PyRefs K) : Op K → Option (PyRefs K)
  | .getIterate => if s.iterRefs = 0 then none else some { s with iterRefs := s.iterRefs + 1, iterates := s.iterates + 1 }
  | .dropIterate => { s with iterates := s.iterates - 1 }.releaseIter
  | .getJac =>
    if s.iterRefs = 0 ∨ s.matRefs = 0 then none
    else if s.nnz = 0 then some s
    else some { s with matRefs := s.matRefs + 1, views := s.views ++ [⟨s.cur, s.nnz⟩] }
  | .dropJac k => { s with views := s.views.eraseIdx k }.releaseMat
  | .getSet => if s.iterRefs = 0 ∨ s.setRefs = 0 then none else some { s with setRefs := s.setRefs + 1, sets := s.sets + 1 }
  | .dropSet => { s with sets := s.sets - 1 }.releaseSet
  | .update m => s.update m
  | .dropSolver => { s with solver := false }.releaseIter

/-- `iterate.cons_jac` raises an exception: an array of length zero over existing memory cannot be created in Cython (`ValueError`, "Invalid shape in axis 0: 0."),
bindings/python/src/extension/sparse_matrix.pxi:35-37. -/
def jacRaises (s : PyRefs K) : Bool := s.nnz = 0

/-- the Jacobian of the iterate -/
def jac (s : PyRefs K) : Option (Mat K) :=
  (s.mem s.cur).bind fun b => s.ptr.map fun p => ⟨s.numRows, s.numCols, s.nnz, b.cap, p, b.row, b.val⟩

/-- what is read from a matrix handed out: its arrays are those of the library -/
def read (s : PyRefs K) (v : JacView) : Option (Mat K) :=
  (s.mem v.block).bind fun b => s.ptr.map fun p => ⟨s.numRows, s.numCols, v.nnz, v.nnz, p, b.row, b.val⟩

def run (s : PyRefs K) (ops : List (Op K)) : Option (PyRefs K) := ops.foldlM step s

/-- a sequence of operations each of which can be done -/
def Possible (s : PyRefs K) : List (Op K) → Prop
  | [] => True
  | op :: ops => s.can op ∧ ∀ s', s.step op = some s' → Possible s' ops

end PyRefs

/-- `WorkingSet.var_state` and `WorkingSet.cons_state`, bindings/python/src/extension/working_set.pxi:65-85, with working_set.c:229-241, for an array of `n` states: the
index is not checked (only by an assertion, and only from above). `none` if memory outside of the array is read. -/
def pyState (states : Nat → ActiveState) (n : Nat) (i : Int) : Option ActiveState :=
  if 0 ≤ i ∧ i < n then some (states i.toNat) else none

end Sleqp
