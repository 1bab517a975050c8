import Verif.Model.Own
import Verif.Model.MexFunc

/-!
What a call of the MATLAB / Octave interface allocates and releases: `mex_solve` in
`/repo/bindings/mex/mex_solve_common.c` and the functions below it.

The objects of the library are reduced to those which hold what the interface creates: the settings, the function with its
data, the problem and the solver; what the solver itself allocates is C92.  Arrays of MATLAB are objects without a count; a
structure owns the arrays which are its fields (`mxSetFieldByNumber`) and `mxDestroyArray` destroys them with it;
`mxDestroyArray` of the null pointer does nothing.
-/

namespace Sleqp

/-- the objects: `mem` are arrays of C, `array` arrays of MATLAB, `info` is the structure with the error information -/
inductive MexTy
  | mem | vec | array | info | settings | regularData | lsqData | dynData | func | problem | solver
  deriving DecidableEq

/-- fields of `MexHess`, bindings/mex/mex_hess.h -/
def mexHessFields : List (String × Bool) :=
  [("hess.args", true), ("hess.cons_dual", true), ("hess.product", true), ("hess.direction", true), ("hess.hess_dir", true),
    ("hess.settings", true)]

/-- fields released by `mex_hess_free`, bindings/mex/mex_hess.c:247-265, in this order -/
def mexHessReleased : List String :=
  ["hess.args", "hess.cons_dual", "hess.product", "hess.direction", "hess.hess_dir", "hess.settings"]

/-- The structures: `FuncData`, bindings/mex/mex_func.c:22-38, released by `mex_func_free`, bindings/mex/mex_func.c:175-189;
`LSQFuncData`, bindings/mex/mex_lsq.c:6-24, released by `mex_lsq_func_free`, bindings/mex/mex_lsq.c:188-202; `DynFuncData`,
bindings/mex/mex_dyn.c:8-30, released by `dyn_func_free`, bindings/mex/mex_dyn.c:256-276; there the arrays stored in the
structure are owned by the structure.  A function releases its data, func.c:430-463, a problem the function and the
settings, problem.c:706-749, a solver the problem. -/
def mexLib : Layout MexTy where
  fields
    | .mem | .vec | .array | .settings => []
    | .info => [("error_bound", true), ("obj_weight", true), ("cons_weights", true)]
    | .regularData => mexHessFields ++ [("primal", true), ("settings", true)]
    | .lsqData => [("adjoint_dir", true), ("forward_dir", true), ("primal", true), ("settings", true)]
    | .dynData => mexHessFields ++ [("error_info", true), ("cons_weights", false), ("obj_weight", false),
        ("error_bound", false), ("primal", true), ("settings", true)]
    | .func => [("data", true)]
    | .problem => [("func", true), ("settings", true)]
    | .solver => [("problem", true)]
  released
    | .mem | .vec | .array | .settings => []
    | .info => ["error_bound", "obj_weight", "cons_weights"]
    | .regularData => mexHessReleased ++ ["primal", "settings"]
    | .lsqData => ["adjoint_dir", "forward_dir", "primal", "settings"]
    | .dynData => mexHessReleased ++ ["error_info", "cons_weights", "obj_weight", "error_bound", "primal", "settings"]
    | .func => ["data"]
    | .problem => ["func", "settings"]
    | .solver => ["problem"]

/-- what is known when a call begins: type of the function, whether there are constraints, whether the Hessian is evaluated,
whether products with it are computed by a callback, and whether there is a callback for accepted iterates -/
structure MexSetup where
  kind : MexKind
  cons : Bool
  hess : Bool
  prod : Bool
  accepted : Bool
  deriving DecidableEq

/-- a program under construction: the next address and the steps so far -/
abbrev MexProg := Nat × List (OwnOp MexTy)

/-- allocation; the address is the old `next` -/
def MexProg.alloc (p : MexProg) (ty : MexTy) (size : Nat) : MexProg := (p.1 + 1, p.2 ++ [.alloc ty size])

def MexProg.then (p : MexProg) (ops : List (OwnOp MexTy)) : MexProg := (p.1, p.2 ++ ops)

/-- allocation of an object stored in a field -/
def MexProg.field (p : MexProg) (b : Nat) (f : String) (ty : MexTy) (size : Nat) : MexProg :=
  (p.alloc ty size).then [.store b f 0 p.1]

/-- capture of an object stored in a field -/
def MexProg.share (p : MexProg) (b : Nat) (f : String) (a : Nat) : MexProg := p.then [.capture a, .store b f 0 a]

/-- `mex_hess_init`, bindings/mex/mex_hess.c:7-43, for the data `d` with the settings `s` -/
def MexProg.hess (p : MexProg) (c : MexSetup) (d s : Nat) : MexProg :=
  let p := if c.prod then p.field d "hess.hess_dir" .array 0
    else (p.field d "hess.direction" .mem 0).field d "hess.product" .mem 0
  (p.share d "hess.settings" s).field d "hess.cons_dual" .array 0

/-- `create_func_data`, bindings/mex/mex_func.c:123-173, `create_lsq_func_data`, bindings/mex/mex_lsq.c:45-96, and
`create_dyn_func_data`, bindings/mex/mex_dyn.c:38-113; the data are the first object allocated -/
def MexProg.data (p : MexProg) (c : MexSetup) (s : Nat) : MexProg :=
  let d := p.1
  match c.kind with
  | .regular =>
    let p := (p.alloc .regularData 1).share d "settings" s
    let p := if c.hess then p.hess c d s else p
    p.field d "primal" .array 0
  | .lsq =>
    let p := (p.alloc .lsqData 1).share d "settings" s
    ((p.field d "primal" .array 0).field d "adjoint_dir" .array 0).field d "forward_dir" .array 0
  | .dyn =>
    let p := (p.alloc .dynData 1).share d "settings" s
    let w := p.1
    let p := if c.cons then (p.alloc .array 0).then [.store d "cons_weights" 0 w] else p
    let p := if c.hess then p.hess c d s else p
    let p := p.field d "primal" .array 0
    let e := p.1
    let p := (p.alloc .array 0).then [.store d "error_bound" 0 e]
    let o := p.1
    let p := (p.alloc .array 0).then [.store d "obj_weight" 0 o]
    let i := p.1
    let p := p.field d "error_info" .info 1
    let p := p.then [.store i "error_bound" 0 e, .store i "obj_weight" 0 o]
    if c.cons then p.then [.store i "cons_weights" 0 w] else p

/-- `mex_problem_create`, bindings/mex/mex_problem.c:160-234: the vectors of bounds, the function and the problem; the
reference to the function is not released.  The addresses of function and problem are returned. -/
def MexProg.problem (p : MexProg) (c : MexSetup) (s : Nat) : MexProg × Nat × Nat :=
  let v := p.1
  let p := (((p.alloc .vec 0).alloc .vec 0).alloc .vec 0).alloc .vec 0
  let d := p.1
  let p := p.data c s
  let f := p.1
  let p := (p.alloc .func 1).then [.store f "data" 0 d]
  let q := p.1
  let p := ((p.alloc .problem 1).share q "func" f).share q "settings" s
  (p.then [.release (v + 3), .release (v + 2), .release (v + 1), .release v], f, q)

/-- `mex_solve`, bindings/mex/mex_solve_common.c:286-334, with `register_callbacks`,
bindings/mex/mex_solve_common.c:241-276, and `destroy_callback_data`, bindings/mex/mex_solve_common.c:278-284; the
solver uses the problem. The addresses of the settings, the function and the problem are returned as well. -/
def mexSolveProg (c : MexSetup) : List (OwnOp MexTy) × Nat × Nat × Nat :=
  let p : MexProg := (0, [])
  let s := p.1
  let p := p.alloc .settings 0
  let r := p.problem c s
  let p := r.1
  let x := p.1
  let p := p.alloc .vec 0
  let w := p.1
  let p := (p.alloc .solver 1).share w "problem" r.2.2
  let a := p.1
  let p := if c.accepted then p.alloc .array 0 else p
  let p := p.then [.use w, .use r.2.2, .use r.2.1]
  let p := if c.accepted then p.then [.release a] else p
  ((p.then [.release x, .release w, .release r.2.2, .release s]).2, s, r.2.1, r.2.2)

/-- a call which fails at some point: `SLEQP_CALL` returns at once, `MEX_CALL` too, without releasing anything -/
def mexFailedProg (c : MexSetup) (k : Nat) : List (OwnOp MexTy) := (mexSolveProg c).1.take k

end Sleqp
