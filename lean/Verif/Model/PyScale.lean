import Verif.Model.Python
import Verif.Model.Scale

/-!
Model of the scaling in Python, `/repo/bindings/python/src/extension/scale.pxi`.

Exceptions are the outcome `err` (and leave the object as it is), undefined behaviour is `undef`. The conversion of weights to C integers, and of
numbers to C doubles, is not part of the model, neither is the release of memory. Arrays given to the functions for nominal values are arrays of
doubles (others are refused).
-/

namespace Sleqp

/-- A one-dimensional NumPy array: `len` elements at the positions `off`, `off + stride`, … of the memory `mem` it is a view of. -/
structure NpArr (V : Type*) where
  mem : List V
  off : Nat
  stride : Int
  len : Nat

/-- the element `a[i]` in Python -/
def NpArr.get {V : Type*} (a : NpArr V) (i : Nat) : Option V :=
  if 0 ≤ (a.off : Int) + a.stride * i then a.mem[((a.off : Int) + a.stride * i).toNat]? else none

/-- what is found in C at `p[j]` for the address `p` of the first element; `none` outside of the memory of the array -/
def NpArr.raw {V : Type*} (a : NpArr V) (j : Nat) : Option V := a.mem[a.off + j]?

/-- `Scaling`, bindings/python/src/extension/scale.pxi:20-46; `dict` are the names of further attributes given to the object, which are put into its
`__dict__`. -/
structure PyScaling (K : Type*) where
  scaling : Scaling
  gradient : Vec K
  consJac : Mat K
  dict : List String

variable {K : Type*} [Field K] [LinearOrder K]

/-- `Scaling.__cinit__`, bindings/python/src/extension/scale.pxi:33-49; `row`, `val` is the memory of the matrix not initialised. -/
def PyScaling.create (numVars numCons : Int) (row : Nat → Nat) (val : Nat → K) : MexRes (PyScaling K) :=
  if numVars < 0 ∨ numCons < 0 then .err
  else .ok ⟨Scaling.create numVars.toNat numCons.toNat, Vec.create numVars.toNat 0, Mat.create numCons.toNat numVars.toNat 0 row val, []⟩

/-- the exponents computed by `set_var_weights_from_nominal` and `set_cons_weights_from_nominal`,
bindings/python/src/extension/scale.pxi:173-177, 189-193 with scale.c:183-193, 223-233, for `n` weights: the address of the first element is passed on,
which raises an exception if there is none. -/
def pyNominal (frexp : K → ℤ) (n : Nat) (a : NpArr K) : MexRes (List ℤ) :=
  if a.len = n then
    if n = 0 then .err else MexRes.ofOption ((List.range n).mapM fun j => (a.raw j).map frexp)
  else .err

/-- the calls which change a scaling -/
inductive PyScaleOp (K : Type*) where
  | obj (w : ℤ)
  | objNominal (x : K)
  | var (j w : ℤ)
  | varNominal (j : ℤ) (x : K)
  | varsNominal (a : NpArr K)
  | cons (i w : ℤ)
  | consNominal (i : ℤ) (x : K)
  | conssNominal (a : NpArr K)
  | assignVars (ws : List ℤ)
  | assignCons (ws : List ℤ)
  | assign (name : String)
  | grad (a : List K) (eps : K)
  | jac (a : PyMat K) (eps : K)

/-- an argument refused by the library -/
def MexRes.refused {α : Type*} : Option α → MexRes α
  | some a => .ok a
  | none => .err

/-- The calls, bindings/python/src/extension/scale.pxi:110-218: the setter of `obj_weight`, 117-120, and the functions 164-218. The setters of
`var_weights`, 135-141, and `cons_weights`, 156-162, call functions (`set_variable_weight`, `set_constraint_weight`) which do not exist. Assignments to
other attributes are stored, since the object has a `__dict__`, 28 (it is not used to define the missing functions). -/
def PyScaling.step (inf : K) (frexp : K → ℤ) (s : PyScaling K) : PyScaleOp K → MexRes (PyScaling K)
  | .obj w => .ok { s with scaling := s.scaling.setObjWeight w }
  | .objNominal x => .ok { s with scaling := s.scaling.objFromNominal frexp x }
  | .var j w => if j < 0 then .err else (MexRes.refused (s.scaling.setVarWeight j.toNat w)).bind fun t => .ok { s with scaling := t }
  | .varNominal j x =>
    if j < 0 then .err else (MexRes.refused (s.scaling.varFromNominal frexp j.toNat x)).bind fun t => .ok { s with scaling := t }
  | .varsNominal a => (pyNominal frexp s.scaling.varW.length a).bind fun ws => .ok { s with scaling := { s.scaling with varW := ws } }
  | .cons i w => if i < 0 then .err else (MexRes.refused (s.scaling.setConsWeight i.toNat w)).bind fun t => .ok { s with scaling := t }
  | .consNominal i x =>
    if i < 0 then .err else (MexRes.refused (s.scaling.consFromNominal frexp i.toNat x)).bind fun t => .ok { s with scaling := t }
  | .conssNominal a => (pyNominal frexp s.scaling.consW.length a).bind fun ws => .ok { s with scaling := { s.scaling with consW := ws } }
  | .assignVars ws => if ws.length = s.scaling.varW.length ∧ s.scaling.varW.length = 0 then .ok s else .err
  | .assignCons ws => if ws.length = s.scaling.consW.length ∧ s.scaling.consW.length = 0 then .ok s else .err
  | .assign name => .ok { s with dict := name :: s.dict }
  | .grad a eps => (pyToVec 0 (some a) s.gradient).bind fun g => .ok { s with gradient := g, scaling := s.scaling.objFromGrad frexp g eps }
  | .jac a eps =>
    (pyToMat 0 a s.consJac).bind fun m =>
      (MexRes.ofOption (s.scaling.fromConsJac inf frexp m eps)).bind fun t => .ok { s with consJac := m, scaling := t }

/-- whether `str` succeeds, `Scaling.__str__`, bindings/python/src/extension/scale.pxi:70-80: it uses an attribute `variable_weights`, which the class
does not have. -/
def PyScaling.strOk (s : PyScaling K) : Bool := s.dict.contains "variable_weights"

/-- `weight_to_nominal_value` (and, elementwise, `weights_to_nominal_values`), bindings/python/src/extension/scale.pxi:82-87, 103-108. -/
def weightToNominal (w : ℤ) : K := ldexp 1 w

/-- `nominal_value_to_weight` (and, elementwise, `nominal_values_to_weights`), bindings/python/src/extension/scale.pxi:89-101; `frexp` is the exponent
computed by NumPy. -/
def nominalToWeight (frexp : K → ℤ) (x : K) : ℤ := frexp x

end Sleqp
