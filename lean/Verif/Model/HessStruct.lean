import Mathlib.Data.List.Basic
import Mathlib.Algebra.Order.Ring.Int

/-!
Model of `/repo/src/main/hess_struct.c` (block structure of Hessians) and of its reduction in
`/repo/src/main/preprocessor/fixed_var_func.c`.
-/

namespace Sleqp

/-- Outcomes: a reported error, or an access outside of (the initialised part of) an array. -/
inductive HErr | illegalArgument | outOfBounds
  deriving DecidableEq

/-- `SleqpHessStruct`, hess_struct.c:7-13: `alloc` is the allocated length of `block_ends`, `ends` its used
part. C `int`s are unbounded integers. -/
structure HessStruct where
  dim : Nat
  alloc : Nat
  ends : List Int
  deriving DecidableEq

namespace HessStruct

/-- `sleqp_hess_struct_push_block`, hess_struct.c:44-68. -/
def pushBlock (h : HessStruct) (e : Int) : Except HErr HessStruct :=
  if e > h.dim then .error .illegalArgument
  else if h.ends.length ≥ h.dim then .error .illegalArgument
  else if ∃ l ∈ h.ends.getLast?, e ≤ l then .error .illegalArgument
  else if h.ends.length < h.alloc then .ok { h with ends := h.ends ++ [e] }
  else .error .outOfBounds

/-- `sleqp_hess_struct_create`, hess_struct.c:15-36. -/
def create (dim : Nat) (empty : Bool) : Except HErr HessStruct :=
  if !empty ∧ dim > 0 then pushBlock ⟨dim, dim, []⟩ dim else .ok ⟨dim, dim, []⟩

/-- `sleqp_hess_struct_clear`, hess_struct.c:70-76. -/
def clear (h : HessStruct) : HessStruct := { h with ends := [] }

/-- `sleqp_hess_struct_block_range`, hess_struct.c:78-94; reading an entry that was never written (or lies outside of
the array) is `outOfBounds`. -/
def blockRange (h : HessStruct) (block : Int) : Except HErr (Int × Int) :=
  if block > h.ends.length then .error .illegalArgument
  else if block < 0 then .error .outOfBounds
  else match (if block > 0 then h.ends[block.toNat - 1]? else some 0), h.ends[block.toNat]? with
    | some b, some e => .ok (b, e)
    | _, _ => .error .outOfBounds

/-- `sleqp_hess_struct_lin_range`, hess_struct.c:96-108. -/
def linRange (h : HessStruct) : Int × Int := ((h.ends.getLast?).getD 0, h.dim)

/-- `sleqp_hess_struct_copy`, hess_struct.c:158-178 (the reads are in range). -/
def copy (source target : HessStruct) : Except HErr HessStruct :=
  source.ends.foldlM pushBlock (clear { target with dim := source.dim })

/-- body of the inner loop of `create_fixed_var_hess_struct`, preprocessor/fixed_var_func.c:203-247: state is the
list of remaining fixed indices and `next_offset` -/
def fixedInner (s : List Nat × Int) (j : Int) : List Nat × Int :=
  match s.1 with
  | f :: fs => if (f : Int) = j then (fs, s.2 + 1) else s
  | [] => s

/-- body of the outer loop of `create_fixed_var_hess_struct`, preprocessor/fixed_var_func.c:203-247: state
is the target, the remaining fixed indices, `offset` and the end of the previous block. -/
def fixedOuter (s : HessStruct × List Nat × Int × Int) (sourceEnd : Int) :
    Except HErr (HessStruct × List Nat × Int × Int) :=
  let begin := s.2.2.2
  let inner := ((List.range (sourceEnd - begin).toNat).map fun (k : Nat) => begin + k).foldl fixedInner (s.2.1, s.2.2.1)
  if begin - s.2.2.1 ≠ sourceEnd - inner.2 then
    (pushBlock s.1 (sourceEnd - inner.2)).map fun t => (t, inner.1, inner.2, sourceEnd)
  else .ok (s.1, inner.1, inner.2, sourceEnd)

/-- `create_fixed_var_hess_struct`, preprocessor/fixed_var_func.c:203-247; the loop over block ranges is a loop over the
block ends. -/
def fixedStruct (source target : HessStruct) (fixed : List Nat) : Except HErr HessStruct :=
  (source.ends.foldlM fixedOuter (target.clear, fixed, 0, 0)).map fun s => s.1

end HessStruct
end Sleqp
