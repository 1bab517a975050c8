import Verif.Model.Vec

/-! Model of `/repo/src/main/preprocessor/preprocessing.c`: re-inserting removed
entries into sparse vectors. -/

namespace Sleqp
namespace Vec

variable {K : Type*}

/-- Loop of `sleqp_preprocessing_merge_entries`, preprocessor/preprocessing.c:5-46,
unrolled into one recursion over both cursors: `fx` are the remaining pairs
(`entry_indices[k_f]`, `entry_values[k_f]`), `off` the running offset, the last
argument the remaining source entries. -/
def mergeLoop : List (Nat × K) → Nat → List (Nat × K) → List (Nat × K)
  | fx, _, [] => fx
  | [], off, (i, v) :: t => (i + off, v) :: mergeLoop [] off t
  | (r, w) :: fs, off, (i, v) :: t =>
    if r ≤ i + off then (r, w) :: mergeLoop fs (off + 1) ((i, v) :: t)
    else (i + off, v) :: mergeLoop ((r, w) :: fs) off t
termination_by fx _ src => fx.length + src.length

/-- `sleqp_preprocessing_merge_entries`, preprocessor/preprocessing.c:5-46. -/
def mergeEntries (source target : Vec K) (fx : List (Nat × K)) : Option (Vec K) :=
  if source.dim + fx.length = target.dim then
    ((target.clear).reserve (source.nnz + fx.length)).pushAll (mergeLoop fx 0 source.ents)
  else none

/-- Loop of `sleqp_preprocessing_add_zero_entries`,
preprocessor/preprocessing.c:48-76, unrolled as above. -/
def addZeroLoop : List Nat → Nat → List (Nat × K) → List (Nat × K)
  | _, _, [] => []
  | [], off, (i, v) :: t => (i + off, v) :: addZeroLoop [] off t
  | r :: rs, off, (i, v) :: t =>
    if r ≤ i + off then addZeroLoop rs (off + 1) ((i, v) :: t)
    else (i + off, v) :: addZeroLoop (r :: rs) off t
termination_by rem _ src => rem.length + src.length

/-- `sleqp_preprocessing_add_zero_entries`, preprocessor/preprocessing.c:48-76. -/
def addZeroEntries (source target : Vec K) (rem : List Nat) : Option (Vec K) :=
  ((target.clear).reserve source.nnz).pushAll (addZeroLoop rem 0 source.ents)

end Vec
end Sleqp
