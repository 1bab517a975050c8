import Verif.Model.Mat
import Verif.Spec.Vec

/-! Specification of well formed compressed-column matrices. -/

namespace Sleqp

/-- Column pointers start at 0, never decrease and end at the number of entries,
which fits the capacity; inside each column the row indices are in range and
strictly increasing. -/
structure Mat.WF {K : Type*} (m : Mat K) : Prop where
  ptr_zero : m.ptr 0 = 0
  ptr_mono : ∀ j < m.numCols, m.ptr j ≤ m.ptr (j + 1)
  ptr_last : m.ptr m.numCols = m.nnz
  le_cap : m.nnz ≤ m.cap
  srt : ∀ j < m.numCols, Srt (m.col j)
  lt_rows : ∀ j < m.numCols, ∀ e ∈ m.col j, e.1 < m.numRows

end Sleqp
