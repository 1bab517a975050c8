import Verif.Model.Vec

/-!
The cursor idiom of loops over *all* indices:
```
while (k < v->nnz && v->indices[k] < j) ++k;
val = (k < v->nnz && v->indices[k] == j) ? v->data[k] : 0.;
```
The entries at and after the cursor are a list.
-/

namespace Sleqp
variable {K : Type*} [Zero K]

/-- the `while` loop advancing the cursor to index `j` -/
def cursorTo (j : Nat) (l : List (Nat × K)) : List (Nat × K) := l.dropWhile fun e => decide (e.1 < j)

/-- the value under the cursor if it points to index `j`, `0` otherwise -/
def cursorVal (j : Nat) : List (Nat × K) → K
  | [] => 0
  | e :: _ => if e.1 = j then e.2 else 0

end Sleqp
