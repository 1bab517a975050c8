import Mathlib.Data.List.Basic

/-!
Specification of coordinate removal: `oldIdx rem i` is the original index of the
`i`-th coordinate that survives the removal of the (increasing) indices `rem`.
`Verif.Props.Remove` proves that it is the strictly increasing enumeration of the
complement of `rem`, which determines it uniquely.
-/

namespace Sleqp

def oldIdx : List Nat → Nat → Nat
  | [], i => i
  | r :: rs, i => if r ≤ i then oldIdx rs (i + 1) else i

end Sleqp
