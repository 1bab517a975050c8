import Mathlib.Order.Defs.LinearOrder

/-! The last `n` elements of a history. -/

namespace Sleqp

/-- the last `n` elements of `l` (all of `l` if it is shorter) -/
def lastN {α : Type*} (n : Nat) (l : List α) : List α := l.drop (l.length - n)

end Sleqp
