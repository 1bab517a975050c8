import Mathlib.Algebra.Order.Ring.Int
import Mathlib.Data.Int.ModEq

/-!
The ring buffers of `step/step_rule_window.c`, `quasi_newton/sr1.c` and
`quasi_newton/bfgs.c`: fields `num` (maximal size), `len` (current size), `curr`
(current index) and data arrays of length `num` (one function `Nat → α` for the
tuple of arrays).  Overflow of `curr` (a C `int`) is not modelled.
-/

namespace Sleqp

/-- the ring buffer fields -/
structure Ring (α : Type*) where
  num : Nat
  len : Nat
  curr : Int
  arr : Nat → α

namespace Ring
variable {α : Type*}

/-- initial state: step/step_rule_window.c:245-255,
quasi_newton/sr1.c:98-108, quasi_newton/bfgs.c:104-112. -/
def create (num : Nat) (arr : Nat → α) : Ring α := ⟨num, 0, -1, arr⟩

/-- `data_index`, step/step_rule_window.c:24-35
(same code: `data_index`, quasi_newton/sr1.c:195-206,
`data_index`, quasi_newton/bfgs.c:278-289): C remainder, made nonnegative. -/
def dataIndex (r : Ring α) (i : Int) : Nat :=
  if r.len = 0 then 0
  else
    let d := Int.tmod i r.num
    (if d < 0 then d + r.num else d).toNat

/-- write slot `p`, grow `len` up to `num` -/
def store (r : Ring α) (p : Nat) (x : α) (curr : Int) : Ring α :=
  { r with arr := fun k => if k = p then x else r.arr k
           len := if r.len < r.num then r.len + 1 else r.len
           curr := curr }

/-- push of the window rule, `add_accepted_step`, step/step_rule_window.c:119-150. -/
def pushInc (r : Ring α) (x : α) : Ring α := r.store (r.dataIndex (r.curr + 1)) x (r.curr + 1)

/-- push of the quasi-Newton methods, quasi_newton/sr1.c:337-348, quasi_newton/bfgs.c:557-576:
`curr = next`. -/
def pushSet (r : Ring α) (x : α) : Ring α :=
  r.store (r.dataIndex (r.curr + 1)) x (r.dataIndex (r.curr + 1))

/-- `step_rule_window_reset`, step/step_rule_window.c:200-209. -/
def reset (r : Ring α) : Ring α := { r with len := 0, curr := -1 }

/-- the loops `for (i = curr - len + 1; i <= curr; ++i) … [data_index(i)]`: the
buffered elements in visiting order. -/
def contents (r : Ring α) : List α :=
  (List.range r.len).map fun (k : Nat) => r.arr (r.dataIndex (r.curr - r.len + 1 + k))

end Ring
end Sleqp
