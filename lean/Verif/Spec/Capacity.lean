import Verif.Model.Capacity

/-! Specification vocabulary for the space callbacks get. -/

namespace Sleqp

/-- the user's function inside the layers: its type, numbers of variables, constraints and residuals -/
def CapFunc.base : CapFunc → FuncKind × Nat × Nat × Nat
  | .user k n m r _ => (k, n, m, r)
  | .scaled f => f.base
  | .quasi f => f.base
  | .fixedVar _ _ _ f => f.base

/-- the layers contain a quasi-Newton approximation -/
def CapFunc.hasQuasi : CapFunc → Prop
  | .user _ _ _ _ _ => False
  | .scaled f => f.hasQuasi
  | .quasi _ => True
  | .fixedVar _ _ _ f => f.hasQuasi

/-- no variables are fixed -/
def CapFunc.NoFixed : CapFunc → Prop
  | .user _ _ _ _ _ => True
  | .scaled f => f.NoFixed
  | .quasi f => f.NoFixed
  | .fixedVar _ _ _ _ => False

/-- The order in which a solver puts the layers around a function: variables are fixed last. -/
def CapFunc.Layered : CapFunc → Prop
  | .fixedVar _ _ _ f => f.NoFixed
  | f => f.NoFixed

/-- the space a callback needs: for as many nonzeros as it declared, or for all entries if it declared nothing -/
def Needed (declared : Option Nat) (all : Nat) : Nat := declared.getD all

/-- no more nonzeros are declared than there are entries, in a function with `n` variables, `m` constraints -/
def Decl.Legal (d : Decl) (n m : Nat) : Prop :=
  (∀ a, d.grad = some a → a ≤ n) ∧ (∀ a, d.val = some a → a ≤ m) ∧ (∀ a, d.jac = some a → a ≤ n * m)

end Sleqp
