import Verif.Model.WorkingSet
import Verif.Spec.Presolve
import Verif.Model.Presolve
import Verif.Props.Feas

/-! Specification vocabulary for the restoration of multipliers. -/

namespace Sleqp

open Finset

variable {K : Type*} [Field K] [LinearOrder K]

/-- general constraints followed by linear constraints -/
def stackFn {α : Type*} (numGen : Nat) (gen lin : Nat → α) (i : Nat) : α :=
  if i < numGen then gen i else lin (i - numGen)

/-- a multiplier has the sign its state in the working set admits -/
def ActiveState.Admits (st : ActiveState) (d : K) : Prop :=
  match st with
  | .inactive => d = 0
  | .lower => d ≤ 0
  | .upper => 0 ≤ d
  | .both => True

/-- Multipliers `vd` of the variables and `cd` of the constraints at a point with values `x` and `cv`, gradient `g` and
Jacobian `J`: the gradient of the Lagrangian is zero, and a multiplier is nonzero only at a bound that its sign selects. -/
structure Multipliers (n m : Nat) (x xl xu cv cl cu g : Nat → K) (J : Nat → Nat → K) (vd cd : Nat → K) : Prop where
  stationary : ∀ j < n, g j + vd j + ∑ i ∈ range m, cd i * J i j = 0
  vars : ∀ j < n, Complementary (x j) (xl j) (xu j) (vd j)
  cons : ∀ i < m, Complementary (cv i) (cl i) (cu i) (cd i)

/-- multipliers of a problem with the given variables `x`, values `c`, gradient and Jacobian `J` of the general constraints -/
def Prob.Kkt (p : Prob K) (x c g : Nat → K) (J : Nat → Nat → K) (vd cd : Nat → K) : Prop :=
  Multipliers p.numVars (p.numGen + p.numLin) x p.varLb.value p.varUb.value
    (stackFn p.numGen c (p.activity x)) (stackFn p.numGen p.genLb.value p.linLb.value)
    (stackFn p.numGen p.genUb.value p.linUb.value) g (stackFn p.numGen J p.coeffs.value) vd cd

/-- at most one row improves a given bound of a variable -/
def Presolve.SingleConv (s : Presolve K) : Prop :=
  ∀ b ∈ s.conv, ∀ c ∈ s.conv, b.var = c.var → (b.upper = true → c.upper = true → b = c) ∧
    (b.lower = true → c.lower = true → b = c)

/-- no variable occurs in two forcing constraints -/
def Presolve.DisjointForcing (s : Presolve K) : Prop :=
  s.forcing.Pairwise fun f f' => ∀ e ∈ f.coeffs, ∀ e' ∈ f'.coeffs, e.1 ≠ e'.1

end Sleqp
