import Verif.Model.MinimizeBounds
import Verif.Spec.Python
import Verif.Spec.Problem
import Verif.Spec.Mex
import Mathlib.Algebra.BigOperators.Group.Finset.Basic

/-!
The feasible set described by the arguments of `minimize`, and that of the problem created.
-/

namespace Sleqp
open Finset

section
variable {K : Type*} [Field K] [LinearOrder K]

/-- a number is within bounds -/
def InB (l : Ext K) (v : K) (u : Ext K) : Prop := l.le (.fin v) = true ∧ (Ext.fin v).le u = true

/-- one number given for `k` bounds stands for all of them -/
def bcast (k : Nat) (l : List (Ext K)) : List (Ext K) := if l.length = 1 then List.replicate k (l.getD 0 (.fin 0)) else l

/-- all numbers are within their bounds -/
def AllIn (l : List (Ext K)) (v : List K) (u : List (Ext K)) : Prop :=
  l.length = v.length ∧ u.length = v.length ∧ ∀ i < v.length, InB (l.getD i (.fin 0)) (v.getD i 0) (u.getD i (.fin 0))

/-- the lower bound of variable `i` of `n` -/
def BoundsArg.lower (n i : Nat) : BoundsArg K → Ext K
  | missing => .ninf
  | object lb _ => (bcast n lb).getD i .ninf
  | pairs l => (l[i]?.bind fun p => p.1).getD .ninf

/-- the upper bound of variable `i` of `n` -/
def BoundsArg.upper (n i : Nat) : BoundsArg K → Ext K
  | missing => .pinf
  | object _ ub => (bcast n ub).getD i .pinf
  | pairs l => (l[i]?.bind fun p => p.2).getD .pinf

/-- the values of linear constraints with `n` variables -/
def rowVals (n : Nat) (x : Nat → K) (rows : Nat) (a : Nat → Nat → K) : List K := (List.range rows).map fun i => ∑ j ∈ range n, a i j * x j

/-- A constraint holds at the point `x`, where its function has the values `v`. -/
def ConsArg.Feasible (n : Nat) (x : Nat → K) (v : List K) : ConsArg K → Prop
  | object lb ub _ => AllIn (bcast v.length lb.list) v (bcast v.length ub.list)
  | ineq => ∀ a ∈ v, 0 ≤ a
  | eq => ∀ a ∈ v, a = 0
  | linear rows _ a lb ub => AllIn (bcast rows lb) (rowVals n x rows a) (bcast rows ub)

/-- the feasible set the user described, for constraints with values `vs` -/
def UserFeasible (n : Nat) (bounds : BoundsArg K) (cs : List (ConsArg K)) (x : Nat → K) (vs : List (List K)) : Prop :=
  (∀ i < n, InB (bounds.lower n i) (x i) (bounds.upper n i)) ∧ List.Forall₂ (fun c v => ConsArg.Feasible n x v c) cs vs

/-- the values of the general constraints, one after the other -/
def genVals : List (ConsArg K) → List (List K) → List K
  | c :: cs, v :: vs => if c.isGeneral then v ++ genVals cs vs else genVals cs vs
  | _, _ => []

/-- the number of a coefficient -/
def Ext.num : Ext K → K
  | fin a => a
  | _ => 0

/-- the feasible set of a problem, whose general constraints have the values `gv` at the point `x` -/
def ProbFeasible (p : Prob (Ext K)) (x : Nat → K) (gv : List K) : Prop :=
  (∀ i < p.numVars, InB (bval (.fin 0) p.varLb i) (x i) (bval (.fin 0) p.varUb i)) ∧
  (∀ i < p.numGen, InB (bval (.fin 0) p.consLb i) (gv.getD i 0) (bval (.fin 0) p.consUb i)) ∧
  ∀ r < p.numLin, InB (bval (.fin 0) p.consLb (p.numGen + r)) (∑ j ∈ range p.numVars, ((p.coeffs.at? r j).getD (.fin 0)).num * x j)
    (bval (.fin 0) p.consUb (p.numGen + r))

/-- consistent bounds, finite ones below the number used for infinity -/
structure GoodB (inf : K) (l u : Ext K) : Prop where
  lo : l ≠ .nan ∧ l ≠ .pinf ∧ ∀ a, l = .fin a → |a| ≤ inf
  up : u ≠ .nan ∧ u ≠ .ninf ∧ ∀ a, u = .fin a → |a| ≤ inf
  le : l.le u = true

/-- arrays of consistent bounds with `n` elements -/
def GoodBs (inf : K) (n : Nat) (l u : List (Ext K)) : Prop :=
  l.length = n ∧ u.length = n ∧ ∀ i < n, GoodB inf (l.getD i (.fin 0)) (u.getD i (.fin 0))

/-- the bounds `minimize` copes with: arrays with one element per variable, or at most as many pairs -/
def BoundsArg.Supported (inf : K) (n : Nat) : BoundsArg K → Prop
  | missing => True
  | object lb ub => GoodBs inf n lb ub
  | pairs l => l.length ≤ n ∧ ∀ i < l.length, GoodB inf ((l[i]?.bind fun p => p.1).getD .ninf) ((l[i]?.bind fun p => p.2).getD .pinf)

/-- the constraints `minimize` copes with: bounds are arrays with one element per value, functions of dictionaries have one value,
no quasi-Newton strategies -/
def ConsArg.Supported (inf : K) (n : Nat) : ConsArg K → Prop
  | object (.array lb) (.array ub) .known => GoodBs inf lb.length lb ub
  | object _ _ _ => False
  | ineq => True
  | eq => True
  | linear rows cols _ lb ub => cols = n ∧ GoodBs inf rows lb ub

/-- the values of a constraint are as many as its dimension, and not infinite -/
def ConsArg.Values (inf : K) (n : Nat) (x : Nat → K) (v : List K) : ConsArg K → Prop
  | linear rows _ a _ _ => ∀ y ∈ rowVals n x rows a, |y| ≤ inf
  | c => v.length = c.dim ∧ ∀ y ∈ v, |y| ≤ inf

end
end Sleqp
