import Verif.Lemmas.RestoreMain
import Verif.Props.Presolve

/-!
C38: multipliers restored after preprocessing.

The multipliers of the preprocessed problem are given as sparse vectors, with the working set they belong to; the original
iterate comes with point, gradient and Jacobian (whose last rows are the coefficients of the linear constraints).
-/

namespace Sleqp

open Finset

section
variable {K : Type*} [Field K] [LinearOrder K] [IsStrictOrderedRing K]

/-- C38 for exact preprocessing.  If multipliers of the preprocessed problem satisfy its stationarity and complementarity
conditions at a feasible point and their working set admits their signs, then the restoration succeeds and yields
multipliers with which the original problem satisfies stationarity and complementarity at that point, and a working set
that admits their signs.  Missing: rows improving the same bound of a variable, see `C38_converted_violated`; forcing
constraints with common variables, see `C38_forcing_violated`; the case that the uninitialised index `junk` happens to
be the position of a variable in a forcing constraint, see `C38_index_violated`; positive tolerances. -/
theorem C38_partial {p : Prob K} (hp : p.WF) {inf : K} (hinf : 0 < inf) (hfc : p.FiniteCoeffs inf)
    {row : Nat → Nat} {val : Nat → K} {s : Presolve K} {q : Prob K} (h : preprocess inf 0 0 p row val = .ok (s, q))
    (hconv : s.SingleConv) (hforce : s.DisjointForcing)
    {junk : Nat} (hjunk : ∀ f ∈ s.forcing, f.coeffs.length ≤ junk) {eps : K} (heps : 0 ≤ eps)
    {it : Iterate K} (hit : DerivFits p.numVars (p.numGen + p.numLin) it)
    (hlin : ∀ i < p.numLin, ∀ j < p.numVars, it.consJac.value (p.numGen + i) j = p.coeffs.value i j)
    (hx : p.LinFeasible it.primal.value) (hf : p.FiniteAt inf it.primal.value)
    {w : WSet} {vd cd : Vec K} (hv : VOk q.numVars vd) (hcd : VOk (q.numGen + q.numLin) cd)
    (hw1 : ∀ k < q.numVars, (w.varState k).Admits (vd.value k))
    (hw2 : ∀ i < q.numGen + q.numLin, (w.consState i).Admits (cd.value i))
    (hk : q.Kkt (fun k => it.primal.value (oldIdx ((s.fixedList p.numVars).map Prod.fst) k)) it.consVal.value
      (fun k => it.objGrad.value (oldIdx ((s.fixedList p.numVars).map Prod.fst) k))
      (fun i k => it.consJac.value i (oldIdx ((s.fixedList p.numVars).map Prod.fst) k)) vd.value cd.value)
    {w0 : WSet} (hw0 : w0.numVars = p.numVars) (hw0' : w0.numCons = p.numGen + p.numLin) :
    ∃ w1 it1, restoreMultipliers eps 0 p s junk w vd cd w0 it = some (w1, it1) ∧
      VOk p.numVars it1.varsDual ∧ VOk (p.numGen + p.numLin) it1.consDual ∧
      p.Kkt it.primal.value it.consVal.value it.objGrad.value it.consJac.value it1.varsDual.value it1.consDual.value ∧
      (∀ j < p.numVars, (w1.varState j).Admits (it1.varsDual.value j)) ∧
      (∀ i < p.numGen + p.numLin, (w1.consState i).Admits (it1.consDual.value i)) := by
  obtain ⟨h1, h2, _, _, q3, q4, q5, q6, q7, _⟩ := preprocess_ok hp hinf hfc ⟨hx, hf⟩ h
  exact restore_main hinf hp h2 (presolve_struct hp h1) q3 q4 q5 q6 q7 hconv hforce hjunk heps hv hcd hit ⟨hx, hf⟩ hlin
    hw1 hw2 hk hw0 hw0'

end

/-! ### Examples -/

instance (v lb ub d : ℚ) : Decidable (Complementary v lb ub d) := by unfold Complementary; infer_instance
instance (st : ActiveState) (d : ℚ) : Decidable (st.Admits d) := by unfold ActiveState.Admits; cases st <;> infer_instance
instance (n m : Nat) (x xl xu cv cl cu g : Nat → ℚ) (J : Nat → Nat → ℚ) (vd cd : Nat → ℚ) :
    Decidable (Multipliers n m x xl xu cv cl cu g J vd cd) :=
  decidable_of_iff ((∀ j < n, g j + vd j + ∑ i ∈ range m, cd i * J i j = 0) ∧
      (∀ j < n, Complementary (x j) (xl j) (xu j) (vd j)) ∧ ∀ i < m, Complementary (cv i) (cl i) (cu i) (cd i))
    ⟨fun ⟨a, b, c⟩ => ⟨a, b, c⟩, fun ⟨a, b, c⟩ => ⟨a, b, c⟩⟩
instance (p : Prob ℚ) (x c g : Nat → ℚ) (J : Nat → Nat → ℚ) (vd cd : Nat → ℚ) : Decidable (p.Kkt x c g J vd cd) := by
  unfold Prob.Kkt; infer_instance
instance (n m : Nat) (it : Iterate ℚ) : Decidable (DerivFits n m it) :=
  decidable_of_iff (it.objGrad.WF ∧ it.objGrad.dim = n ∧ it.consJac.WF ∧ it.consJac.numRows = m ∧ it.consJac.numCols = n)
    ⟨fun ⟨a, b, c, d, e⟩ => ⟨a, b, c, d, e⟩, fun ⟨a, b, c, d, e⟩ => ⟨a, b, c, d, e⟩⟩
instance (s : Presolve ℚ) : Decidable s.DisjointForcing := by unfold Presolve.DisjointForcing; infer_instance
instance : DecidableEq (ConvBound ℚ) := fun a b =>
  decidable_of_iff (a.cons = b.cons ∧ a.var = b.var ∧ a.factor = b.factor ∧ a.lb = b.lb ∧ a.ub = b.ub ∧
    a.lower = b.lower ∧ a.upper = b.upper) (by cases a; cases b; simp)
instance (s : Presolve ℚ) : Decidable s.SingleConv := by unfold Presolve.SingleConv; infer_instance
instance (n : Nat) (v : Vec ℚ) : Decidable (VOk n v) := by unfold VOk; infer_instance

/-- the optional result has a property -/
def someAnd {α : Type*} (e : Option α) (P : α → Prop) [DecidablePred P] : Bool :=
  match e with
  | some a => decide (P a)
  | none => false

/-- an iterate of a problem without general constraints at a given point with a given gradient -/
def exIter (p : Prob ℚ) (x g : List (Nat × ℚ)) : Iterate ℚ :=
  ⟨⟨p.numVars, p.numVars, x⟩, 0, ⟨p.numVars, p.numVars, g⟩, ⟨0, 0, []⟩, p.coeffs, ⟨p.numLin, p.numLin, []⟩,
    ⟨p.numVars, p.numVars, []⟩⟩

/-- a working set given by its states -/
def exWs (n m : Nat) (vs cs : List ActiveState) : WSet :=
  { WSet.create n m (fun _ => 0) with varState := fun k => vs.getD k .inactive, consState := fun k => cs.getD k .inactive }

/-- everything `C38_partial` assumes about point, multipliers and working set -/
def exHyp (p : Prob ℚ) (it : Iterate ℚ) (w : WSet) (vd cd : Vec ℚ) (r : Presolve ℚ × Prob ℚ) : Prop :=
  p.WF ∧ p.FiniteCoeffs 1000 ∧ DerivFits p.numVars (p.numGen + p.numLin) it ∧
  (∀ i < p.numLin, ∀ j < p.numVars, it.consJac.value (p.numGen + i) j = p.coeffs.value i j) ∧
  p.LinFeasible it.primal.value ∧ p.FiniteAt 1000 it.primal.value ∧ VOk r.2.numVars vd ∧ VOk (r.2.numGen + r.2.numLin) cd ∧
  (∀ k < r.2.numVars, (w.varState k).Admits (vd.value k)) ∧
  (∀ i < r.2.numGen + r.2.numLin, (w.consState i).Admits (cd.value i)) ∧
  r.2.Kkt (fun k => it.primal.value (oldIdx ((r.1.fixedList p.numVars).map Prod.fst) k)) it.consVal.value
      (fun k => it.objGrad.value (oldIdx ((r.1.fixedList p.numVars).map Prod.fst) k))
      (fun i k => it.consJac.value i (oldIdx ((r.1.fixedList p.numVars).map Prod.fst) k)) vd.value cd.value

instance (p : Prob ℚ) (it : Iterate ℚ) (w : WSet) (vd cd : Vec ℚ) (r : Presolve ℚ × Prob ℚ) :
    Decidable (exHyp p it w vd cd r) := by unfold exHyp; infer_instance

/-- The hypotheses of `C38_partial` are met by `exPre`, where a variable is fixed by its bounds, a row becomes a bound and a
row forces two variables; all of these receive multipliers. -/
example : ∃ s q, preprocess 1000 0 0 exPre (fun _ => 0) (fun _ => 0) = .ok (s, q) ∧ s.SingleConv ∧ s.DisjointForcing ∧
    (∀ f ∈ s.forcing, f.coeffs.length ≤ 5) ∧
    exHyp exPre (exIter exPre [(0, 1), (1, 1), (2, 1), (3, 2), (4, 3)] [(0, 3), (1, -1), (2, 2), (3, 1), (4, 1)])
      (exWs 2 1 [.lower] [.lower]) ⟨2, 2, [(0, -2)]⟩ ⟨1, 1, [(0, -1)]⟩ (s, q) ∧
    someAnd (restoreMultipliers 0 0 exPre s 5 (exWs 2 1 [.lower] [.lower]) ⟨2, 2, [(0, -2)]⟩ ⟨1, 1, [(0, -1)]⟩
      (WSet.create 5 4 fun _ => 0)
      (exIter exPre [(0, 1), (1, 1), (2, 1), (3, 2), (4, 3)] [(0, 3), (1, -1), (2, 2), (3, 1), (4, 1)]))
      (fun r => r.2.varsDual.ents = [(0, -3), (1, 3)] ∧ r.2.consDual.ents = [(0, -2), (1, -1), (3, -1)]) = true := by
  obtain ⟨⟨s, q⟩, h1, h2⟩ := okAnd_spec (e := preprocess 1000 0 0 exPre (fun _ => 0) (fun _ => 0))
    (P := fun r => r.1.SingleConv ∧ r.1.DisjointForcing ∧ (∀ f ∈ r.1.forcing, f.coeffs.length ≤ 5) ∧
    exHyp exPre (exIter exPre [(0, 1), (1, 1), (2, 1), (3, 2), (4, 3)] [(0, 3), (1, -1), (2, 2), (3, 1), (4, 1)])
      (exWs 2 1 [.lower] [.lower]) ⟨2, 2, [(0, -2)]⟩ ⟨1, 1, [(0, -1)]⟩ r ∧
    someAnd (restoreMultipliers 0 0 exPre r.1 5 (exWs 2 1 [.lower] [.lower]) ⟨2, 2, [(0, -2)]⟩ ⟨1, 1, [(0, -1)]⟩
      (WSet.create 5 4 fun _ => 0)
      (exIter exPre [(0, 1), (1, 1), (2, 1), (3, 2), (4, 3)] [(0, 3), (1, -1), (2, 2), (3, 1), (4, 1)]))
      (fun r => r.2.varsDual.ents = [(0, -3), (1, 3)] ∧ r.2.consDual.ents = [(0, -2), (1, -1), (3, -1)]) = true)
    (by decide +kernel)
  exact ⟨s, q, h1, h2⟩

/-- `x ∈ [0, 10]` and the rows `x ≥ 2`, `x ≥ 3` -/
def exTwice : Prob ℚ := exLin 1 2 [] [(0, 10)] [(0, 2), (1, 3)] [(0, 1000), (1, 1000)]
  ⟨2, 1, 2, 2, fun k => if k = 0 then 0 else 2, fun k => k, fun _ => 1⟩

/-- C38 violated by the code: minimising `x ∈ [0, 10]` with the constraints `x ≥ 2` and `x ≥ 3`, the solution of the
preprocessed problem is `x = 3` with multiplier -1 of the lower bound.  The restoration gives the multiplier to the first
of the two constraints, which is not active, and leaves the second one without. -/
theorem C38_converted_violated : ∃ s q, preprocess 1000 0 0 exTwice (fun _ => 0) (fun _ => 0) = .ok (s, q) ∧
    exHyp exTwice (exIter exTwice [(0, 3)] [(0, 1)]) (exWs 1 0 [.lower] []) ⟨1, 1, [(0, -1)]⟩ ⟨0, 0, []⟩ (s, q) ∧
    someAnd (restoreMultipliers 0 0 exTwice s 5 (exWs 1 0 [.lower] []) ⟨1, 1, [(0, -1)]⟩ ⟨0, 0, []⟩
      (WSet.create 1 2 fun _ => 0) (exIter exTwice [(0, 3)] [(0, 1)]))
      (fun r => r.2.varsDual.ents = [] ∧ r.2.consDual.ents = [(0, -1)] ∧ exTwice.linLb.value 0 = 2 ∧
        ¬ exTwice.Kkt (Vec.mk 1 1 [(0, 3)]).value (fun _ => 0) (Vec.mk 1 1 [(0, 1)]).value exTwice.coeffs.value
          r.2.varsDual.value r.2.consDual.value) = true := by
  obtain ⟨⟨s, q⟩, h1, h2⟩ := okAnd_spec (e := preprocess 1000 0 0 exTwice (fun _ => 0) (fun _ => 0))
    (P := fun r => exHyp exTwice (exIter exTwice [(0, 3)] [(0, 1)]) (exWs 1 0 [.lower] []) ⟨1, 1, [(0, -1)]⟩ ⟨0, 0, []⟩ r ∧
    someAnd (restoreMultipliers 0 0 exTwice r.1 5 (exWs 1 0 [.lower] []) ⟨1, 1, [(0, -1)]⟩ ⟨0, 0, []⟩
      (WSet.create 1 2 fun _ => 0) (exIter exTwice [(0, 3)] [(0, 1)]))
      (fun r => r.2.varsDual.ents = [] ∧ r.2.consDual.ents = [(0, -1)] ∧ exTwice.linLb.value 0 = 2 ∧
        ¬ exTwice.Kkt (Vec.mk 1 1 [(0, 3)]).value (fun _ => 0) (Vec.mk 1 1 [(0, 1)]).value exTwice.coeffs.value
          r.2.varsDual.value r.2.consDual.value) = true)
    (by decide +kernel)
  exact ⟨s, q, h1, h2⟩

/-- `x, y ∈ [0, 1]` and the rows `x + y ≤ 0`, `x + 2 y ≤ 0` -/
def exOver : Prob ℚ := exLin 2 2 [] [(0, 1), (1, 1)] [(0, -1000), (1, -1000)] []
  ⟨2, 2, 4, 4, fun k => [0, 2, 4].getD k 4, fun k => [0, 1, 0, 1].getD k 0, fun k => [1, 1, 1, 2].getD k 0⟩

/-- C38 violated by the code: for `x, y ∈ [0, 1]` with the forcing constraints `x + y ≤ 0` and `x + 2 y ≤ 0` and an objective
with gradient `(1, -1)` at the only feasible point, the multipliers computed for the first constraint are partly
overwritten when the second one is handled: the multiplier of `x` is lost, and the gradient of the Lagrangian with respect
to `x` is 2. -/
theorem C38_forcing_violated : ∃ s q, preprocess 1000 0 0 exOver (fun _ => 0) (fun _ => 0) = .ok (s, q) ∧
    exHyp exOver (exIter exOver [] [(0, 1), (1, -1)]) (exWs 0 0 [] []) ⟨0, 0, []⟩ ⟨0, 0, []⟩ (s, q) ∧
    someAnd (restoreMultipliers 0 0 exOver s 5 (exWs 0 0 [] []) ⟨0, 0, []⟩ ⟨0, 0, []⟩
      (WSet.create 2 2 fun _ => 0) (exIter exOver [] [(0, 1), (1, -1)]))
      (fun r => r.2.varsDual.ents = [] ∧ r.2.consDual.ents = [(0, 1)] ∧
        (1 : ℚ) + r.2.varsDual.value 0 + ∑ i ∈ range 2, r.2.consDual.value i * exOver.coeffs.value i 0 = 2) = true := by
  obtain ⟨⟨s, q⟩, h1, h2⟩ := okAnd_spec (e := preprocess 1000 0 0 exOver (fun _ => 0) (fun _ => 0))
    (P := fun r => exHyp exOver (exIter exOver [] [(0, 1), (1, -1)]) (exWs 0 0 [] []) ⟨0, 0, []⟩ ⟨0, 0, []⟩ r ∧
    someAnd (restoreMultipliers 0 0 exOver r.1 5 (exWs 0 0 [] []) ⟨0, 0, []⟩ ⟨0, 0, []⟩
      (WSet.create 2 2 fun _ => 0) (exIter exOver [] [(0, 1), (1, -1)]))
      (fun r => r.2.varsDual.ents = [] ∧ r.2.consDual.ents = [(0, 1)] ∧
        (1 : ℚ) + r.2.varsDual.value 0 + ∑ i ∈ range 2, r.2.consDual.value i * exOver.coeffs.value i 0 = 2) = true)
    (by decide +kernel)
  exact ⟨s, q, h1, h2⟩

/-- `x, y ∈ [0, 1]` and the row `x + y ≤ 0` -/
def exJunk : Prob ℚ := exLin 2 1 [] [(0, 1), (1, 1)] [(0, -1000)] []
  ⟨1, 2, 2, 2, fun k => k, fun _ => 0, fun _ => 1⟩

/-- C38 violated by the code: for `x, y ∈ [0, 1]` with the forcing constraint `x + y ≤ 0` and an objective with gradient
`(1, 0)`, the index of the variable that determines the multiplier of the constraint is read without having been
assigned.  If it happens to be 0, the multiplier of `x` is left at zero, and the gradient of the Lagrangian is not
zero; if it happens to be 5, the restored multipliers are right. -/
theorem C38_index_violated : ∃ s q, preprocess 1000 0 0 exJunk (fun _ => 0) (fun _ => 0) = .ok (s, q) ∧
    s.SingleConv ∧ s.DisjointForcing ∧
    exHyp exJunk (exIter exJunk [] [(0, 1)]) (exWs 0 0 [] []) ⟨0, 0, []⟩ ⟨0, 0, []⟩ (s, q) ∧
    someAnd (restoreMultipliers 0 0 exJunk s 0 (exWs 0 0 [] []) ⟨0, 0, []⟩ ⟨0, 0, []⟩
      (WSet.create 2 1 fun _ => 0) (exIter exJunk [] [(0, 1)]))
      (fun r => r.2.varsDual.ents = [] ∧ r.2.consDual.ents = []) = true ∧
    someAnd (restoreMultipliers 0 0 exJunk s 5 (exWs 0 0 [] []) ⟨0, 0, []⟩ ⟨0, 0, []⟩
      (WSet.create 2 1 fun _ => 0) (exIter exJunk [] [(0, 1)]))
      (fun r => r.2.varsDual.ents = [(0, -1)] ∧ r.2.consDual.ents = []) = true := by
  obtain ⟨⟨s, q⟩, h1, h2⟩ := okAnd_spec (e := preprocess 1000 0 0 exJunk (fun _ => 0) (fun _ => 0))
    (P := fun r => r.1.SingleConv ∧ r.1.DisjointForcing ∧
    exHyp exJunk (exIter exJunk [] [(0, 1)]) (exWs 0 0 [] []) ⟨0, 0, []⟩ ⟨0, 0, []⟩ r ∧
    someAnd (restoreMultipliers 0 0 exJunk r.1 0 (exWs 0 0 [] []) ⟨0, 0, []⟩ ⟨0, 0, []⟩
      (WSet.create 2 1 fun _ => 0) (exIter exJunk [] [(0, 1)]))
      (fun r => r.2.varsDual.ents = [] ∧ r.2.consDual.ents = []) = true ∧
    someAnd (restoreMultipliers 0 0 exJunk r.1 5 (exWs 0 0 [] []) ⟨0, 0, []⟩ ⟨0, 0, []⟩
      (WSet.create 2 1 fun _ => 0) (exIter exJunk [] [(0, 1)]))
      (fun r => r.2.varsDual.ents = [(0, -1)] ∧ r.2.consDual.ents = []) = true)
    (by decide +kernel)
  exact ⟨s, q, h1, h2⟩

end Sleqp
