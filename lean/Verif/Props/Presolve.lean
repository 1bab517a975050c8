import Verif.Lemmas.Transform
import Mathlib.Tactic.IntervalCases
import Mathlib.Tactic.NormNum

/-!
C36, C37 and C65: preprocessing of variable bounds and linear constraints.

Points are restricted to those of finite size (`Prob.FiniteAt`): a value of at least half the number representing
infinity is not a number for the program.
-/

namespace Sleqp

open Finset

/-! ### C37 -/

section
variable {K : Type*} [Field K] [LinearOrder K] [IsStrictOrderedRing K]

/-- C37: for every tolerance, if the analysis reports infeasibility, no point of finite size satisfies the variable
bounds and linear constraints. -/
theorem C37_infeasible {p : Prob K} (hp : p.WF) {inf feasEps : K} (hinf : 0 < inf) (heps : 0 ≤ feasEps)
    {s : Presolve K} (h : presolve inf feasEps p = some s) (hr : s.result = .infeasible) (x : Nat → K)
    (hx : p.FiniteAt inf x) : ¬ p.LinFeasible x := by
  intro hl
  have hf := presolve_feasible hp hinf heps ⟨hl, hx⟩ h
  unfold Presolve.result at hr
  rw [hf] at hr
  simp only [Bool.false_eq_true, if_false] at hr
  split at hr <;> cases hr

/-! ### C36 -/

/-- C36 for problems with a feasible point and exact tolerances.  If preprocessing succeeds, then a point (of finite size)
satisfies all bounds and linear constraints of the original problem iff it has the recorded values at the fixed
variables and its other coordinates satisfy those of the new problem; the bounds of the general constraints are kept.
Missing: positive tolerances, under which a constraint that is almost forcing fixes its variables, see
`C36_tolerance_violated`; problems without feasible point, see `C36_violated`. -/
theorem C36_partial {p : Prob K} (hp : p.WF) {inf : K} (hinf : 0 < inf) (hfc : p.FiniteCoeffs inf) {x0 : Nat → K}
    (hl0 : p.LinFeasible x0) (hf0 : p.FiniteAt inf x0) {row : Nat → Nat} {val : Nat → K} {s : Presolve K} {q : Prob K}
    (h : preprocess inf 0 0 p row val = .ok (s, q)) :
    s.result ≠ .infeasible ∧ q.WF ∧ q.numVars + (s.fixedList p.numVars).length = p.numVars ∧
    q.numLin ≤ p.numLin ∧
    q.numGen = p.numGen ∧ (∀ i, q.genLb.value i = p.genLb.value i ∧ q.genUb.value i = p.genUb.value i) ∧
    ∀ y, p.FiniteAt inf y →
      (p.LinFeasible y ↔ (∀ e ∈ s.fixedList p.numVars, y e.1 = e.2) ∧
        q.LinFeasible fun k => y (oldIdx ((s.fixedList p.numVars).map Prod.fst) k)) := by
  obtain ⟨_, h2, _, q2, q3, q4, q5, q6, _, q7⟩ := preprocess_ok hp hinf hfc ⟨hl0, hf0⟩ h
  refine ⟨?_, q2, q3, by omega, q5, q6, q7⟩
  unfold Presolve.result
  rw [h2.feas]
  simp only [Bool.false_eq_true, if_false]
  split <;> simp

/-! ### C65 -/

/-- C65 for problems with a feasible point (of finite size) and finite coefficients, exact tolerances: neither the analysis
nor the creation of the new problem fails, if at least as many variables as rows have a removed bound or no
variable has one.  Missing: the other problems, see `C65_room_violated`, `C65_fixed_violated`, `C65_bounds_violated`. -/
theorem C65_partial {p : Prob K} (hp : p.WF) {inf : K} (hinf : 0 < inf) (hfc : p.FiniteCoeffs inf) {x0 : Nat → K}
    (hl0 : p.LinFeasible x0) (hf0 : p.FiniteAt inf x0) (row : Nat → Nat) (val : Nat → K) :
    ∃ s, presolve inf 0 p = some s ∧
      (s.numVarBounds = 0 ∨ s.numConsBounds ≤ s.numVarBounds →
        ∃ q, preprocess inf 0 0 p row val = .ok (s, q)) := by
  obtain ⟨s, h1, h2, h3⟩ := presolve_inv hinf hp hfc ⟨hl0, hf0⟩
  refine ⟨s, h1, fun hroom => ?_⟩
  obtain ⟨f1, f2, _⟩ := fixedList_spec s p.numVars
  obtain ⟨g1, g2, _⟩ := removedList_spec s p.numLin
  have hfxlt : ∀ e ∈ s.fixedList p.numVars, e.1 < p.coeffs.numCols := by
    rintro ⟨j, v⟩ he; rw [hp.cols]; exact ((f2 j v).mp he).1
  have hglt : ∀ i ∈ s.removedList p.numLin, i < p.coeffs.numRows := fun i hi => by
    rw [hp.rows]; exact ((g2 i).mp hi).1
  have hgle : (s.removedList p.numLin).length ≤ p.coeffs.numRows :=
    sorted_length_le g1 (a := 0) (by simp) (by simpa using hglt)
  obtain ⟨mt, hmt⟩ : ∃ mt, p.coeffs.numRows = mt + (s.removedList p.numLin).length :=
    ⟨p.coeffs.numRows - (s.removedList p.numLin).length, by omega⟩
  have hcnt : ∀ st : BoundReq, st = .redLower ∨ st = .redUpper → s.numVarBounds > 0 →
      cntP p.coeffs.numRows (fun i => decide (s.consReq i = st)) ≤ s.numVarBounds := by
    intro st hst hv
    have : cntP p.coeffs.numRows (fun i => decide (s.consReq i = st)) ≤ s.numConsBounds := by
      rw [h3.numCons, hp.rows]
      refine cntP_le fun i _ hi => ?_
      simp only [decide_eq_true_eq] at hi
      have hu : s.consSt i = .unchanged := by
        by_contra hne
        rcases h3.both i hne with a | a <;> rw [a] at hi <;> rcases hst with b | b <;> rw [b] at hi <;> cases hi
      rw [hu, hi]
      rcases hst with b | b <;> rw [b] <;> decide
    omega
  obtain ⟨ll, l1, _⟩ := transLinBound_spec s hp.coeffs f1 hfxlt g1 hglt hmt
    (by rw [hp.rows]; exact hp.linLb : VOk p.coeffs.numRows p.linLb) .redLower (-inf) (hcnt _ (Or.inl rfl))
  obtain ⟨lu, l2, _⟩ := transLinBound_spec s hp.coeffs f1 hfxlt g1 hglt hmt
    (by rw [hp.rows]; exact hp.linUb : VOk p.coeffs.numRows p.linUb) .redUpper inf (hcnt _ (Or.inr rfl))
  obtain ⟨q, q1, _⟩ := transform_main hinf hp ⟨hl0, hf0⟩ h2 h3 row val l1 l2
  refine ⟨q, ?_⟩
  unfold preprocess
  rw [h1]
  show (transformProb inf 0 p s row val).map (fun q => (s, q)) = _
  rw [q1]; rfl

end

/-! ### Examples -/

/-- five variables: `x0 = 1` by its bounds, `x1, x2 ∈ [0, 1]`, `x3, x4 ∈ [0, 10]`; rows `x1 + x2 ≥ 2` (forcing), `2 x3 ≥ 4`
(a bound), `x3 + x4 ≤ 100` (redundant), `x4 - x3 ≥ 1` (makes bounds of `x3` and `x4` redundant) -/
def exPre : Prob ℚ where
  numVars := 5
  numGen := 0
  numLin := 4
  varLb := ⟨5, 5, [(0, 1)]⟩
  varUb := ⟨5, 5, [(0, 1), (1, 1), (2, 1), (3, 10), (4, 10)]⟩
  genLb := ⟨0, 0, []⟩
  genUb := ⟨0, 0, []⟩
  linLb := ⟨4, 4, [(0, 2), (1, 4), (2, -1000), (3, 1)]⟩
  linUb := ⟨4, 4, [(0, 1000), (1, 1000), (2, 100), (3, 1000)]⟩
  consLb := ⟨4, 4, [(0, 2), (1, 4), (2, -1000), (3, 1)]⟩
  consUb := ⟨4, 4, [(0, 1000), (1, 1000), (2, 100), (3, 1000)]⟩
  coeffs := ⟨4, 5, 7, 7, fun k => [0, 0, 1, 2, 5].getD k 7, fun k => [0, 0, 1, 2, 3, 2, 3].getD k 0,
    fun k => [1, 1, 2, 1, -1, 1, 1].getD k 0⟩

instance {V : Type*} (l : List (Nat × V)) : Decidable (Srt l) := by unfold Srt; infer_instance
instance {V : Type*} (v : Vec V) : Decidable v.WF :=
  decidable_of_iff (Srt v.ents ∧ (∀ e ∈ v.ents, e.1 < v.dim) ∧ v.ents.length ≤ v.cap)
    ⟨fun h => ⟨h.1, h.2.1, h.2.2⟩, fun h => ⟨h.1, h.2, h.3⟩⟩
instance {V : Type*} (m : Mat V) : Decidable m.WF :=
  decidable_of_iff (m.ptr 0 = 0 ∧ (∀ j < m.numCols, m.ptr j ≤ m.ptr (j + 1)) ∧ m.ptr m.numCols = m.nnz ∧ m.nnz ≤ m.cap ∧
      (∀ j < m.numCols, Srt (m.col j)) ∧ ∀ j < m.numCols, ∀ e ∈ m.col j, e.1 < m.numRows)
    ⟨fun h => ⟨h.1, h.2.1, h.2.2.1, h.2.2.2.1, h.2.2.2.2.1, h.2.2.2.2.2⟩, fun h => ⟨h.1, h.2, h.3, h.4, h.5, h.6⟩⟩
instance (p : Prob ℚ) : Decidable p.WF :=
  decidable_of_iff ((p.varLb.WF ∧ p.varLb.dim = p.numVars) ∧ (p.varUb.WF ∧ p.varUb.dim = p.numVars) ∧
      (p.genLb.WF ∧ p.genLb.dim = p.numGen) ∧ (p.genUb.WF ∧ p.genUb.dim = p.numGen) ∧
      (p.linLb.WF ∧ p.linLb.dim = p.numLin) ∧ (p.linUb.WF ∧ p.linUb.dim = p.numLin) ∧ p.coeffs.WF ∧
      p.coeffs.numRows = p.numLin ∧ p.coeffs.numCols = p.numVars ∧ ∀ i < p.numGen, p.genLb.value i ≤ p.genUb.value i)
    ⟨fun ⟨a, b, c, d, e, f, g, h, i, j⟩ => ⟨a, b, c, d, e, f, g, h, i, j⟩,
      fun ⟨a, b, c, d, e, f, g, h, i, j⟩ => ⟨a, b, c, d, e, f, g, h, i, j⟩⟩
instance (p : Prob ℚ) (x : Nat → ℚ) : Decidable (p.LinFeasible x) := by
  unfold Prob.LinFeasible Prob.VarOk Prob.RowOk; infer_instance
instance (inf : ℚ) (p : Prob ℚ) (x : Nat → ℚ) : Decidable (p.FiniteAt inf x) :=
  decidable_of_iff ((∀ j < p.numVars, |x j| < inf / 2) ∧
      ∀ i < p.numLin, ∑ j ∈ range p.numVars, |p.coeffs.value i j * x j| < inf / 2)
    ⟨fun h => ⟨h.1, h.2⟩, fun h => ⟨h.1, h.2⟩⟩

instance (inf : ℚ) (p : Prob ℚ) : Decidable (p.FiniteCoeffs inf) := by unfold Prob.FiniteCoeffs; infer_instance

/-- the result of a call that may fail has a property -/
def okAnd {ε α : Type*} (e : Except ε α) (P : α → Prop) [DecidablePred P] : Bool :=
  match e with
  | .ok a => decide (P a)
  | .error _ => false

theorem okAnd_spec {ε α : Type*} {e : Except ε α} {P : α → Prop} [DecidablePred P] (h : okAnd e P = true) :
    ∃ a, e = .ok a ∧ P a := by
  unfold okAnd at h
  split at h
  · exact ⟨_, rfl, by simpa using h⟩
  · cases h

example : ∃ s q, preprocess 1000 0 0 exPre (fun _ => 0) (fun _ => 0) = .ok (s, q) ∧ s.result = .success ∧
    s.fixedList 5 = [(0, 1), (1, 1), (2, 1)] ∧ q.numVars = 2 ∧ q.numLin = 1 := by
  have hl : exPre.LinFeasible fun j => [1, 1, 1, 2, 3].getD j 0 := by decide +kernel
  have hf : exPre.FiniteAt 1000 fun j => [1, 1, 1, 2, 3].getD j 0 := by decide +kernel
  have hw : exPre.WF := by decide +kernel
  have hc : exPre.FiniteCoeffs 1000 := by decide +kernel
  obtain ⟨s, h1, h2⟩ := C65_partial hw (by norm_num) hc hl hf (fun _ => 0) (fun _ => 0)
  have hs : (presolve 1000 0 exPre).map (fun s => (s.numVarBounds, s.numConsBounds, s.result, s.fixedList 5)) =
      some (2, 0, .success, [(0, 1), (1, 1), (2, 1)]) := by decide +kernel
  rw [h1] at hs
  simp only [Option.map_some, Option.some.injEq, Prod.mk.injEq] at hs
  obtain ⟨q, hq⟩ := h2 (Or.inr (by omega))
  have hall := okAnd_spec (e := preprocess 1000 0 0 exPre (fun _ => 0) (fun _ => 0))
    (P := fun r => r.2.numVars = 2 ∧ r.2.numLin = 1) (by decide +kernel)
  obtain ⟨⟨s', q'⟩, e1, e2⟩ := hall
  rw [hq] at e1
  cases e1
  exact ⟨s, q, hq, hs.2.2.1, hs.2.2.2, e2⟩

/-- two variables in `[0, 10]` with `x - 2 y ≥ 1` and `y - 2 x ≥ 1` -/
def exBoth : Prob ℚ where
  numVars := 2
  numGen := 0
  numLin := 2
  varLb := ⟨2, 2, []⟩
  varUb := ⟨2, 2, [(0, 10), (1, 10)]⟩
  genLb := ⟨0, 0, []⟩
  genUb := ⟨0, 0, []⟩
  linLb := ⟨2, 2, [(0, 1), (1, 1)]⟩
  linUb := ⟨2, 2, [(0, 1000), (1, 1000)]⟩
  consLb := ⟨2, 2, [(0, 1), (1, 1)]⟩
  consUb := ⟨2, 2, [(0, 1000), (1, 1000)]⟩
  coeffs := ⟨2, 2, 4, 4, fun k => [0, 2, 4].getD k 4, fun k => [0, 1, 0, 1].getD k 0, fun k => [1, -2, -2, 1].getD k 0⟩

/-- C36 violated by the code: for variables `x, y ∈ [0, 10]` and the constraints `x - 2 y ≥ 1`, `y - 2 x ≥ 1`, which no point
satisfies, preprocessing succeeds.  Each constraint makes the lower bound of one variable redundant, both are
removed, and the new problem has the solution `(-1, -1)`. -/
theorem C36_violated : exBoth.WF ∧ (∀ x, ¬ exBoth.LinFeasible x) ∧
    ∃ s q, preprocess 1000 0 0 exBoth (fun _ => 0) (fun _ => 0) = .ok (s, q) ∧ s.result = .success ∧
      s.fixedList 2 = [] ∧ q.LinFeasible fun _ => -1 := by
  refine ⟨by decide +kernel, ?_, ?_⟩
  · intro x hx
    have h0 := (hx.1 0 (by decide)).1
    have h1 := (hx.1 1 (by decide)).1
    have r0 := (hx.2 0 (by decide)).1
    have r1 := (hx.2 1 (by decide)).1
    unfold Prob.activity at r0 r1
    have e : exBoth.numVars = 2 := rfl
    rw [e, Finset.sum_range_succ, Finset.sum_range_succ, Finset.sum_range_zero] at r0 r1
    have c00 : exBoth.coeffs.value 0 0 = 1 := by decide +kernel
    have c01 : exBoth.coeffs.value 0 1 = -2 := by decide +kernel
    have c10 : exBoth.coeffs.value 1 0 = -2 := by decide +kernel
    have c11 : exBoth.coeffs.value 1 1 = 1 := by decide +kernel
    have l0 : exBoth.linLb.value 0 = 1 := by decide +kernel
    have l1 : exBoth.linLb.value 1 = 1 := by decide +kernel
    have v0 : exBoth.varLb.value 0 = 0 := by decide +kernel
    have v1 : exBoth.varLb.value 1 = 0 := by decide +kernel
    rw [c00, c01, l0] at r0
    rw [c10, c11, l1] at r1
    rw [v0] at h0
    rw [v1] at h1
    linarith
  · obtain ⟨⟨s, q⟩, h1, h2⟩ := okAnd_spec (e := preprocess 1000 0 0 exBoth (fun _ => 0) (fun _ => 0))
      (P := fun r => r.1.result = .success ∧ r.1.fixedList 2 = [] ∧ r.2.LinFeasible fun _ => -1) (by decide +kernel)
    exact ⟨s, q, h1, h2⟩

/-- a problem without general constraints, bounds given by dense lists -/
def exLin (n m : Nat) (vl vu ll lu : List (Nat × ℚ)) (coeffs : Mat ℚ) : Prob ℚ :=
  ⟨n, 0, m, ⟨n, n, vl⟩, ⟨n, n, vu⟩, ⟨0, 0, []⟩, ⟨0, 0, []⟩, ⟨m, m, ll⟩, ⟨m, m, lu⟩, ⟨m, m, ll⟩, ⟨m, m, lu⟩, coeffs⟩

/-- `x, y ∈ [0, 1]`, `x + y ≥ 3` -/
def exInf : Prob ℚ := exLin 2 1 [] [(0, 1), (1, 1)] [(0, 3)] [(0, 1000)]
  ⟨1, 2, 2, 2, fun k => k, fun _ => 0, fun _ => 1⟩

/-- the hypotheses of `C37_infeasible` are met by `exInf`, which the analysis reports as infeasible -/
example : exInf.WF ∧ (presolve 1000 (1/10) exInf).any (fun s => decide (s.result = .infeasible)) = true ∧
    (exInf.FiniteAt 1000 fun _ => 1) := by
  refine ⟨by decide +kernel, by decide +kernel, by decide +kernel⟩

/-- `x, y ∈ [0, 1]`, `x + y ≥ 2`, `x + y ≤ 0` -/
def exForce : Prob ℚ := exLin 2 2 [] [(0, 1), (1, 1)] [(0, 2), (1, -1000)] [(0, 1000)]
  ⟨2, 2, 4, 4, fun k => [0, 2, 4].getD k 4, fun k => [0, 1, 0, 1].getD k 0, fun _ => 1⟩

/-- C36 violated by the code: for `x, y ∈ [0, 1]` with `x + y ≥ 2` and `x + y ≤ 0`, which no point satisfies, preprocessing
succeeds.  The first constraint forces both variables to 1, the second one to 0; the values are overwritten and both
constraints are removed. -/
theorem C36_forcing_violated : exForce.WF ∧ (∀ x, ¬ exForce.LinFeasible x) ∧
    ∃ s q, preprocess 1000 0 0 exForce (fun _ => 0) (fun _ => 0) = .ok (s, q) ∧ s.result = .success ∧
      s.fixedList 2 = [(0, 0), (1, 0)] ∧ q.numVars = 0 ∧ q.numLin = 0 := by
  refine ⟨by decide +kernel, ?_, ?_⟩
  · intro x hx
    have r0 := (hx.2 0 (by decide)).1
    have r1 := (hx.2 1 (by decide)).2
    unfold Prob.activity at r0 r1
    have e : exForce.numVars = 2 := rfl
    rw [e, Finset.sum_range_succ, Finset.sum_range_succ, Finset.sum_range_zero] at r0 r1
    have c00 : exForce.coeffs.value 0 0 = 1 := by decide +kernel
    have c01 : exForce.coeffs.value 0 1 = 1 := by decide +kernel
    have c10 : exForce.coeffs.value 1 0 = 1 := by decide +kernel
    have c11 : exForce.coeffs.value 1 1 = 1 := by decide +kernel
    have l0 : exForce.linLb.value 0 = 2 := by decide +kernel
    have l1 : exForce.linUb.value 1 = 0 := by decide +kernel
    rw [c00, c01, l0] at r0
    rw [c10, c11, l1] at r1
    linarith
  · obtain ⟨⟨s, q⟩, h1, h2⟩ := okAnd_spec (e := preprocess 1000 0 0 exForce (fun _ => 0) (fun _ => 0))
      (P := fun r => r.1.result = .success ∧ r.1.fixedList 2 = [(0, 0), (1, 0)] ∧ r.2.numVars = 0 ∧ r.2.numLin = 0)
      (by decide +kernel)
    exact ⟨s, q, h1, h2⟩

/-- `x, y ∈ [0, 1]` with `x + y ≥ 2 - 1 / 2000000` -/
def exAlmost : Prob ℚ := exLin 2 1 [] [(0, 1), (1, 1)] [(0, 2 - 1 / 2000000)] [(0, 1000)]
  ⟨1, 2, 2, 2, fun k => [0, 1, 2].getD k 2, fun _ => 0, fun _ => 1⟩

/-- C36 violated by the code with positive tolerances: for `x, y ∈ [0, 1]` with `x + y ≥ 2 - 1 / 2000000` and a feasibility tolerance of `1 / 1000000`, both
variables are fixed at 1, although `(1, 1 - 1 / 2000000)` is feasible as well (and may be the only minimum). -/
theorem C36_tolerance_violated : exAlmost.WF ∧ exAlmost.LinFeasible (fun i => if i = 0 then 1 else 1 - 1 / 2000000) ∧
    ∃ s q, preprocess 1000 (1 / 1000000) 0 exAlmost (fun _ => 0) (fun _ => 0) = .ok (s, q) ∧ s.result = .success ∧
      s.fixedList 2 = [(0, 1), (1, 1)] := by
  refine ⟨by decide +kernel, ⟨?_, ?_⟩, ?_⟩
  · intro j hj
    have : j = 0 ∨ j = 1 := by change j < 2 at hj; omega
    rcases this with rfl | rfl <;> (unfold Prob.VarOk; decide +kernel)
  · intro i hi
    have : i = 0 := by change i < 1 at hi; omega
    subst this
    unfold Prob.RowOk Prob.activity
    have e : exAlmost.numVars = 2 := rfl
    rw [e, Finset.sum_range_succ, Finset.sum_range_succ, Finset.sum_range_zero]
    decide +kernel
  · obtain ⟨⟨s, q⟩, h1, h2⟩ := okAnd_spec (e := preprocess 1000 (1 / 1000000) 0 exAlmost (fun _ => 0) (fun _ => 0))
      (P := fun r => r.1.result = .success ∧ r.1.fixedList 2 = [(0, 1), (1, 1)])
      (by decide +kernel)
    exact ⟨s, q, h1, h2⟩

/-- `x, y ∈ [1, 2]`, `z ∈ [0, 10]`; `0 ≤ x + y ≤ 3`, `0 ≤ x + 2 y ≤ 5`, `z - x ≥ 1` -/
def exRoom : Prob ℚ := exLin 3 3 [(0, 1), (1, 1)] [(0, 2), (1, 2), (2, 10)] [(2, 1)] [(0, 3), (1, 5), (2, 1000)]
  ⟨3, 3, 6, 6, fun k => [0, 3, 5, 6].getD k 6, fun k => [0, 1, 2, 0, 1, 2].getD k 0, fun k => [1, 1, -1, 1, 2, 1].getD k 0⟩

/-- C65 violated by the code: for `x, y ∈ [1, 2]`, `z ∈ [0, 10]` with `0 ≤ x + y ≤ 3`, `0 ≤ x + 2 y ≤ 5` and `z - x ≥ 1` (solved by
`(1, 1, 2)`), preprocessing stores more lower bounds of rows than it has reserved room for: the room is computed
from the number of *variables* with a removed bound (one), but the lower bounds of two rows become infinite. -/
theorem C65_room_violated : exRoom.WF ∧ exRoom.FiniteCoeffs 1000 ∧
    (exRoom.LinFeasible fun j => [1, 1, 2].getD j 0) ∧ (exRoom.FiniteAt 1000 fun j => [1, 1, 2].getD j 0) ∧
    (preprocess 1000 0 0 exRoom (fun _ => 0) (fun _ => 0)).toOption.isNone = true := by
  refine ⟨by decide +kernel, by decide +kernel, by decide +kernel, by decide +kernel, by decide +kernel⟩

/-- `x = 1` by its bounds and the row `x ≥ 2` -/
def exFixed : Prob ℚ := exLin 1 1 [(0, 1)] [(0, 1)] [(0, 2)] [(0, 1000)]
  ⟨1, 1, 1, 1, fun k => if k = 0 then 0 else 1, fun _ => 0, fun _ => 1⟩

/-- C65 violated by the code: for a variable with both bounds 1 and a constraint `x ≥ 2` on this variable alone, an
assertion fails (the constraint is to become a bound of a variable that is already fixed); infeasibility is not
reported. -/
theorem C65_fixed_violated : exFixed.WF ∧ (presolve 1000 0 exFixed).isNone = true := by
  refine ⟨by decide +kernel, by decide +kernel⟩

/-- `x ∈ [0, 10]` and the rows `x ≥ 5`, `x ≤ 3` -/
def exCross : Prob ℚ := exLin 1 2 [] [(0, 10)] [(0, 5), (1, -1000)] [(0, 1000), (1, 3)]
  ⟨2, 1, 2, 2, fun k => if k = 0 then 0 else 2, fun k => k, fun _ => 1⟩

/-- the error a call returns -/
def errOf {ε α : Type*} : Except ε α → Option ε
  | .ok _ => none
  | .error e => some e

/-- C65 violated by the code: for `x ∈ [0, 10]` with the constraints `x ≥ 5` and `x ≤ 3`, preprocessing does not report
infeasibility; the creation of the new problem, whose lower bound 5 exceeds the upper bound 3, returns an
`ILLEGAL_ARGUMENT` error, although all arguments of the user are legal. -/
theorem C65_bounds_violated : exCross.WF ∧
    errOf (preprocess 1000 0 0 exCross (fun _ => 0) (fun _ => 0)) = some .illegalArgument := by
  refine ⟨by decide +kernel, by decide +kernel⟩

end Sleqp
