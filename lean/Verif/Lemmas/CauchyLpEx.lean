import Verif.Lemmas.CauchyLpHist
import Mathlib.Tactic.IntervalCases
import Mathlib.Tactic.NormNum
import Mathlib.Algebra.Order.Ring.Rat

/-! LP solvers for examples, and weak duality. -/

namespace Sleqp
open Finset
variable {K : Type*} [Field K] [LinearOrder K] [IsStrictOrderedRing K]

theorem lp_weak_duality {inf : K} {lp : LpArrays K} {a : LpSol K}
    (stat : ∀ j < lp.numVars, lp.obj j = a.varsDual j + ∑ i ∈ range lp.numCons, a.consDual i * lp.coeffs.value i j)
    (varPos : ∀ j < lp.numVars, 0 < a.varsDual j → -inf < lp.varsLb j ∧ a.primal j = lp.varsLb j)
    (varNeg : ∀ j < lp.numVars, a.varsDual j < 0 → lp.varsUb j < inf ∧ a.primal j = lp.varsUb j)
    (consPos : ∀ i < lp.numCons, 0 < a.consDual i → -inf < lp.consLb i ∧ lp.row a.primal i = lp.consLb i)
    (consNeg : ∀ i < lp.numCons, a.consDual i < 0 → lp.consUb i < inf ∧ lp.row a.primal i = lp.consUb i)
    (x : Nat → K) (hx : LpFeasible inf lp x) : lp.cost a.primal ≤ lp.cost x := by
  have hterm : ∀ (y lo hi v w : K), (0 < y → -inf < lo ∧ v = lo) → (y < 0 → hi < inf ∧ v = hi) → LpWithin inf lo hi w → y * v ≤ y * w := by
    intro y lo hi v w h1 h2 h3
    rcases lt_trichotomy y 0 with h | h | h
    · obtain ⟨a, rfl⟩ := h2 h
      rcases h3.2 with c | c
      · exact absurd a (not_lt.mpr c)
      · exact mul_le_mul_of_nonpos_left c h.le
    · rw [h, zero_mul, zero_mul]
    · obtain ⟨a, rfl⟩ := h1 h
      rcases h3.1 with c | c
      · exact absurd a (not_lt.mpr c)
      · exact mul_le_mul_of_nonneg_left c h.le
  have hcost : ∀ v : Nat → K, lp.cost v = ∑ j ∈ range lp.numVars, a.varsDual j * v j + ∑ i ∈ range lp.numCons, a.consDual i * lp.row v i := by
    intro v
    unfold LpArrays.cost LpArrays.row
    simp only [mul_sum]
    rw [sum_comm, ← sum_add_distrib]
    refine sum_congr rfl fun j hj => ?_
    rw [stat j (mem_range.mp hj), add_mul, sum_mul]
    congr 1
    exact sum_congr rfl fun i _ => by rw [mul_assoc]
  rw [hcost, hcost]
  refine add_le_add (sum_le_sum fun j hj => ?_) (sum_le_sum fun i hi => ?_)
  · rw [mem_range] at hj
    exact hterm _ _ _ _ _ (varPos j hj) (varNeg j hj) (hx.vars j hj)
  · rw [mem_range] at hi
    exact hterm _ _ _ _ _ (consPos i hi) (consNeg i hi) (hx.cons i hi)

/-- the data of a linear program, as lists -/
structure LpLit where
  obj : List ℚ
  varsLb : List ℚ
  varsUb : List ℚ
  consLb : List ℚ
  consUb : List ℚ
  coeffs : List (List ℚ)

/-- has the linear program these data? -/
def LpLit.Is (d : LpLit) (lp : LpArrays ℚ) : Prop :=
  lp.numVars = d.obj.length ∧ lp.numCons = d.consLb.length ∧
  (∀ j < d.obj.length, lp.obj j = d.obj.getD j 0 ∧ lp.varsLb j = d.varsLb.getD j 0 ∧ lp.varsUb j = d.varsUb.getD j 0) ∧
  (∀ i < d.consLb.length, lp.consLb i = d.consLb.getD i 0 ∧ lp.consUb i = d.consUb.getD i 0) ∧
  ∀ i < d.consLb.length, ∀ j < d.obj.length, lp.coeffs.value i j = (d.coeffs.getD i []).getD j 0

instance (d : LpLit) (lp : LpArrays ℚ) : Decidable (d.Is lp) := by unfold LpLit.Is; infer_instance

/-- the linear program with these data -/
def LpLit.toLp (d : LpLit) : LpArrays ℚ where
  numVars := d.obj.length
  numCons := d.consLb.length
  obj := fun j => d.obj.getD j 0
  varsLb := fun j => d.varsLb.getD j 0
  varsUb := fun j => d.varsUb.getD j 0
  consLb := fun i => d.consLb.getD i 0
  consUb := fun i => d.consUb.getD i 0
  coeffs := ⟨d.consLb.length, d.obj.length, d.obj.length * d.consLb.length, d.obj.length * d.consLb.length, fun j => j * d.consLb.length,
    fun k => k % d.consLb.length, fun k => (d.coeffs.getD (k % d.consLb.length) []).getD (k / d.consLb.length) 0⟩

/-- a solution, as lists -/
structure LpSolLit where
  objVal : ℚ
  primal : List ℚ
  varStats : List BaseStat
  consStats : List BaseStat
  varsDual : List ℚ
  consDual : List ℚ

def LpSolLit.toSol (a : LpSolLit) : LpSol ℚ :=
  ⟨a.objVal, fun j => a.primal.getD j 0, fun j => a.varStats.getD j .basic, fun i => a.consStats.getD i .basic,
    fun j => a.varsDual.getD j 0, fun i => a.consDual.getD i 0⟩

/-- an LP solver that solves one linear program -/
def LpLit.solver (d : LpLit) (a : LpSolLit) : LpArrays ℚ → Option (LpSol ℚ) := fun lp => if d.Is lp then some a.toSol else none

/-- the answer does not depend on how the data are stored -/
theorem lpSolves_same {inf : ℚ} {lp lp' : LpArrays ℚ} {a : LpSol ℚ} (h1 : lp'.numVars = lp.numVars) (h2 : lp'.numCons = lp.numCons)
    (h3 : ∀ j < lp.numVars, lp'.obj j = lp.obj j ∧ lp'.varsLb j = lp.varsLb j ∧ lp'.varsUb j = lp.varsUb j)
    (h4 : ∀ i < lp.numCons, lp'.consLb i = lp.consLb i ∧ lp'.consUb i = lp.consUb i)
    (h5 : ∀ i < lp.numCons, ∀ j < lp.numVars, lp'.coeffs.value i j = lp.coeffs.value i j) (h : LpSolves inf lp a) : LpSolves inf lp' a := by
  have hrow : ∀ v, ∀ i < lp.numCons, lp'.row v i = lp.row v i := by
    intro v i hi
    unfold LpArrays.row
    rw [h1]
    exact sum_congr rfl fun j hj => by rw [h5 i hi j (mem_range.mp hj)]
  have hcost : ∀ v, lp'.cost v = lp.cost v := by
    intro v
    unfold LpArrays.cost
    rw [h1]
    exact sum_congr rfl fun j hj => by rw [(h3 j (mem_range.mp hj)).1]
  have hfeas : ∀ v, LpFeasible inf lp' v ↔ LpFeasible inf lp v := by
    intro v
    constructor
    · refine fun hv => ⟨fun j hj => ?_, fun i hi => ?_⟩
      · have := hv.vars j (by rw [h1]; exact hj)
        rwa [(h3 j hj).2.1, (h3 j hj).2.2] at this
      · have := hv.cons i (by rw [h2]; exact hi)
        rwa [(h4 i hi).1, (h4 i hi).2, hrow v i hi] at this
    · refine fun hv => ⟨fun j hj => ?_, fun i hi => ?_⟩
      · rw [h1] at hj
        rw [(h3 j hj).2.1, (h3 j hj).2.2]; exact hv.vars j hj
      · rw [h2] at hi
        rw [(h4 i hi).1, (h4 i hi).2, hrow v i hi]; exact hv.cons i hi
  have hsum : ∀ (y : Nat → ℚ), ∀ j < lp.numVars, ∑ i ∈ range lp'.numCons, y i * lp'.coeffs.value i j = ∑ i ∈ range lp.numCons, y i * lp.coeffs.value i j := by
    intro y j hj
    rw [h2]
    exact sum_congr rfl fun i hi => by rw [h5 i (mem_range.mp hi) j hj]
  exact {
    feas := (hfeas _).mpr h.feas
    val := by rw [hcost]; exact h.val
    opt := fun x hx => by rw [hcost, hcost]; exact h.opt x ((hfeas x).mp hx)
    varLower := fun j hj hs => by rw [h1] at hj; rw [(h3 j hj).2.1]; exact h.varLower j hj hs
    varUpper := fun j hj hs => by rw [h1] at hj; rw [(h3 j hj).2.2]; exact h.varUpper j hj hs
    varZero := fun j hj hs => by rw [h1] at hj; rw [(h3 j hj).2.1, (h3 j hj).2.2]; exact h.varZero j hj hs
    consLower := fun i hi hs => by rw [h2] at hi; rw [(h4 i hi).1, hrow _ i hi]; exact h.consLower i hi hs
    consUpper := fun i hi hs => by rw [h2] at hi; rw [(h4 i hi).2, hrow _ i hi]; exact h.consUpper i hi hs
    consZero := fun i hi hs => by rw [h2] at hi; rw [(h4 i hi).1, (h4 i hi).2]; exact h.consZero i hi hs
    size := by rw [h1, h2]; exact h.size
    unique := fun v hv hc j hj => h.unique v (fun j hj => hv j (by rw [h1]; exact hj)) (fun i hi hs => by
      rw [← hrow v i hi]; exact hc i (by rw [h2]; exact hi) hs) j (by rw [← h1]; exact hj)
    indep := fun z y hz hy hzy => by
      have := h.indep z y (fun j hj => hz j (by rw [h1]; exact hj)) (fun i hi => hy i (by rw [h2]; exact hi)) (fun j hj => by
        rw [← hsum y j hj]; exact hzy j (by rw [h1]; exact hj))
      rw [h1, h2]; exact this
    stat := fun j hj => by rw [h1] at hj; rw [(h3 j hj).1, hsum _ j hj]; exact h.stat j hj
    varBasic := fun j hj => h.varBasic j (by rw [← h1]; exact hj)
    consBasic := fun i hi => h.consBasic i (by rw [← h2]; exact hi)
    varPos := fun j hj hs => by rw [h1] at hj; rw [(h3 j hj).2.1]; exact h.varPos j hj hs
    varNeg := fun j hj hs => by rw [h1] at hj; rw [(h3 j hj).2.2]; exact h.varNeg j hj hs
    consPos := fun i hi hs => by rw [h2] at hi; rw [(h4 i hi).1, hrow _ i hi]; exact h.consPos i hi hs
    consNeg := fun i hi hs => by rw [h2] at hi; rw [(h4 i hi).2, hrow _ i hi]; exact h.consNeg i hi hs }

theorem solver_correct {inf : ℚ} {d : LpLit} {a : LpSolLit}
    (hv : ∀ i < d.consLb.length, ∀ j < d.obj.length, d.toLp.coeffs.value i j = (d.coeffs.getD i []).getD j 0)
    (h : LpSolves inf d.toLp a.toSol) : LpCorrect inf (d.solver a) := by
  intro lp b hb
  unfold LpLit.solver at hb
  split at hb
  · rename_i hd
    injection hb with hb
    rw [← hb]
    obtain ⟨h1, h2, h3, h4, h5⟩ := hd
    exact lpSolves_same h1 h2 h3 h4 (fun i hi j hj => by rw [h5 i hi j hj, hv i hi j hj]) h
  · cases hb

/-- what can be checked for a variable -/
def LpVarCheck (inf : ℚ) (lp : LpArrays ℚ) (a : LpSol ℚ) (j : Nat) : Prop :=
  ((lp.varsLb j ≤ -inf ∨ lp.varsLb j ≤ a.primal j) ∧ (inf ≤ lp.varsUb j ∨ a.primal j ≤ lp.varsUb j)) ∧
    (a.varStats j = .lower → -inf < lp.varsLb j ∧ a.primal j = lp.varsLb j) ∧
    (a.varStats j = .upper → lp.varsUb j < inf ∧ a.primal j = lp.varsUb j) ∧
    (a.varStats j = .zero → lp.varsLb j ≤ -inf ∧ inf ≤ lp.varsUb j) ∧
    lp.obj j = a.varsDual j + ((List.range lp.numCons).map fun i => a.consDual i * lp.coeffs.value i j).sum ∧
    (a.varStats j = .basic → a.varsDual j = 0) ∧
    (0 < a.varsDual j → -inf < lp.varsLb j ∧ a.primal j = lp.varsLb j) ∧
    (a.varsDual j < 0 → lp.varsUb j < inf ∧ a.primal j = lp.varsUb j)

/-- what can be checked for a constraint -/
def LpConsCheck (inf : ℚ) (lp : LpArrays ℚ) (a : LpSol ℚ) (i : Nat) : Prop :=
  ((lp.consLb i ≤ -inf ∨ lp.consLb i ≤ ((List.range lp.numVars).map fun j => lp.coeffs.value i j * a.primal j).sum) ∧
      (inf ≤ lp.consUb i ∨ ((List.range lp.numVars).map fun j => lp.coeffs.value i j * a.primal j).sum ≤ lp.consUb i)) ∧
    (a.consStats i = .lower → -inf < lp.consLb i ∧ ((List.range lp.numVars).map fun j => lp.coeffs.value i j * a.primal j).sum = lp.consLb i) ∧
    (a.consStats i = .upper → lp.consUb i < inf ∧ ((List.range lp.numVars).map fun j => lp.coeffs.value i j * a.primal j).sum = lp.consUb i) ∧
    (a.consStats i = .zero → lp.consLb i ≤ -inf ∧ inf ≤ lp.consUb i) ∧
    (a.consStats i = .basic → a.consDual i = 0) ∧
    (0 < a.consDual i → -inf < lp.consLb i ∧ ((List.range lp.numVars).map fun j => lp.coeffs.value i j * a.primal j).sum = lp.consLb i) ∧
    (a.consDual i < 0 → lp.consUb i < inf ∧ ((List.range lp.numVars).map fun j => lp.coeffs.value i j * a.primal j).sum = lp.consUb i)

instance (inf : ℚ) (lp : LpArrays ℚ) (a : LpSol ℚ) (j : Nat) : Decidable (LpVarCheck inf lp a j) := by unfold LpVarCheck; infer_instance
instance (inf : ℚ) (lp : LpArrays ℚ) (a : LpSol ℚ) (i : Nat) : Decidable (LpConsCheck inf lp a i) := by unfold LpConsCheck; infer_instance

/-- everything about an answer that can be checked by calculation -/
def LpCheck (inf : ℚ) (lp : LpArrays ℚ) (a : LpSol ℚ) : Prop :=
  (∀ j < lp.numVars, LpVarCheck inf lp a j) ∧ (∀ i < lp.numCons, LpConsCheck inf lp a i) ∧
  a.objVal = ((List.range lp.numVars).map fun j => lp.obj j * a.primal j).sum ∧
  (List.range lp.numVars).countP (fun j => decide (a.varStats j ≠ .basic)) +
    (List.range lp.numCons).countP (fun i => decide (a.consStats i ≠ .basic)) = lp.numVars

instance (inf : ℚ) (lp : LpArrays ℚ) (a : LpSol ℚ) : Decidable (LpCheck inf lp a) := by unfold LpCheck; infer_instance

theorem sum_list (k : Nat) (f : Nat → ℚ) : ((List.range k).map f).sum = ∑ j ∈ range k, f j := by
  rw [← List.sum_toFinset _ List.nodup_range, List.toFinset_range]

theorem lpSolves_check {inf : ℚ} {lp : LpArrays ℚ} {a : LpSol ℚ} (h : LpCheck inf lp a)
    (unique : ∀ v : Nat → ℚ, (∀ j < lp.numVars, a.varStats j ≠ .basic → v j = 0) →
      (∀ i < lp.numCons, a.consStats i ≠ .basic → lp.row v i = 0) → ∀ j < lp.numVars, v j = 0)
    (indep : ∀ (z y : Nat → ℚ), (∀ j < lp.numVars, a.varStats j = .basic → z j = 0) → (∀ i < lp.numCons, a.consStats i = .basic → y i = 0) →
      (∀ j < lp.numVars, z j + ∑ i ∈ range lp.numCons, y i * lp.coeffs.value i j = 0) →
      (∀ j < lp.numVars, z j = 0) ∧ ∀ i < lp.numCons, y i = 0) : LpSolves inf lp a := by
  unfold LpCheck LpVarCheck LpConsCheck at h
  simp only [sum_list] at h
  obtain ⟨h1, h2, h3, h4⟩ := h
  exact {
    feas := ⟨fun j hj => (h1 j hj).1, fun i hi => (h2 i hi).1⟩
    val := h3
    opt := lp_weak_duality (fun j hj => (h1 j hj).2.2.2.2.1) (fun j hj => (h1 j hj).2.2.2.2.2.2.1) (fun j hj => (h1 j hj).2.2.2.2.2.2.2)
      (fun i hi => (h2 i hi).2.2.2.2.2.1) (fun i hi => (h2 i hi).2.2.2.2.2.2)
    varLower := fun j hj => (h1 j hj).2.1
    varUpper := fun j hj => (h1 j hj).2.2.1
    varZero := fun j hj => (h1 j hj).2.2.2.1
    consLower := fun i hi => (h2 i hi).2.1
    consUpper := fun i hi => (h2 i hi).2.2.1
    consZero := fun i hi => (h2 i hi).2.2.2.1
    size := h4
    unique := unique
    indep := indep
    stat := fun j hj => (h1 j hj).2.2.2.2.1
    varBasic := fun j hj => (h1 j hj).2.2.2.2.2.1
    consBasic := fun i hi => (h2 i hi).2.2.2.2.1
    varPos := fun j hj => (h1 j hj).2.2.2.2.2.2.1
    varNeg := fun j hj => (h1 j hj).2.2.2.2.2.2.2
    consPos := fun i hi => (h2 i hi).2.2.2.2.2.1
    consNeg := fun i hi => (h2 i hi).2.2.2.2.2.2 }

/-! ### one variable, one constraint: minimise `d` with `1/2 ≤ d ≤ 5` -/

def exLpLit : LpLit := ⟨[1, 2, 2], [-1, 0, 0], [1, 1000, 1000], [1/2], [5], [[1, 1, -1]]⟩
def exLpSol : LpSolLit := ⟨1/2, [1/2, 0, 0], [.basic, .lower, .lower], [.lower], [0, 1, 3], [1]⟩

/-- the variable is basic, the slacks and the constraint are not -/
theorem lpSolves_ex {inf : ℚ} {lp : LpArrays ℚ} {a : LpSol ℚ} (hn : lp.numVars = 3) (hm : lp.numCons = 1)
    (hc : ∀ j < 3, lp.coeffs.value 0 j = [1, 1, -1].getD j 0) (hv : ∀ j < 3, a.varStats j = .basic ↔ j = 0) (hs : a.consStats 0 ≠ .basic)
    (h : LpCheck inf lp a) : LpSolves inf lp a := by
  refine lpSolves_check h ?_ ?_
  · rw [hn, hm]
    intro v h1 h2 j hj
    have a1 := h1 1 (by decide) (by rw [Ne, hv 1 (by decide)]; decide)
    have a2 := h1 2 (by decide) (by rw [Ne, hv 2 (by decide)]; decide)
    have a3 := h2 0 (by decide) hs
    unfold LpArrays.row at a3
    rw [hn, sum_range_succ, sum_range_succ, sum_range_succ, sum_range_zero, hc 0 (by decide), hc 1 (by decide), hc 2 (by decide)] at a3
    simp at a3
    interval_cases j
    · linarith
    · exact a1
    · exact a2
  · rw [hn, hm]
    intro z y h1 h2 h3
    have a0 := h1 0 (by decide) ((hv 0 (by decide)).mpr rfl)
    have b0 := h3 0 (by decide)
    have b1 := h3 1 (by decide)
    have b2 := h3 2 (by decide)
    rw [sum_range_one, hc _ (by decide)] at b0 b1 b2
    simp at b0 b1 b2
    refine ⟨fun j hj => ?_, fun i hi => ?_⟩
    · interval_cases j <;> linarith
    · interval_cases i; linarith

theorem exLp_correct : LpCorrect 1000 (exLpLit.solver exLpSol) :=
  solver_correct (by decide +kernel) (lpSolves_ex rfl rfl (by decide +kernel) (by decide +kernel) (by decide +kernel) (by decide +kernel))

/-- the same without objective -/
def exFeasLit : LpLit := { exLpLit with obj := [0, 2, 2] }
def exFeasSol : LpSolLit := ⟨0, [1/2, 0, 0], [.basic, .lower, .lower], [.lower], [0, 2, 2], [0]⟩

theorem exFeas_correct : LpCorrect 1000 (exFeasLit.solver exFeasSol) :=
  solver_correct (by decide +kernel) (lpSolves_ex rfl rfl (by decide +kernel) (by decide +kernel) (by decide +kernel) (by decide +kernel))

def exLpEnv : LpEnv ℚ :=
  ⟨1, 1, 1000, 1/100, 0, ⟨⟨1, 1, [(0, -10)]⟩, ⟨1, 1, [(0, 10)]⟩, ⟨1, 1, [(0, 1/2)]⟩, ⟨1, 1, [(0, 5)]⟩⟩, true, true, true⟩
def exLpMat : Mat ℚ := ⟨1, 1, 1, 1, fun k => if k = 0 then 0 else 1, fun _ => 0, fun _ => 1⟩
def exLpIterate : Iterate ℚ := ⟨⟨1, 0, []⟩, 7, ⟨1, 1, [(0, 1)]⟩, ⟨1, 0, []⟩, exLpMat, ⟨1, 0, []⟩, ⟨1, 0, []⟩⟩

/-- some state before `create` -/
def exLpState : CauchyLp ℚ :=
  ⟨0, none, fun _ => 5, fun _ => 5, fun _ => 5, fun _ => 5, fun _ => 5, ⟨0, 0, fun _ => 5, fun _ => 5, fun _ => 5, fun _ => 5, fun _ => 5, exLpMat⟩,
    ⟨0, 0, fun _ => 5, fun _ => 5, fun _ => 5, fun _ => 5, fun _ => 5, exLpMat⟩, true, true, true, true, true, exLpSol.toSol, exLpSol.toSol,
    fun _ => .basic, fun _ => .basic, fun _ => 5, fun _ => 5, fun _ => true, fun _ => true, none, false⟩

theorem exLpEnv_bounds : LpBounds exLpEnv where
  inf := by decide +kernel
  sized := ⟨(C02_isValid_iff _).mp (by decide +kernel), (C02_isValid_iff _).mp (by decide +kernel), (C02_isValid_iff _).mp (by decide +kernel),
    (C02_isValid_iff _).mp (by decide +kernel), rfl, rfl, rfl, rfl⟩
  vars := by decide +kernel
  cons := by decide +kernel

theorem exLpIterate_ok : LpIterate exLpEnv exLpIterate where
  primal := ⟨(C02_isValid_iff _).mp (by decide +kernel), rfl⟩
  consVal := ⟨(C02_isValid_iff _).mp (by decide +kernel), rfl⟩
  jac := (C09_isValid_iff _ rfl (by decide)).mp (by decide +kernel)
  rows := rfl
  cols := rfl
  xfin := by decide +kernel
  cfin := by decide +kernel
  box := by decide +kernel

/-- the calls of the example -/
def exLpOps : List (LpOp ℚ) := [.setIterate exLpIterate 3, .setRadius 1]

def exLpGrad : Option (Vec ℚ) := some ⟨1, 1, [(0, 1)]⟩

/-- their `solve` -/
def exLpSolve : LpOp ℚ := .solve (exLpLit.solver exLpSol) (fun _ => none) exLpGrad 2 .default

theorem exLpOps_ok : ∀ op ∈ exLpOps, op.Ok exLpEnv fun _ _ => 0 := by
  intro op h
  rcases List.mem_cons.mp h with rfl | h
  · exact ⟨exLpIterate_ok, by decide +kernel, by decide +kernel, fun h => by cases h⟩
  · rcases List.mem_cons.mp h with rfl | h
    · exact ⟨by decide +kernel, by decide +kernel⟩
    · cases h

theorem exGradOk : GradOk exLpEnv exLpGrad := fun g h => by
  injection h with h; subst h; exact ⟨(C02_isValid_iff _).mp (by decide +kernel), rfl⟩

theorem exLpSolve_ok : exLpSolve.Ok exLpEnv fun _ _ => 0 :=
  ⟨exLp_correct, fun _ _ h => (by cases h), exGradOk, by decide +kernel⟩

theorem exLp_run : ((LpOp.run exLpEnv (CauchyLp.create exLpEnv exLpState) (exLpOps ++ exLpSolve :: [.violation])).bind
    fun s => (s.lpStep exLpEnv ⟨1, 0, []⟩).map fun p => (p.2.ents, s.objVal, (s.violation exLpEnv).2)) = some ([(0, 1/2)], some (15/2), 0) := by
  decide +kernel

end Sleqp
