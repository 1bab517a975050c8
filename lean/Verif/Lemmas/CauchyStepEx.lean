import Verif.Lemmas.CauchyLpEx
import Verif.Lemmas.CauchyStep

/-! Examples for C76: one variable, one constraint, `d + s⁺ - s⁻` the row of the linear program. -/

namespace Sleqp
open Finset

/-- one variable of the linear program is basic, the others and the constraint are not -/
theorem lpSolves_one {inf : ℚ} {lp : LpArrays ℚ} {a : LpSol ℚ} {k : Nat} (hk : k < 3) (hn : lp.numVars = 3) (hm : lp.numCons = 1)
    (hc : ∀ j < 3, lp.coeffs.value 0 j = [1, 1, -1].getD j 0) (hv : ∀ j < 3, a.varStats j = .basic ↔ j = k) (hs : a.consStats 0 ≠ .basic)
    (h : LpCheck inf lp a) : LpSolves inf lp a := by
  refine lpSolves_check h ?_ ?_
  · rw [hn, hm]
    intro v h1 h2 j hj
    have hz : ∀ j < 3, j ≠ k → v j = 0 := fun j hj hjk => h1 j hj (by rw [Ne, hv j hj]; exact hjk)
    have a3 := h2 0 (by decide) hs
    unfold LpArrays.row at a3
    rw [hn, sum_range_succ, sum_range_succ, sum_range_succ, sum_range_zero, hc 0 (by decide), hc 1 (by decide), hc 2 (by decide)] at a3
    simp at a3
    by_cases hjk : j = k
    · subst hjk
      interval_cases j
      · have := hz 1 (by decide) (by decide); have := hz 2 (by decide) (by decide); linarith
      · have := hz 0 (by decide) (by decide); have := hz 2 (by decide) (by decide); linarith
      · have := hz 0 (by decide) (by decide); have := hz 1 (by decide) (by decide); linarith
    · exact hz j hj hjk
  · rw [hn, hm]
    intro z y h1 h2 h3
    have a0 := h1 k hk ((hv k hk).mpr rfl)
    have b0 := h3 0 (by decide)
    have b1 := h3 1 (by decide)
    have b2 := h3 2 (by decide)
    rw [sum_range_one, hc _ (by decide)] at b0 b1 b2
    simp at b0 b1 b2
    have hy : y 0 = 0 := by interval_cases k <;> linarith
    refine ⟨fun j hj => ?_, fun i hi => ?_⟩
    · interval_cases j <;> linarith
    · interval_cases i; exact hy

theorem none_correct {inf : ℚ} : LpCorrect inf fun _ => none := fun _ _ h => (by cases h)

/-! ### An increase: minimise `50 x` with `1/2 ≤ x ≤ 5`, at `0`, penalty parameter `10` -/

def exIncLit : LpLit := ⟨[50, 10, 10], [-1, 0, 0], [1, 1000, 1000], [1/2], [5], [[1, 1, -1]]⟩
def exIncSol : LpSolLit := ⟨-35, [-1, 3/2, 0], [.lower, .basic, .lower], [.lower], [40, 0, 20], [10]⟩
def exIncFeasLit : LpLit := { exIncLit with obj := [0, 10, 10] }
def exIncFeasSol : LpSolLit := ⟨0, [1/2, 0, 0], [.basic, .lower, .lower], [.lower], [0, 10, 10], [0]⟩
def exIncMixedLit : LpLit := { exIncLit with obj := [50, 100, 100] }
def exIncMixedSol : LpSolLit := ⟨25, [1/2, 0, 0], [.basic, .lower, .lower], [.lower], [0, 50, 150], [50]⟩

def exIncCalls : LpCalls ℚ :=
  ⟨exIncLit.solver exIncSol, fun _ => none, exIncFeasLit.solver exIncFeasSol, fun _ => exIncMixedLit.solver exIncMixedSol⟩

theorem exIncCalls_correct : exIncCalls.Correct 1000 where
  main := solver_correct (by decide +kernel) (lpSolves_one (k := 1) (by decide) rfl rfl (by decide +kernel) (by decide +kernel) (by decide +kernel) (by decide +kernel))
  red := none_correct
  feas := solver_correct (by decide +kernel) (lpSolves_one (k := 0) (by decide) rfl rfl (by decide +kernel) (by decide +kernel) (by decide +kernel) (by decide +kernel))
  mixed := fun _ => solver_correct (by decide +kernel)
    (lpSolves_one (k := 0) (by decide) rfl rfl (by decide +kernel) (by decide +kernel) (by decide +kernel) (by decide +kernel))

def exIncDir : CauchyDir ℚ where
  cauchy := CauchyLp.create exLpEnv exLpState
  iterate := { exLpIterate with objGrad := ⟨1, 1, [(0, 50)]⟩ }
  work := WSet.create 1 1 fun _ => 0
  step := ⟨1, 0, []⟩
  radius := 1
  penalty := 10
  merit := 12
  feasRes := 1/2
  allowReset := false
  performedReset := false

theorem exIncDir_ok : exIncDir.Ok exLpEnv (fun _ _ => 0) exLpState where
  cauchy := ⟨none, [], fun _ h => (by cases h), rfl, rfl⟩
  iterate := ⟨⟨⟨(C02_isValid_iff _).mp (by decide +kernel), rfl⟩, ⟨(C02_isValid_iff _).mp (by decide +kernel), rfl⟩,
    (C09_isValid_iff _ rfl (by decide)).mp (by decide +kernel), rfl, rfl, by decide +kernel, by decide +kernel, by decide +kernel⟩,
    by decide +kernel, by decide +kernel, fun h => by cases h⟩
  grad := ⟨(C02_isValid_iff _).mp (by decide +kernel), rfl⟩
  work := ⟨[], wrep_create 1 1 _⟩
  far := by unfold FarBounds; decide +kernel
  penalty := by decide +kernel
  merit := by decide +kernel
  reset := rfl

theorem exLpEnv_noFixed : NoFixed exLpEnv := by unfold NoFixed; decide +kernel

/-! ### A reset: minimise `100 x` with `10⁻⁷ ≤ x ≤ 5`, at `0`, penalty parameter `2000` -/

def exResEnv : LpEnv ℚ := { exLpEnv with bounds := { exLpEnv.bounds with consLb := ⟨1, 1, [(0, 1 / 10 ^ 7)]⟩ } }

def exResLit : LpLit := ⟨[100, 2000, 2000], [-1, 0, 0], [1, 1000, 1000], [1 / 10 ^ 7], [5], [[1, 1, -1]]⟩
def exResSol : LpSolLit := ⟨1 / 10 ^ 5, [1 / 10 ^ 7, 0, 0], [.basic, .lower, .lower], [.lower], [0, 1900, 2100], [100]⟩

def exResCalls : LpCalls ℚ := ⟨exResLit.solver exResSol, fun _ => none, fun _ => none, fun _ _ => none⟩

theorem exResCalls_correct : exResCalls.Correct 1000 where
  main := solver_correct (by decide +kernel) (lpSolves_one (k := 0) (by decide) rfl rfl (by decide +kernel) (by decide +kernel) (by decide +kernel) (by decide +kernel))
  red := none_correct
  feas := none_correct
  mixed := fun _ => none_correct

def exResDir : CauchyDir ℚ where
  cauchy := CauchyLp.create exResEnv exLpState
  iterate := { exLpIterate with objGrad := ⟨1, 1, [(0, 100)]⟩ }
  work := WSet.create 1 1 fun _ => 0
  step := ⟨1, 0, []⟩
  radius := 1
  penalty := 2000
  merit := 7 + 2000 / 10 ^ 7
  feasRes := 1 / 10 ^ 7
  allowReset := true
  performedReset := false

theorem exResEnv_bounds : LpBounds exResEnv where
  inf := by decide +kernel
  sized := ⟨(C02_isValid_iff _).mp (by decide +kernel), (C02_isValid_iff _).mp (by decide +kernel), (C02_isValid_iff _).mp (by decide +kernel),
    (C02_isValid_iff _).mp (by decide +kernel), rfl, rfl, rfl, rfl⟩
  vars := by decide +kernel
  cons := by decide +kernel

theorem exResEnv_noFixed : NoFixed exResEnv := by unfold NoFixed; decide +kernel

theorem exResDir_ok : exResDir.Ok exResEnv (fun _ _ => 0) exLpState where
  cauchy := ⟨none, [], fun _ h => (by cases h), rfl, rfl⟩
  iterate := ⟨⟨⟨(C02_isValid_iff _).mp (by decide +kernel), rfl⟩, ⟨(C02_isValid_iff _).mp (by decide +kernel), rfl⟩,
    (C09_isValid_iff _ rfl (by decide)).mp (by decide +kernel), rfl, rfl, by decide +kernel, by decide +kernel, by decide +kernel⟩,
    by decide +kernel, by decide +kernel, fun h => by cases h⟩
  grad := ⟨(C02_isValid_iff _).mp (by decide +kernel), rfl⟩
  work := ⟨[], wrep_create 1 1 _⟩
  far := by unfold FarBounds; decide +kernel
  penalty := by decide +kernel
  merit := by decide +kernel
  reset := rfl

/-! ### No increase: minimise `x` with `0 ≤ x ≤ 10` and `-5 ≤ x ≤ -1`, at `0`, penalty parameter `2` -/

def exStopEnv : LpEnv ℚ := { exLpEnv with bounds := ⟨⟨1, 0, []⟩, ⟨1, 1, [(0, 10)]⟩, ⟨1, 1, [(0, -5)]⟩, ⟨1, 1, [(0, -1)]⟩⟩ }

def exStopLit : LpLit := ⟨[1, 2, 2], [0, 0, 0], [1, 1000, 1000], [-5], [-1], [[1, 1, -1]]⟩
def exStopSol : LpSolLit := ⟨2, [0, 0, 1], [.lower, .lower, .basic], [.upper], [3, 4, 0], [-2]⟩
def exStopFeasLit : LpLit := { exStopLit with obj := [0, 2, 2] }
def exStopFeasSol : LpSolLit := ⟨2, [0, 0, 1], [.lower, .lower, .basic], [.upper], [2, 4, 0], [-2]⟩

def exStopCalls : LpCalls ℚ := ⟨exStopLit.solver exStopSol, fun _ => none, exStopFeasLit.solver exStopFeasSol, fun _ _ => none⟩

theorem exStopCalls_correct : exStopCalls.Correct 1000 where
  main := solver_correct (by decide +kernel) (lpSolves_one (k := 2) (by decide) rfl rfl (by decide +kernel) (by decide +kernel) (by decide +kernel) (by decide +kernel))
  red := none_correct
  feas := solver_correct (by decide +kernel) (lpSolves_one (k := 2) (by decide) rfl rfl (by decide +kernel) (by decide +kernel) (by decide +kernel) (by decide +kernel))
  mixed := fun _ => none_correct

def exStopDir : CauchyDir ℚ where
  cauchy := CauchyLp.create exStopEnv exLpState
  iterate := exLpIterate
  work := WSet.create 1 1 fun _ => 0
  step := ⟨1, 0, []⟩
  radius := 1
  penalty := 2
  merit := 9
  feasRes := 1
  allowReset := true
  performedReset := false

theorem exStopEnv_bounds : LpBounds exStopEnv where
  inf := by decide +kernel
  sized := ⟨(C02_isValid_iff _).mp (by decide +kernel), (C02_isValid_iff _).mp (by decide +kernel), (C02_isValid_iff _).mp (by decide +kernel),
    (C02_isValid_iff _).mp (by decide +kernel), rfl, rfl, rfl, rfl⟩
  vars := by decide +kernel
  cons := by decide +kernel

theorem exStopEnv_noFixed : NoFixed exStopEnv := by unfold NoFixed; decide +kernel

theorem exStopDir_ok : exStopDir.Ok exStopEnv (fun _ _ => 0) exLpState where
  cauchy := ⟨none, [], fun _ h => (by cases h), rfl, rfl⟩
  iterate := ⟨⟨⟨(C02_isValid_iff _).mp (by decide +kernel), rfl⟩, ⟨(C02_isValid_iff _).mp (by decide +kernel), rfl⟩,
    (C09_isValid_iff _ rfl (by decide)).mp (by decide +kernel), rfl, rfl, by decide +kernel, by decide +kernel, by decide +kernel⟩,
    by decide +kernel, by decide +kernel, fun h => by cases h⟩
  grad := ⟨(C02_isValid_iff _).mp (by decide +kernel), rfl⟩
  work := ⟨[], wrep_create 1 1 _⟩
  far := by unfold FarBounds; decide +kernel
  penalty := by decide +kernel
  merit := by decide +kernel
  reset := rfl

end Sleqp
