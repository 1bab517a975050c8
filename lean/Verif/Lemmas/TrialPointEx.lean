import Verif.Lemmas.TrialPoint

/-! Examples for C77: one variable in `[-1, 1]`, one constraint `-5 ≤ x ≤ 5`. -/

namespace Sleqp
open Finset

/-- only the constraint is basic -/
theorem lpSolves_row {inf : ℚ} {lp : LpArrays ℚ} {a : LpSol ℚ} (hn : lp.numVars = 3) (hm : lp.numCons = 1) (hv : ∀ j < 3, a.varStats j ≠ .basic)
    (hs : a.consStats 0 = .basic) (h : LpCheck inf lp a) : LpSolves inf lp a := by
  refine lpSolves_check h ?_ ?_
  · rw [hn]
    exact fun v h1 _ j hj => h1 j hj (hv j hj)
  · rw [hn, hm]
    intro z y _ h2 h3
    have hy : y 0 = 0 := h2 0 (by decide) hs
    refine ⟨fun j hj => ?_, fun i hi => ?_⟩
    · have := h3 j hj
      rw [sum_range_one, hy, zero_mul, add_zero] at this
      exact this
    · interval_cases i; exact hy

def exTpEnv : LpEnv ℚ := ⟨1, 1, 1000, 1/100, 0, ⟨⟨1, 1, [(0, -1)]⟩, ⟨1, 1, [(0, 1)]⟩, ⟨1, 1, [(0, -5)]⟩, ⟨1, 1, [(0, 5)]⟩⟩, true, true, true⟩

theorem exTpEnv_bounds : LpBounds exTpEnv where
  inf := by decide +kernel
  sized := ⟨(C02_isValid_iff _).mp (by decide +kernel), (C02_isValid_iff _).mp (by decide +kernel), (C02_isValid_iff _).mp (by decide +kernel),
    (C02_isValid_iff _).mp (by decide +kernel), rfl, rfl, rfl, rfl⟩
  vars := by decide +kernel
  cons := by decide +kernel

theorem exTpEnv_noFixed : NoFixed exTpEnv := by unfold NoFixed; decide +kernel

/-! ### minimise `-x + x² / 4`, at `0` -/

def exTpLit : LpLit := ⟨[-1, 10, 10], [-1/2, 0, 0], [1/2, 1000, 1000], [-5], [5], [[1, 1, -1]]⟩
def exTpSol : LpSolLit := ⟨-1/2, [1/2, 0, 0], [.upper, .lower, .lower], [.basic], [-1, 10, 10], [0]⟩

theorem exTp_correct : (⟨exTpLit.solver exTpSol, fun _ => none, fun _ => none, fun _ _ => none⟩ : LpCalls ℚ).Correct 1000 where
  main := solver_correct (by decide +kernel) (lpSolves_row rfl rfl (by decide +kernel) (by decide +kernel) (by decide +kernel))
  red := none_correct
  feas := none_correct
  mixed := fun _ => none_correct

def exTpDir : CauchyDir ℚ where
  cauchy := CauchyLp.create exTpEnv exLpState
  iterate := ⟨⟨1, 0, []⟩, 0, ⟨1, 1, [(0, -1)]⟩, ⟨1, 0, []⟩, exLpMat, ⟨1, 0, []⟩, ⟨1, 0, []⟩⟩
  work := WSet.create 1 1 fun _ => 0
  step := ⟨1, 0, []⟩
  radius := 1/2
  penalty := 10
  merit := 0
  feasRes := 0
  allowReset := true
  performedReset := false

theorem exTpDir_ok : exTpDir.Ok exTpEnv (fun _ _ => 0) exLpState where
  cauchy := ⟨none, [], fun _ h => (by cases h), rfl, rfl⟩
  iterate := ⟨⟨⟨(C02_isValid_iff _).mp (by decide +kernel), rfl⟩, ⟨(C02_isValid_iff _).mp (by decide +kernel), rfl⟩,
    (C09_isValid_iff _ rfl (by decide)).mp (by decide +kernel), rfl, rfl, by decide +kernel, by decide +kernel, by decide +kernel⟩,
    by decide +kernel, by decide +kernel, fun h => by cases h⟩
  grad := ⟨(C02_isValid_iff _).mp (by decide +kernel), rfl⟩
  work := ⟨[], wrep_create 1 1 _⟩
  far := by unfold FarBounds; decide +kernel
  penalty := by decide +kernel
  merit := by decide +kernel
  reset := rfl

def exTpZero : Dir ℚ := ⟨⟨1, 0, []⟩, 0, ⟨1, 0, []⟩, ⟨1, 0, []⟩⟩

def exTpSolver : TrialSolver ℚ := ⟨exTpDir, 4, exTpZero, exTpZero, exTpZero, ⟨1, 0, []⟩, ⟨1, 0, []⟩, ⟨1, 0, []⟩, ⟨1, 0, []⟩⟩

theorem exTpVok : VOk 1 (⟨1, 0, []⟩ : Vec ℚ) := ⟨(C02_isValid_iff _).mp (by decide +kernel), rfl⟩

theorem exTpSolver_ok : exTpSolver.Ok exTpEnv (fun _ _ => 0) exLpState :=
  ⟨exTpDir_ok, by decide +kernel, ⟨rfl, exTpVok, exTpVok⟩, ⟨rfl, rfl, rfl⟩, rfl, rfl⟩

/-- the Newton step is `2`, the minimiser of the quadratic model -/
def exTpNewton : Dir ℚ := ⟨⟨1, 1, [(0, 2)]⟩, -2, ⟨1, 1, [(0, 2)]⟩, ⟨1, 1, [(0, 1)]⟩⟩

def exTpCalls : TrialCalls ℚ where
  lp := ⟨exTpLit.solver exTpSol, fun _ => none, fun _ => none, fun _ _ => none⟩
  hess := fun _ d _ => some (d.scale (1/2))
  newton := fun _ _ => some exTpNewton
  norm := fun v => |v.value 0|
  sort := exSort

/-- the Hessian -/
def exTpHess : CauchyDir ℚ → Matrix (Fin 1) (Fin 1) ℚ := fun _ _ _ => 1/2

theorem exTpCalls_ok : exTpCalls.Ok exTpEnv exTpHess where
  lp := exTp_correct
  hess := fun cd d r hd _ => by
    obtain ⟨h1, h2⟩ := scale_dense hd (1/2 : ℚ)
    refine ⟨_, rfl, h1, ?_⟩
    funext i
    have hi : i = (0 : Fin 1) := Subsingleton.elim (α := Fin 1) _ _
    rw [h2, hi]
    change (1/2 : ℚ) * dense 1 d 0 = ∑ j : Fin 1, (1/2 : ℚ) * dense 1 d j
    rw [Fin.sum_univ_one]
  norm := fun v _ => by
    refine ⟨abs_nonneg _, ?_⟩
    show |v.value 0| * |v.value 0| = ∑ j : Fin 1, dense 1 v j * dense 1 v j
    rw [Fin.sum_univ_one, abs_mul_abs_self]
    rfl

/-- defaults, except for the line search -/
def exTpSettings (quadratic exact : Bool) : TrialSettings ℚ := ⟨1/10^6, 1/10^6, exLs, quadratic, quadratic, exact, 1/10^8⟩

theorem exTpSettings_ok (a b : Bool) : (exTpSettings a b).Ok :=
  ⟨by decide +kernel +revert, by decide +kernel +revert, by decide +kernel +revert, by decide +kernel +revert, by decide +kernel +revert, by decide +kernel +revert⟩

theorem exTp_finLin : FinLin exTpEnv exTpDir.iterate exTpDir.radius := by
  intro d hd i hi
  have hi0 : i = 0 := Nat.lt_one_iff.mp hi
  subst hi0
  have h := (hd 0 (by decide)).1
  have h1 : exTpDir.iterate.lin exTpEnv.numVars d 0 = d 0 := by
    unfold Iterate.lin
    show _ + ∑ j ∈ range 1, _ = _
    rw [sum_range_one]
    have a : exTpDir.iterate.consVal.value 0 = 0 := by decide +kernel
    have b : exTpDir.iterate.consJac.value 0 0 = 1 := by decide +kernel
    rw [a, b]; ring
  rw [h1]
  refine lt_of_le_of_lt h ?_
  decide +kernel

/-! ### a point that cannot be improved: minimise `-x`, at `1` -/

def exTpOptLit : LpLit := ⟨[-1, 10, 10], [-1/2, 0, 0], [0, 1000, 1000], [-6], [4], [[1, 1, -1]]⟩
def exTpOptSol : LpSolLit := ⟨0, [0, 0, 0], [.upper, .lower, .lower], [.basic], [-1, 10, 10], [0]⟩

def exTpOptDir : CauchyDir ℚ := { exTpDir with iterate := { exTpDir.iterate with primal := ⟨1, 1, [(0, 1)]⟩, objVal := -1, consVal := ⟨1, 1, [(0, 1)]⟩ }, merit := -1 }

def exTpOptCalls : TrialCalls ℚ := { exTpCalls with lp := ⟨exTpOptLit.solver exTpOptSol, fun _ => none, fun _ => none, fun _ _ => none⟩ }

def exTpOptSolver : TrialSolver ℚ := { exTpSolver with cd := exTpOptDir }

theorem exTpOptDir_ok : exTpOptDir.Ok exTpEnv (fun _ _ => 0) exLpState where
  cauchy := ⟨none, [], fun _ h => (by cases h), rfl, rfl⟩
  iterate := ⟨⟨⟨(C02_isValid_iff _).mp (by decide +kernel), rfl⟩, ⟨(C02_isValid_iff _).mp (by decide +kernel), rfl⟩,
    (C09_isValid_iff _ rfl (by decide)).mp (by decide +kernel), rfl, rfl, by decide +kernel, by decide +kernel, by decide +kernel⟩,
    by decide +kernel, by decide +kernel, fun h => by cases h⟩
  grad := ⟨(C02_isValid_iff _).mp (by decide +kernel), rfl⟩
  work := ⟨[], wrep_create 1 1 _⟩
  far := by unfold FarBounds; decide +kernel
  penalty := by decide +kernel
  merit := by decide +kernel
  reset := rfl

theorem exTpOptCalls_ok : exTpOptCalls.Ok exTpEnv exTpHess where
  lp := ⟨solver_correct (by decide +kernel) (lpSolves_row rfl rfl (by decide +kernel) (by decide +kernel) (by decide +kernel)), none_correct, none_correct,
    fun _ => none_correct⟩
  hess := exTpCalls_ok.hess
  norm := exTpCalls_ok.norm

theorem exTpOptSolver_ok : exTpOptSolver.Ok exTpEnv (fun _ _ => 0) exLpState := { exTpSolver_ok with cd := exTpOptDir_ok }

theorem exTpOpt_finLin : FinLin exTpEnv exTpOptSolver.cd.iterate exTpOptSolver.cd.radius := by
  intro d hd i hi
  have hi0 : i = 0 := Nat.lt_one_iff.mp hi
  subst hi0
  have h := (hd 0 (by decide)).1
  have h1 : exTpOptDir.iterate.lin exTpEnv.numVars d 0 = 1 + d 0 := by
    unfold Iterate.lin
    show _ + ∑ j ∈ range 1, _ = _
    rw [sum_range_one]
    have a : exTpOptDir.iterate.consVal.value 0 = 1 := by decide +kernel
    have b : exTpOptDir.iterate.consJac.value 0 0 = 1 := by decide +kernel
    rw [a, b]; ring
  show |exTpOptDir.iterate.lin exTpEnv.numVars d 0| < 1000 / 2
  change |d 0| ≤ 1/2 at h
  rw [h1]
  obtain ⟨a, b⟩ := abs_le.mp h
  rw [abs_lt]
  constructor <;> linarith

end Sleqp
