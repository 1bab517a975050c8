import Verif.Model.Summary
import Verif.Props.Certificate
import Verif.Props.State

/-!
C121, second part: the numbers in the summary printed at the end of a solve.
-/

namespace Sleqp
variable {K : Type*} [Field K] [LinearOrder K] [IsStrictOrderedRing K] {σ : Type*}

/-- at the end of a run with status "optimal" the stored residuals are those of the last iterate -/
theorem run_optimal_stored {pO pR : Params K} {R : Rule K σ} {max : Option Nat} {enable rej : Bool} {innerFuel fuel : Nat} {env : Nat → OuterEnv K} {S S' : Solver K σ}
    (h : runSolvingLoop pO pR R max enable rej innerFuel env fuel S = .done S') (hst : S'.status = .optimal) :
    S'.opt.feasRes = S'.opt.cur.feasRes ∧ S'.opt.slackRes = S'.opt.cur.slackRes ∧ S'.opt.statRes = S'.opt.cur.statRes := by
  have h0 := ((C22_final_status h).2.2.1 hst).1
  unfold runSolvingLoop at h
  split_ifs at h
  obtain ⟨k, s1, hr, hd⟩ := outerLoop_done .start h
  obtain ⟨-, hc⟩ := outerPass_done hd
  have hcode : ∀ {a : PStatus}, abortCode a ≠ some .optimal := by
    intro a
    cases a <;> simp [abortCode]
  rcases hc with ⟨_, h1, _⟩ | ⟨_, h1, _⟩ | ⟨_, n, o, hps, _, ho, _, -⟩ | ⟨_, n, r, hps, _, ho, _, hst'⟩
  · rw [h1] at hst; cases hst
  · rw [h1] at hst; cases hst
  · rw [ho] at h0 ⊢
    obtain ⟨-, k2, -, k4⟩ := C102_numbers_partial (.steihaug 0 0) hps
    obtain ⟨a, b⟩ := k4 h0
    exact ⟨Option.some.inj (k2 (Or.inl h0)), Option.some.inj a, Option.some.inj b⟩
  · rw [hst] at hst'
    exact absurd hst' hcode

/-- C121 for the summary: after a run with status "optimal", the residuals printed without scaling are those of the returned solution; with scaling, the residuals described as
scaled are those of the last iterate in terms of the scaled problem, and the objective value described as original is that of the returned solution. (Missing: the
residuals described as original, see `C121_original_violated`; other statuses, see `C102_stale_violated` for the stored numbers.) -/
theorem C121_summary_partial {pO pR : Params K} {R : Rule K σ} {max : Option Nat} {enable rej : Bool} {innerFuel fuel : Nat} {env : Nat → OuterEnv K} {S S' : Solver K σ}
    (h : runSolvingLoop pO pR R max enable rej innerFuel env fuel S = .done S') (hst : S'.status = .optimal) {n m : Nat} {p : Bounds K} {it : Iterate K}
    (hnum : NumbersOf n m p it S'.opt.cur) (hobj : S'.opt.cur.objVal = it.objVal) {lsq : Bool} :
    (∃ l sol, restoreIterate some none lsq it = some sol ∧ summaryLines false n m p S'.opt sol = some l ∧ l.lookup "Objective value" = some sol.objVal ∧
      l.lookup "Feasibility residuum" = sol.feasibilityResiduum m p ∧ l.lookup "Stationarity residuum" = sol.stationarityResiduum n m ∧
      l.lookup "Complementarity residuum" = sol.slacknessResiduum p) ∧
    (∀ s po sol l, restoreIterate some (some s) lsq it = some sol → summaryLines true n m po S'.opt sol = some l →
      l.lookup "Scaled objective value" = some it.objVal ∧ l.lookup "Original objective value" = some sol.objVal ∧
      l.lookup "Scaled feasibility residuum" = it.feasibilityResiduum m p ∧ l.lookup "Scaled stationarity residuum" = it.stationarityResiduum n m ∧
      l.lookup "Scaled complementarity residuum" = it.slacknessResiduum p) := by
  obtain ⟨h1, h2, h3⟩ := run_optimal_stored h hst
  rw [hnum.feas, hnum.slack, hnum.stat, ← h1, ← h2, ← h3, ← hobj]
  refine ⟨⟨_, it, rfl, rfl, hobj ▸ rfl, hnum.feas ▸ h1 ▸ rfl, hnum.stat ▸ h3 ▸ rfl, hnum.slack ▸ h2 ▸ rfl⟩, fun s po sol l _ hl => ?_⟩
  unfold summaryLines at hl
  rw [if_pos rfl] at hl
  obtain ⟨_, -, hl⟩ := Option.bind_eq_some_iff.mp hl
  obtain ⟨_, -, hl⟩ := Option.bind_eq_some_iff.mp hl
  obtain ⟨_, -, hl⟩ := Option.bind_eq_some_iff.mp hl
  obtain rfl := Option.some.inj hl
  exact ⟨rfl, rfl, rfl, rfl, rfl⟩

/-! ### Violation: the sample of `C106_feasibility_violated` -/

/-- the iterate of the scaled problem, weight 10 for the constraint -/
def exSumIt : Iterate ℚ := exPoint 0 0 1 0 (1 / 1024) 0 (-1)
/-- the numbers at this iterate -/
def exSumPt : PointData ℚ := ⟨0, 1 / 1024, 1 / 1024, 0, 0⟩

theorem exSum_run : ∃ S', runSolvingLoop exParams exParams exDirect (some 20) true false 21 (exStill exSumPt) 10 (exAt exSumPt) = .done S' ∧
    S'.status = .optimal ∧ S'.opt.cur = exSumPt ∧ S'.opt.feasRes = 1 / 1024 := by
  obtain ⟨S', h1, h2⟩ := SOut.check_spec (o := runSolvingLoop exParams exParams exDirect (some 20) true false 21 (exStill exSumPt) 10 (exAt exSumPt))
    (f := fun S' => decide (S'.status = .optimal ∧ S'.opt.cur.objVal = 0 ∧ S'.opt.cur.totalViol = 1 / 1024 ∧ S'.opt.cur.feasRes = 1 / 1024 ∧
      S'.opt.cur.slackRes = 0 ∧ S'.opt.cur.statRes = 0 ∧ S'.opt.feasRes = 1 / 1024)) (by decide +kernel)
  obtain ⟨a, b, c, d, e, f, g⟩ := of_decide_eq_true h2
  refine ⟨S', h1, a, ?_, g⟩
  rcases hc : S'.opt.cur with ⟨c1, c2, c3, c4, c5⟩
  rw [hc] at b c d e f
  simp only at b c d e f
  subst b c d e f
  rfl

/-- The code violates C121: with scaling, the summary repeats the residuals of the scaled problem where it announces those of the user's problem, which it computes but does not
print. In the sample the "Original feasibility residuum" is printed as 1/1024, below the tolerance of 1/100, but the constraint of the user's problem is
violated by 1. -/
theorem C121_original_violated : ∃ S', runSolvingLoop exParams exParams exDirect (some 20) true false 21 (exStill exSumPt) 10 (exAt exSumPt) = .done S' ∧
    S'.status = .optimal ∧ NumbersOf 1 1 (exPScaled 0 (-10)) exSumIt S'.opt.cur ∧
    ∃ sol, restoreIterate some (some ⟨0, [0], [10]⟩) false exSumIt = some sol ∧ sol.feasibilityResiduum 1 exP = some 1 ∧
      (summaryLines true 1 1 exP S'.opt sol).map (·.lookup "Original feasibility residuum") = some (some (1 / 1024)) := by
  obtain ⟨S', h1, h2, h3, h4⟩ := exSum_run
  refine ⟨S', h1, h2, ?_, ?_⟩
  · rw [h3]
    exact ⟨by decide +kernel, by decide +kernel, by decide +kernel⟩
  · have hr : ((restoreIterate some (some ⟨0, [0], [10]⟩) false exSumIt).map fun sol => (sol.feasibilityResiduum 1 exP, (sol.slacknessResiduum exP).isSome,
        (sol.stationarityResiduum 1 1).isSome)) = some (some 1, true, true) := by decide +kernel
    obtain ⟨sol, hs, hv⟩ := Option.map_eq_some_iff.mp hr
    simp only [Prod.mk.injEq] at hv
    obtain ⟨v1, v2, v3⟩ := hv
    obtain ⟨r2, v2⟩ := Option.isSome_iff_exists.mp v2
    obtain ⟨r3, v3⟩ := Option.isSome_iff_exists.mp v3
    refine ⟨sol, hs, v1, ?_⟩
    simp only [summaryLines, if_true, v1, v2, v3, Option.bind_some, Option.map_some, h4]
    rfl

/-- the hypotheses of `C121_summary_partial` are met -/
example : ∃ S', runSolvingLoop exParams exParams exDirect (some 20) true false 21 (exStill exSumPt) 10 (exAt exSumPt) = .done S' ∧ S'.status = .optimal ∧
    NumbersOf 1 1 (exPScaled 0 (-10)) exSumIt S'.opt.cur ∧ S'.opt.cur.objVal = exSumIt.objVal := by
  obtain ⟨S', h1, h2, h3, -⟩ := exSum_run
  refine ⟨S', h1, h2, ?_, ?_⟩ <;> rw [h3]
  · exact ⟨by decide +kernel, by decide +kernel, by decide +kernel⟩
  · rfl

end Sleqp
