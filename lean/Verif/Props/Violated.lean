import Verif.Model.Violated
import Verif.Props.Certificate

/-! C107: the list of violated constraints. -/

namespace Sleqp

variable {K : Type*} [Field K] [LinearOrder K] [IsStrictOrderedRing K] {σ : Type*}

/-- constraint `i` is violated by more than `eps` -/
def ViolatedBy (eps : K) (p : Bounds K) (it : Iterate K) (i : Nat) : Prop :=
  it.consVal.value i < p.consLb.value i - eps ∨ p.consUb.value i + eps < it.consVal.value i

/-- C107 in one direction: every constraint violated by more than the tolerance is listed, the list
is increasing and fits into an array with one place per constraint, and every listed constraint is
violated, by however little.  Missing: constraints violated by less than the tolerance are
listed as well, see `C107_tolerance_violated`. -/
theorem C107_listed_partial {n m : Nat} {p : Bounds K} {it : Iterate K} (h : it.Fits n m p) {feasTol : K}
    (htol : 0 ≤ feasTol) :
    (solverViolated feasTol p it).Pairwise (· < ·) ∧ (solverViolated feasTol p it).length ≤ m ∧
    (∀ i < m, ViolatedBy feasTol p it i → i ∈ solverViolated feasTol p it) ∧
    ∀ i ∈ solverViolated feasTol p it, i < m ∧ ViolatedBy 0 p it i := by
  obtain ⟨h1, h2, h3⟩ := C12_violated_constraints h.cons
  refine ⟨h1, h2, ?_, ?_⟩
  · intro i hi hv
    refine (h3 i).mpr ⟨hi, ?_⟩
    rcases hv with hv | hv
    · left; linarith
    · right; linarith
  · intro i hi
    obtain ⟨k1, k2⟩ := (h3 i).mp hi
    refine ⟨k1, ?_⟩
    unfold ViolatedBy
    rwa [sub_zero, add_zero]

/-- C107 for the tolerance 0. -/
theorem C107_exact_partial {n m : Nat} {p : Bounds K} {it : Iterate K} (h : it.Fits n m p) (i : Nat) :
    i ∈ solverViolated 0 p it ↔ i < m ∧ ViolatedBy 0 p it i := by
  obtain ⟨-, -, h3, h4⟩ := C107_listed_partial h (le_refl (0 : K))
  exact ⟨h4 i, fun hi => h3 i hi.1 hi.2⟩

/-- If the list is empty, the point is feasible, for every tolerance. -/
theorem C107_empty_partial {n m : Nat} {p : Bounds K} {it : Iterate K} (h : it.Fits n m p) {feasTol : K}
    (he : solverViolated feasTol p it = []) :
    ∀ i < m, p.consLb.value i ≤ it.consVal.value i ∧ it.consVal.value i ≤ p.consUb.value i := by
  intro i hi
  have h3 := (C12_violated_constraints h.cons).2.2 i
  unfold solverViolated Iterate.violated at he
  rw [he] at h3
  have hn : ¬ (it.consVal.value i < p.consLb.value i ∨ p.consUb.value i < it.consVal.value i) :=
    fun hv => List.not_mem_nil (h3.mpr ⟨hi, hv⟩)
  exact ⟨not_lt.mp fun hv => hn (.inl hv), not_lt.mp fun hv => hn (.inr hv)⟩

/-- `min x` with `0 ≤ x ≤ 5` and `1 ≤ x ≤ 100` at `x = 199/200`, with the multiplier -1 for the constraint -/
def exNear : Iterate ℚ := exPoint (199/200) (199/200) 1 (199/200) 1 (-1) 0

/-- C107 violated by the code: for the problem `min x`, `0 ≤ x ≤ 5`, `1 ≤ x ≤ 100` the solver reports
`x = 199/200` as optimal, hence feasible, with the tolerance 1/100.  For this point the list of
violated constraints consists of the constraint, which is violated by 1/200 only. -/
theorem C107_tolerance_violated : ∃ S S' env,
    runSolvingLoop exParams exParams exDirect (some 20) true false 21 env 10 S = .done S' ∧ S'.status = .optimal ∧
    NumbersOf 1 1 exP exNear S'.opt.cur ∧ exParams.feasTol = 1/100 ∧
    solverViolated exParams.feasTol exP exNear = [0] ∧ ¬ ViolatedBy exParams.feasTol exP exNear 0 := by
  obtain ⟨S', r1, r2, r3, r4, r5⟩ := exStill_run (d := ⟨199/200, 1/200, 1/200, 0, 0⟩) (by decide +kernel)
  refine ⟨_, S', _, r1, r2, ⟨?_, ?_, ?_⟩, rfl, by decide +kernel, by unfold ViolatedBy; decide +kernel⟩
  · rw [r3]; decide +kernel
  · rw [r4]; decide +kernel
  · rw [r5]; decide +kernel

/-- the hypotheses are met by a point with a violation larger than the tolerance -/
example : (exPoint 0 0 1 0 1 0 (-1)).Fits 1 1 (exPScaled 0 0) ∧
    ViolatedBy (1/100) (exPScaled 0 0) (exPoint 0 0 1 0 1 0 (-1)) 0 ∧
    solverViolated (1/100) (exPScaled 0 0) (exPoint 0 0 1 0 1 0 (-1)) = [0] :=
  ⟨exPoint_fits .., by unfold ViolatedBy; decide +kernel, by decide +kernel⟩

end Sleqp
