import Verif.Model.StartWarn
import Verif.Props.Feas
import Mathlib.Algebra.Order.Ring.Rat

/-! C133: warnings at the start of a solve. -/

namespace Sleqp
open Finset

/-- the function of the problem which is solved has an inexact Hessian exactly if a quasi-Newton method is used or the user's function is a
least-squares function -/
theorem WarnSetup.solved_inexact (S : WarnSetup) : S.solved.1.has FuncFlags.INEXACT = true ↔ S.quasiNewton.isSome = true ∨ S.type = .lsq := by
  obtain ⟨t, a, q, b⟩ := S
  rcases q with _ | q
  · cases t <;> cases a <;> cases b <;> decide
  · cases t <;> cases a <;> cases q <;> cases b <;> decide

theorem WarnSetup.solved_dynamic (S : WarnSetup) : S.solved.2 = .dynamic ↔ S.quasiNewton = none ∧ S.type = .dynamic := by
  obtain ⟨t, a, q, b⟩ := S
  rcases q with _ | q
  · cases t <;> cases a <;> cases b <;> decide
  · cases t <;> cases a <;> cases q <;> cases b <;> decide

section
variable {K : Type*} [Field K] [LinearOrder K] [IsStrictOrderedRing K]

/-- C133 (partial): for every kind of function, scaling, quasi-Newton method, preprocessing, choice of derivatives to be checked, and starting point,
the warnings come without a failed assertion and none is printed twice.  The one about scaling appears exactly if the sum of the constraint violations
exceeds ten times the magnitude of the objective, so never at feasible points, and at all infeasible points with objective 0.  The one about
quasi-Newton methods appears exactly if second derivatives are checked and either such a method is used or the function is a least-squares function, so that
without it the second derivatives which are checked are those of the user.  The one about dynamic functions appears exactly if first derivatives are
checked and the user's function is dynamic, unless a quasi-Newton method is used.  Missing: functions with flags set by the user; least-squares functions use no quasi-Newton method
(`C133_lsq_violated`), and there is no warning about dynamic functions with quasi-Newton methods (`C133_dynamic_violated`). -/
theorem C133_warnings_partial (S : WarnSetup) (fl : DcFlags) {m : Nat} {c lb ub : Vec K} (h : Boxed m c lb ub) (obj : K) :
    ∃ ws, printWarning fl S.solved m c lb ub obj = some ws ∧ ws.Nodup ∧
      (StartWarning.scale ∈ ws ↔ 10 * |obj| < ∑ i ∈ range m, max (max (lb.value i - c.value i) (c.value i - ub.value i)) 0) ∧
      (StartWarning.quasiNewton ∈ ws ↔ (fl.secondObj = true ∨ fl.secondCons = true ∨ fl.secondSimple = true) ∧
        (S.quasiNewton.isSome = true ∨ S.type = .lsq)) ∧
      (StartWarning.dynamic ∈ ws ↔ (fl.firstObj = true ∨ fl.firstCons = true) ∧ S.quasiNewton = none ∧ S.type = .dynamic) ∧
      ((∀ i < m, lb.value i ≤ c.value i ∧ c.value i ≤ ub.value i) → StartWarning.scale ∉ ws) ∧
      (obj = 0 → (∃ i < m, c.value i < lb.value i ∨ ub.value i < c.value i) → StartWarning.scale ∈ ws) := by
  have hv := C12_total_violation h
  unfold printWarning
  rw [hv]
  refine ⟨_, rfl, ?_⟩
  dsimp only
  have e1 : ∀ b : Bool, (b && S.solved.1.has FuncFlags.INEXACT) = true ↔ b = true ∧ (S.quasiNewton.isSome = true ∨ S.type = .lsq) := fun b => by
    rw [Bool.and_eq_true, S.solved_inexact]
  have e2 : ∀ b : Bool, (decide (S.solved.2 = .dynamic) && b) = true ↔ b = true ∧ S.quasiNewton = none ∧ S.type = .dynamic := fun b => by
    rw [Bool.and_eq_true, decide_eq_true_iff, S.solved_dynamic, and_comm]
  obtain ⟨A, hA⟩ : ∃ A, A = ((fl.secondObj || fl.secondCons || fl.secondSimple) && S.solved.1.has FuncFlags.INEXACT) := ⟨_, rfl⟩
  obtain ⟨B, hB⟩ : ∃ B, B = (decide (S.solved.2 = .dynamic) && (fl.firstObj || fl.firstCons)) := ⟨_, rfl⟩
  rw [← hA, ← hB]
  have hs : ∀ p : Prop, [Decidable p] → (StartWarning.scale ∈ ((if A = true then [StartWarning.quasiNewton] else []) ++
      if B = true then [StartWarning.dynamic] else []) ++ if p then [StartWarning.scale] else []) ↔ p := fun p _ => by
    cases A <;> cases B <;> by_cases hp : p <;> simp [hp]
  have hq : ∀ p : Prop, [Decidable p] → (StartWarning.quasiNewton ∈ ((if A = true then [StartWarning.quasiNewton] else []) ++
      if B = true then [StartWarning.dynamic] else []) ++ if p then [StartWarning.scale] else []) ↔ A = true := fun p _ => by
    cases A <;> cases B <;> by_cases hp : p <;> simp [hp]
  have hd : ∀ p : Prop, [Decidable p] → (StartWarning.dynamic ∈ ((if A = true then [StartWarning.quasiNewton] else []) ++
      if B = true then [StartWarning.dynamic] else []) ++ if p then [StartWarning.scale] else []) ↔ B = true := fun p _ => by
    cases A <;> cases B <;> by_cases hp : p <;> simp [hp]
  have hn : ∀ p : Prop, [Decidable p] → (((if A = true then [StartWarning.quasiNewton] else []) ++
      if B = true then [StartWarning.dynamic] else []) ++ if p then [StartWarning.scale] else []).Nodup := fun p _ => by
    cases A <;> cases B <;> by_cases hp : p <;> simp [hp]
  refine ⟨hn _, hs _, ?_, ?_, fun hf => ?_, fun h0 hi => ?_⟩
  · have a : A = true ↔ (fl.secondObj = true ∨ fl.secondCons = true ∨ fl.secondSimple = true) ∧ (S.quasiNewton.isSome = true ∨ S.type = .lsq) := by
      rw [hA, e1]; simp [or_assoc]
    rw [← a, hq]
  · have b : B = true ↔ (fl.firstObj = true ∨ fl.firstCons = true) ∧ S.quasiNewton = none ∧ S.type = .dynamic := by
      rw [hB, e2]; simp
    rw [← b, hd]
  · rw [hs]
    have h1 := (C12_total_zero_iff h).mpr hf
    rw [hv, Option.some_inj] at h1
    rw [h1, not_lt]
    exact mul_nonneg (by norm_num) (abs_nonneg _)
  · rw [hs, h0, abs_zero, mul_zero]
    refine lt_of_le_of_ne (Finset.sum_nonneg fun i _ => le_max_right _ _) fun h1 => ?_
    have h2 := (C12_total_zero_iff h).mp (by rw [hv, ← h1])
    obtain ⟨i, hi, h3⟩ := hi
    rcases h3 with h3 | h3
    · exact absurd (h2 i hi).1 (not_le.mpr h3)
    · exact absurd (h2 i hi).2 (not_le.mpr h3)

end

/-- **C133 violated (least squares)**: for a least-squares function, second derivatives being checked, the warning states that a quasi-Newton method is
used, with and without scaling and preprocessing, though none is (problem_solver/solve.c:33-44: the flag looked at is also that of Gauss-Newton
matrices, lsq.c:362-363). -/
theorem C133_lsq_violated (scaling fixing : Bool) :
    printWarning ⟨false, false, true, false, false⟩ (WarnSetup.mk .lsq scaling none fixing).solved 0 (⟨0, 0, []⟩ : Vec ℚ) ⟨0, 0, []⟩ ⟨0, 0, []⟩ 1 =
      some [StartWarning.quasiNewton] := by
  cases scaling <;> cases fixing <;> decide +kernel

/-- **C133 violated (dynamic functions)**: if a quasi-Newton method is used, there is no warning about the check of first derivatives of a dynamic
function, whose differences are dominated by the errors of its values: the function made for the method is a regular one
(quasi_newton/quasi_newton.c:84-109), so that the type of the user's function is not known any more (problem_solver/solve.c:23, 46). -/
theorem C133_dynamic_violated (scaling fixing bfgs : Bool) :
    printWarning ⟨true, true, false, false, false⟩ (WarnSetup.mk .dynamic scaling (some bfgs) fixing).solved 0 (⟨0, 0, []⟩ : Vec ℚ) ⟨0, 0, []⟩
      ⟨0, 0, []⟩ 1 = some [] ∧
    printWarning ⟨true, true, false, false, false⟩ (WarnSetup.mk .dynamic scaling none fixing).solved 0 (⟨0, 0, []⟩ : Vec ℚ) ⟨0, 0, []⟩
      ⟨0, 0, []⟩ 1 = some [StartWarning.dynamic] := by
  cases scaling <;> cases fixing <;> cases bfgs <;> decide +kernel

theorem exWarnBoxed : Boxed 1 (⟨1, 1, []⟩ : Vec ℚ) ⟨1, 1, [(0, 3)]⟩ ⟨1, 1, [(0, 4)]⟩ where
  wc := ⟨by simp [Srt], by simp, by simp⟩
  wl := ⟨by simp [Srt], by simp, by simp⟩
  wu := ⟨by simp [Srt], by simp, by simp⟩
  dc := rfl
  dl := rfl
  du := rfl
  le := by decide +kernel

/-- a point violating the constraint `3 ≤ c ≤ 4` by 3, with objective 1/4: badly scaled, and all derivatives of a BFGS function checked -/
example : ∃ ws, printWarning ⟨true, true, true, true, true⟩ (WarnSetup.mk .regular true (some true) true).solved 1
      (⟨1, 1, []⟩ : Vec ℚ) ⟨1, 1, [(0, 3)]⟩ ⟨1, 1, [(0, 4)]⟩ (1 / 4) = some ws ∧
    StartWarning.scale ∈ ws ∧ StartWarning.quasiNewton ∈ ws ∧ StartWarning.dynamic ∉ ws := by
  obtain ⟨ws, h1, -, h2, h3, h4, -⟩ := C133_warnings_partial (WarnSetup.mk .regular true (some true) true) ⟨true, true, true, true, true⟩
    (m := 1) (c := (⟨1, 1, []⟩ : Vec ℚ)) (lb := ⟨1, 1, [(0, 3)]⟩) (ub := ⟨1, 1, [(0, 4)]⟩)
    exWarnBoxed (1 / 4)
  exact ⟨ws, h1, h2.mpr (by decide +kernel), h3.mpr ⟨Or.inl rfl, Or.inl rfl⟩, fun h => by simpa using h4.mp h⟩

end Sleqp
