import Verif.Model.Penalty
import Mathlib.Tactic.Linarith
import Mathlib.Tactic.NormNum
import Mathlib.Tactic.Ring
import Mathlib.Algebra.Order.Ring.Rat
import Mathlib.Data.Rat.Cast.Order

/-! C46: penalty update. -/

namespace Sleqp
variable {K : Type*} [Field K] [LinearOrder K] [IsStrictOrderedRing K]

theorem penaltyLoop_spec (m : K) (viol : Nat → K → K) (stop : K → Bool) (fuel k : Nat) (p : K) :
    ∃ n, n ≤ fuel ∧ (0 < fuel → 0 < n) ∧ penaltyLoop m viol stop fuel k p = p * 10 ^ n ∧
      (∀ i, i + 1 < n → stop (viol (k + i) (p * 10 ^ (i + 1)) / m) = false) ∧
      (n < fuel → ∃ i, n = i + 1 ∧ stop (viol (k + i) (p * 10 ^ (i + 1)) / m) = true) := by
  induction fuel generalizing k p with
  | zero => exact ⟨0, le_rfl, fun h => h, by simp [penaltyLoop], fun i hi => absurd hi (by omega), fun h => absurd h (by omega)⟩
  | succ fuel ih =>
    unfold penaltyLoop
    by_cases h : stop (viol k (p * 10) / m) = true
    · rw [if_pos h]
      refine ⟨1, by omega, fun _ => by omega, by ring, fun i hi => absurd hi (by omega), fun _ => ⟨0, rfl, ?_⟩⟩
      simpa using h
    · rw [if_neg h]
      obtain ⟨n, h1, h2, h3, h4, h5⟩ := ih (k + 1) (p * 10)
      refine ⟨n + 1, by omega, fun _ => by omega, by rw [h3]; ring, ?_, ?_⟩
      · intro i hi
        rcases i with _ | i
        · simpa using h
        · have := h4 i (by omega)
          rw [show k + 1 + i = k + (i + 1) by omega, show p * 10 * 10 ^ (i + 1) = p * 10 ^ (i + 1 + 1) by ring] at this
          exact this
      · intro hn
        obtain ⟨i, rfl, h6⟩ := h5 (by omega)
        rw [show k + 1 + i = k + (i + 1) by omega, show p * 10 * 10 ^ (i + 1) = p * 10 ^ (i + 1 + 1) by ring] at h6
        exact ⟨i + 1, rfl, h6⟩

/-- what an update tries to achieve: a negligible average violation if that is possible at all, otherwise a tenth of the
greatest possible reduction -/
def PenaltyGoal (tol cur inf v : K) : Prop := if inf ≤ tol then v ≤ tol else 1 / 10 * (cur - inf) ≤ cur - v

/-- C46: whatever the linear programs return, an update multiplies the penalty by `10 ^ n` with `n ≤ 100`. It is unchanged if and only if
the current average violation is negligible or cannot be reduced noticeably. Otherwise the goal is missed
for all smaller increases, and reached by the new penalty unless all 100 increases were made. -/
theorem C46_update (tol : K) {m : Nat} (hm : 0 < m) (cur inf : K) (viol : Nat → K → K) (p : K) :
    ∃ n, updatePenalty tol m cur inf viol p = some (p * 10 ^ n) ∧ n ≤ 100 ∧
      (n = 0 ↔ cur / m ≤ tol ∨ (tol < inf / m ∧ cur / m - inf / m ≤ tol)) ∧
      (∀ i, i + 1 < n → ¬ PenaltyGoal tol (cur / m) (inf / m) (viol i (p * 10 ^ (i + 1)) / m)) ∧
      (0 < n → n < 100 → ∃ i, n = i + 1 ∧ PenaltyGoal tol (cur / m) (inf / m) (viol i (p * 10 ^ (i + 1)) / m)) := by
  unfold updatePenalty
  rw [if_pos hm]
  simp only []
  by_cases h1 : cur / m ≤ tol
  · rw [if_pos h1]
    exact ⟨0, by simp, by omega, by simp [h1], fun i hi => absurd hi (by omega), fun h => absurd h (by omega)⟩
  · rw [if_neg h1]
    by_cases h2 : inf / m ≤ tol
    · rw [if_pos h2]
      obtain ⟨n, n1, n2, n3, n4, n5⟩ := penaltyLoop_spec (m : K) viol (fun v => decide (v ≤ tol)) 100 0 p
      have n0 := n2 (by omega)
      refine ⟨n, by rw [n3], n1, ?_, ?_, ?_⟩
      · constructor
        · omega
        · rintro (h | h)
          · exact absurd h h1
          · exact absurd h.1 (not_lt.mpr h2)
      · intro i hi
        have := n4 i hi
        unfold PenaltyGoal
        rw [if_pos h2]
        simpa using this
      · intro _ hn
        obtain ⟨i, rfl, h6⟩ := n5 hn
        refine ⟨i, rfl, ?_⟩
        unfold PenaltyGoal
        rw [if_pos h2]
        simpa using h6
    · rw [if_neg h2]
      by_cases h3 : cur / m - inf / m ≤ tol
      · rw [if_pos h3]
        exact ⟨0, by simp, by omega, by simp [h3, not_le.mp h2], fun i hi => absurd hi (by omega), fun h => absurd h (by omega)⟩
      · rw [if_neg h3]
        obtain ⟨n, n1, n2, n3, n4, n5⟩ := penaltyLoop_spec (m : K) viol
          (fun v => decide (1 / 10 * (cur / m - inf / m) ≤ cur / m - v)) 100 0 p
        have n0 := n2 (by omega)
        refine ⟨n, by rw [n3], n1, ?_, ?_, ?_⟩
        · constructor
          · omega
          · rintro (h | h)
            · exact absurd h h1
            · exact absurd h.2 h3
        · intro i hi
          have := n4 i hi
          unfold PenaltyGoal
          rw [if_neg h2]
          simpa using this
        · intro _ hn
          obtain ⟨i, rfl, h6⟩ := n5 hn
          refine ⟨i, rfl, ?_⟩
          unfold PenaltyGoal
          rw [if_neg h2]
          simpa using h6

/-- C46: a positive penalty never decreases and grows at most by the factor `10 ^ 100`. -/
theorem C46_monotone {tol : K} {m : Nat} {cur inf : K} {viol : Nat → K → K} {p q : K} (hp : 0 < p)
    (h : updatePenalty tol m cur inf viol p = some q) : p ≤ q ∧ q ≤ p * 10 ^ 100 := by
  have hm : 0 < m := by
    by_contra hm
    unfold updatePenalty at h
    rw [if_neg hm] at h; cases h
  obtain ⟨n, h1, h2, -⟩ := C46_update tol hm cur inf viol p
  rw [h1] at h
  cases h
  have h10 : (1 : K) ≤ 10 := by norm_num
  constructor
  · exact le_mul_of_one_le_right hp.le (one_le_pow₀ h10)
  · exact mul_le_mul_of_nonneg_left (pow_le_pow_right₀ h10 h2) hp.le

/-- penalties after a sequence of updates with arbitrary results of the linear programs -/
def penaltyRun (tol : K) : K → List (Nat × K × K × (Nat → K → K)) → Option K
  | p, [] => some p
  | p, (m, cur, inf, viol) :: t => (updatePenalty tol m cur inf viol p).bind fun q => penaltyRun tol q t

/-- C46: the penalty is monotone over every sequence of updates. -/
theorem C46_run {tol p q : K} (hp : 0 < p) {l : List (Nat × K × K × (Nat → K → K))} (h : penaltyRun tol p l = some q) : p ≤ q := by
  induction l generalizing p with
  | nil => cases h; exact le_rfl
  | cons e t ih =>
    obtain ⟨m, cur, inf, viol⟩ := e
    unfold penaltyRun at h
    cases hu : updatePenalty tol m cur inf viol p with
    | none => rw [hu] at h; cases h
    | some r =>
      rw [hu] at h
      have := (C46_monotone hp hu).1
      exact le_trans this (ih (lt_of_lt_of_le hp this) h)

/-- non-vacuity: the violation 1 vanishes for penalties of at least 100 -/
example : updatePenalty (1 / 100 : ℚ) 1 1 0 (fun _ p => if p < 100 then 1 else 0) 1 = some 100 := by decide +kernel

end Sleqp
