import Verif.Model.Cmp
import Mathlib.Tactic.Linarith
import Mathlib.Tactic.Ring
import Mathlib.Tactic.FieldSimp
import Mathlib.Tactic.NormNum

/-! C01: tolerance comparisons are consistent. -/

namespace Sleqp

variable {K : Type*} [Field K] [LinearOrder K] [IsStrictOrderedRing K]

private lemma scale_pos (x y : K) : (0 : K) < max (max |x| |y|) 1 :=
  lt_of_lt_of_le one_pos (le_max_right _ _)

theorem relDiff_swap (x y : K) : relDiff y x = -relDiff x y := by
  unfold relDiff
  rw [max_comm |y| |x|, ← neg_sub x y, neg_div]

/-- Exactly one of less / equal / greater holds, for every tolerance `≥ 0`. -/
theorem C01_trichotomy (x y eps : K) (h : 0 ≤ eps) :
    (isLt x y eps = true ∧ isEq x y eps = false ∧ isGt x y eps = false) ∨
    (isLt x y eps = false ∧ isEq x y eps = true ∧ isGt x y eps = false) ∨
    (isLt x y eps = false ∧ isEq x y eps = false ∧ isGt x y eps = true) := by
  simp only [isLt, isEq, isGt, decide_eq_true_eq, decide_eq_false_iff_not, abs_le]
  rcases lt_trichotomy (relDiff x y) (-eps) with h1 | h1 | h1
  · left; refine ⟨h1, fun h2 => absurd h2.1 (not_le.mpr h1), by linarith⟩
  · right; left; refine ⟨by linarith, ⟨by linarith, by linarith⟩, by linarith⟩
  · rcases le_or_gt (relDiff x y) eps with h2 | h2
    · right; left; exact ⟨by linarith, ⟨le_of_lt h1, h2⟩, by linarith⟩
    · right; right; refine ⟨by linarith, fun h3 => absurd h3.2 (not_le.mpr h2), h2⟩

/-- Equality is reflexive and symmetric; the orders are mirror images. -/
theorem C01_symmetry (x y eps : K) (h : 0 ≤ eps) :
    isEq x x eps = true ∧ isEq x y eps = isEq y x eps ∧
    isLt x y eps = isGt y x eps ∧ isLeq x y eps = isGeq y x eps := by
  refine ⟨?_, ?_, ?_, ?_⟩
  · simp [isEq, relDiff, h]
  · unfold isEq; rw [relDiff_swap x y, abs_neg]
  · unfold isLt isGt; rw [relDiff_swap x y]; congr 1; apply propext; constructor <;> intro h' <;> linarith
  · unfold isLeq isGeq; rw [relDiff_swap x y]; congr 1; apply propext; constructor <;> intro h' <;> linarith

/-- `leq` is `not gt`, `geq` is `not lt`, and `eq` is `leq` and `geq`. -/
theorem C01_negations (x y eps : K) :
    isLeq x y eps = !isGt x y eps ∧ isGeq x y eps = !isLt x y eps ∧
    isEq x y eps = (isLeq x y eps && isGeq x y eps) := by
  refine ⟨?_, ?_, ?_⟩
  · unfold isLeq isGt; rw [← decide_not]; congr 1; simp
  · unfold isGeq isLt; rw [← decide_not]; congr 1; simp
  · unfold isEq isLeq isGeq; rw [← Bool.decide_and]; congr 1; rw [abs_le]; apply propext; tauto

/-- The sign predicates agree with comparison against `0` for `0 ≤ eps < 1`
(the claim made in the comment cmp.c:73-76). -/
theorem C01_sign (x eps : K) (h0 : 0 ≤ eps) (h1 : eps < 1) :
    isNeg x eps = isLt x 0 eps ∧ isPos x eps = isGt x 0 eps ∧ isZero x eps = isEq x 0 eps := by
  have key : relDiff x 0 = x / max |x| 1 := by
    unfold relDiff; simp [abs_nonneg]
  have hN : isNeg x eps = isLt x 0 eps := by
    unfold isNeg isLt; rw [key]; congr 1
    rcases le_or_gt |x| 1 with h | h
    · rw [max_eq_right h, div_one]
    · rw [max_eq_left h.le]
      rcases le_or_gt 0 x with hx | hx
      · rw [abs_of_nonneg hx, div_self (by rintro rfl; simp at h; linarith)]
        apply propext; constructor <;> intro <;> linarith
      · rw [abs_of_neg hx] at h ⊢
        rw [div_neg, div_self hx.ne]
        apply propext; constructor <;> intro <;> linarith
  have hP : isPos x eps = isGt x 0 eps := by
    unfold isPos isGt; rw [key]; congr 1
    rcases le_or_gt |x| 1 with h | h
    · rw [max_eq_right h, div_one]
    · rw [max_eq_left h.le]
      rcases le_or_gt 0 x with hx | hx
      · rw [abs_of_nonneg hx] at h ⊢
        rw [div_self (by rintro rfl; linarith)]
        apply propext; constructor <;> intro <;> linarith
      · rw [abs_of_neg hx] at h ⊢
        rw [div_neg, div_self hx.ne]
        apply propext; constructor <;> intro <;> linarith
  refine ⟨hN, hP, ?_⟩
  have e1 : isZero x eps = (!isNeg x eps && !isPos x eps) := by
    unfold isZero isNeg isPos
    rw [← decide_not, ← decide_not, ← Bool.decide_and]; congr 1
    rw [abs_le]; simp
  have e2 : isEq x 0 eps = (!isLt x 0 eps && !isGt x 0 eps) := by
    rw [(C01_negations x 0 eps).2.2, (C01_negations x 0 eps).1, (C01_negations x 0 eps).2.1,
      Bool.and_comm]
  rw [e1, e2, hN, hP]

/-- With tolerance `0` the predicates are the exact order. -/
theorem C01_exact (x y : K) :
    (isLt x y 0 = true ↔ x < y) ∧ (isEq x y 0 = true ↔ x = y) ∧ (isGt x y 0 = true ↔ y < x) := by
  have hs := scale_pos x y
  simp only [isLt, isEq, isGt, decide_eq_true_eq, neg_zero, relDiff, abs_nonpos_iff, gt_iff_lt]
  refine ⟨?_, ?_, ?_⟩
  · rw [div_neg_iff]; constructor
    · rintro (h | h) <;> linarith
    · intro h; right; constructor <;> linarith
  · rw [div_eq_zero_iff, sub_eq_zero]; constructor
    · rintro (h | h); exacts [h, absurd h hs.ne']
    · intro h; left; exact h
  · rw [div_pos_iff]; constructor
    · rintro (h | h) <;> linarith
    · intro h; left; constructor <;> linarith

/-- For `eps ≥ 1` the sign predicates disagree with comparison against `0`:
the restriction `eps < 1` in `C01_sign` is needed. -/
theorem C01_sign_needs_small_eps : isNeg (-2 : ℚ) 1 = true ∧ isLt (-2 : ℚ) 0 1 = false := by
  constructor <;> simp [isNeg, isLt, relDiff] <;> norm_num

-- non-vacuity: all three outcomes of the trichotomy occur
example : isLt (1 : ℚ) 2 (1/10) = true := by simp [isLt, relDiff]; norm_num
example : isEq (100 : ℚ) 101 (1/10) = true := by
  simp [isEq, relDiff]; norm_num [abs_of_pos, abs_div]
example : isGt (3 : ℚ) 2 (1/10) = true := by simp [isGt, relDiff]; norm_num [abs_of_pos]
example : (0 : ℚ) ≤ 1/10 ∧ (1/10 : ℚ) < 1 := by norm_num

/-- C01: with the library's infinity value `inf > 0`, a value is finite exactly if its
magnitude is below half of it; in particular `±inf` are infinite, everything of magnitude
at most `inf / 3` is finite, and the test is symmetric in the sign. -/
theorem C01_infinite (inf v : K) (h : 0 < inf) :
    (isFinite inf v = true ↔ |v| < inf / 2) ∧ isFinite inf inf = false ∧ isFinite inf (-inf) = false ∧
      isInfinite inf inf = true ∧ isInfinite inf (-inf) = false ∧ isFinite inf (-v) = isFinite inf v ∧
      (isInfinite inf v = true → isFinite inf v = false) ∧
      (|v| ≤ inf / 3 → isFinite inf v = true ∧ isInfinite inf v = false) := by
  unfold isFinite isInfinite
  refine ⟨by simp, ?_, ?_, ?_, ?_, by rw [abs_neg], ?_, ?_⟩
  · simp only [Bool.not_eq_false', decide_eq_true_eq, abs_of_pos h]; linarith
  · simp only [Bool.not_eq_false', decide_eq_true_eq, abs_neg, abs_of_pos h]; linarith
  · simp only [decide_eq_true_eq]; linarith
  · simp only [decide_eq_false_iff_not, not_le]; linarith
  · intro hv
    simp only [Bool.not_eq_false', decide_eq_true_eq] at hv ⊢
    exact le_trans hv (le_abs_self v)
  · intro hv
    simp only [Bool.not_eq_true', decide_eq_false_iff_not, not_le]
    have := le_abs_self v
    constructor <;> linarith

end Sleqp
