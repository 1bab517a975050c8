import Verif.Model.Iteration
import Verif.Lemmas.VecNum
import Mathlib.Tactic.NormNum
import Mathlib.Tactic.Linarith
import Mathlib.Algebra.Order.Archimedean.Basic

/-! C19: trust radii. -/

namespace Sleqp

variable {K : Type*} [Field K] [LinearOrder K] [IsStrictOrderedRing K]

/-- What one iteration feeds into the two radius updates. -/
structure RadiusEvent (K : Type*) where
  ratio : K
  accepted : Bool
  fullCauchy : Bool
  norm : K
  trialInf : K
  cauchyInf : K

/-- Both updates (EQP radius, LP radius) along a history of iterations. -/
def radiiAfter (eps : K) : List (RadiusEvent K) → K × K → K × K
  | [], r => r
  | e :: l, r =>
    radiiAfter eps l (updateTrustRadius eps e.ratio e.accepted e.norm r.1,
      updateLpTrustRadius e.accepted e.trialInf e.cauchyInf e.fullCauchy r.2)

theorem updateLp_pos {a full : Bool} {t c r : K} (hr : 0 < r) :
    0 < updateLpTrustRadius a t c full r := by
  have h : (0 : K) < (1 / 10) * r := by linarith
  unfold updateLpTrustRadius
  split_ifs
  · exact lt_min (lt_of_lt_of_le h (le_max_right _ _)) (by linarith)
  · exact lt_min (lt_of_lt_of_le h (le_max_right _ _)) hr
  · exact lt_min (lt_of_lt_of_le h (le_max_right _ _)) hr

theorem updateTrust_pos {eps ratio n r : K} {a : Bool} (he : 0 ≤ eps) (hr : 0 < r) (hn : 0 ≤ n) :
    0 < updateTrustRadius eps ratio a n r := by
  unfold updateTrustRadius
  split_ifs with h1 h2 h3 h4
  · exact lt_max_of_lt_left hr
  · exact lt_max_of_lt_left hr
  · exact hr
  · linarith
  · have : eps < n := by
      rw [isZero_iff, abs_of_nonneg hn] at h4
      exact not_le.mp h4
    exact lt_min (by linarith) (by linarith)

/-- Both radii stay strictly positive along every history. -/
theorem C19_radii_positive {eps : K} (he : 0 ≤ eps) (l : List (RadiusEvent K))
    (hl : ∀ e ∈ l, 0 ≤ e.norm) {r : K × K} (h1 : 0 < r.1) (h2 : 0 < r.2) :
    0 < (radiiAfter eps l r).1 ∧ 0 < (radiiAfter eps l r).2 := by
  induction l generalizing r with
  | nil => exact ⟨h1, h2⟩
  | cons e l ih =>
    exact ih (fun e' he' => hl e' (List.mem_cons_of_mem _ he'))
      (updateTrust_pos he h1 (hl e List.mem_cons_self)) (updateLp_pos h2)

/-- The LP radius never grows on rejection, never by more than a factor 7 on
acceptance (not at all unless the full Cauchy step was taken), and never shrinks
by more than a factor 10. -/
theorem C19_lp_radius_change {t c r : K} {full : Bool} (hr : 0 < r) :
    updateLpTrustRadius false t c full r ≤ r ∧
    updateLpTrustRadius true t c full r ≤ 7 * r ∧
    (full = false → updateLpTrustRadius true t c full r ≤ r) ∧
    ∀ a, r / 10 ≤ updateLpTrustRadius a t c full r := by
  unfold updateLpTrustRadius
  refine ⟨by simp, ?_, ?_, ?_⟩
  · rw [if_pos rfl]
    refine le_trans (min_le_right _ _) ?_
    split_ifs <;> linarith
  · intro hf
    subst hf
    rw [if_pos rfl]
    exact min_le_right _ _
  · intro a
    have h : r / 10 = (1 / 10) * r := by ring
    split_ifs
    · exact le_min (h ▸ le_max_right _ _) (by linarith)
    · exact le_min (h ▸ le_max_right _ _) (by linarith)
    · exact le_min (h ▸ le_max_right _ _) (by linarith)

/-- On rejection the LP radius becomes at most the larger of half the step and a
tenth of the radius. -/
theorem C19_lp_radius_rejected {t c r : K} {full : Bool} :
    updateLpTrustRadius false t c full r ≤ max (t / 2) (r / 10) := by
  unfold updateLpTrustRadius
  rw [if_neg (by simp)]
  refine le_trans (min_le_left _ _) ?_
  apply max_le_max <;> (apply le_of_eq; ring)

/-- An accepted step never shrinks the EQP radius. -/
theorem C19_accept_never_shrinks {eps ratio n r : K} :
    r ≤ updateTrustRadius eps ratio true n r := by
  unfold updateTrustRadius
  split_ifs
  · exact le_max_left _ _
  · exact le_max_left _ _
  · exact le_rfl
  all_goals simp_all

/-- A rejected step with ratio below 0.3 at least halves the EQP radius, and makes
it at most half the step when that is not tiny. -/
theorem C19_reject_halves {eps ratio n r : K} (h : ratio < 3 / 10) :
    updateTrustRadius eps ratio false n r ≤ r / 2 ∧
    (eps < |n| → updateTrustRadius eps ratio false n r ≤ n / 2) := by
  have h9 : ¬ ratio ≥ 9 / 10 := by
    intro h'
    have : (3 : K) / 10 < 9 / 10 := by norm_num
    exact absurd (lt_of_lt_of_le this h') (not_lt.mpr h.le)
  unfold updateTrustRadius
  rw [if_neg h9, if_neg (not_le.mpr h), if_neg (by simp)]
  constructor
  · split_ifs
    · apply le_of_eq; ring
    · refine le_trans (min_le_left _ _) ?_
      apply le_of_eq; ring
  · intro hn
    rw [if_neg (by rw [isZero_iff]; exact not_le.mpr hn)]
    refine le_trans (min_le_right _ _) ?_
    apply le_of_eq; ring

/-- After `n` consecutive rejections (ratio below 0.3) the EQP radius is at most
`r / 2^n`. -/
theorem C19_rejections_geometric {eps : K} (l : List (RadiusEvent K))
    (hl : ∀ e ∈ l, e.accepted = false ∧ e.ratio < 3 / 10) {r : K × K} :
    (radiiAfter eps l r).1 ≤ r.1 / 2 ^ l.length := by
  induction l generalizing r with
  | nil => simp [radiiAfter]
  | cons e l ih =>
    have h1 := hl e List.mem_cons_self
    refine le_trans (ih (fun e' he' => hl e' (List.mem_cons_of_mem _ he'))) ?_
    rw [List.length_cons, pow_succ', ← div_div]
    apply div_le_div_of_nonneg_right _ (by positivity)
    show updateTrustRadius eps e.ratio e.accepted e.norm r.1 ≤ r.1 / 2
    rw [h1.1]
    exact (C19_reject_halves h1.2).1

/-- Hence finitely many consecutive rejections bring it below any positive bound. -/
theorem C19_rejections_reach_deadpoint [Archimedean K] {eps dead r : K} (hd : 0 < dead) :
    ∃ N, ∀ (l : List (RadiusEvent K)) (lp : K), N ≤ l.length →
      (∀ e ∈ l, e.accepted = false ∧ e.ratio < 3 / 10) → (radiiAfter eps l (r, lp)).1 ≤ dead := by
  obtain ⟨N, hN⟩ := pow_unbounded_of_one_lt (|r| / dead) (one_lt_two : (1 : K) < 2)
  refine ⟨N, ?_⟩
  intro l lp hl hrej
  refine le_trans (C19_rejections_geometric l hrej) ?_
  have h2 : (0 : K) < 2 ^ l.length := by positivity
  rw [div_le_iff₀ h2]
  have h3 : (2 : K) ^ N ≤ 2 ^ l.length := pow_le_pow_right₀ one_le_two hl
  rw [div_lt_iff₀ hd] at hN
  have := le_abs_self r
  have := mul_le_mul_of_nonneg_right h3 hd.le
  show r ≤ dead * 2 ^ l.length
  linarith [mul_comm dead ((2 : K) ^ l.length)]

/-- A rejection with a large ratio (possible when the required reduction exceeds
0.3) enlarges the EQP radius. -/
theorem C19_reject_enlarges_violated :
    ∃ eps ratio n r : ℚ, 0 ≤ eps ∧ 0 < r ∧ 0 ≤ n ∧
      updateTrustRadius eps ratio false n r > r := by
  refine ⟨1/1000, 9/10, 1, 1, by norm_num, by norm_num, by norm_num, ?_⟩
  norm_num [updateTrustRadius]

/-- non-vacuity -/
example : radiiAfter (1/1000 : ℚ) [⟨-1, false, false, 1, 1, 1⟩, ⟨1, true, true, 1/2, 1/2, 1/4⟩] (2, 1) =
    (7/2, 3/5) := by
  norm_num [radiiAfter, updateTrustRadius, updateLpTrustRadius, isZero]

/-! Initial radii (part of C54). -/

/-- With at least one variable (`sqrt(num_vars) ≥ 1`) both initial radii are positive
and the LP radius is smaller; with no variables creation fails. -/
theorem C54_initial_radii {sqrtN : K} (h : 1 ≤ sqrtN) (choice : InitialTr) :
    ∃ r, initialTrustRadius choice sqrtN = some r ∧ 0 < r.2 ∧ r.2 < r.1 := by
  have h8 : (8 / 10 : K) < 1 := by norm_num
  have hs : 0 < sqrtN := lt_of_lt_of_le one_pos h
  cases choice with
  | wide =>
    refine ⟨(sqrtN, 8 / 10), ?_, by norm_num, lt_of_lt_of_le h8 h⟩
    unfold initialTrustRadius
    rw [if_pos (lt_of_lt_of_le h8 h)]
  | narrow =>
    have hlt : (8 / 10) * 1 / sqrtN < 1 := by
      rw [div_lt_one hs]; linarith
    refine ⟨(1, (8 / 10) * 1 / sqrtN), ?_, by positivity, hlt⟩
    unfold initialTrustRadius cdiv
    simp only [if_neg hs.ne', Option.bind_some, if_pos hlt]

/-- Without variables (`sqrt(num_vars) = 0`) the code fails: an assert or a division by zero. -/
theorem C54_no_variables_violated (choice : InitialTr) :
    initialTrustRadius choice (0 : K) = none := by
  cases choice with
  | wide =>
    unfold initialTrustRadius
    rw [if_neg (by norm_num)]
  | narrow => simp [initialTrustRadius, cdiv]

example : ∃ r, initialTrustRadius .narrow (2 : ℚ) = some r ∧ 0 < r.2 ∧ r.2 < r.1 :=
  C54_initial_radii (by norm_num) _

end Sleqp
