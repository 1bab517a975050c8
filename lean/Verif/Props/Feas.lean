import Verif.Lemmas.Feas
import Verif.Lemmas.MatNum
import Mathlib.Algebra.Order.BigOperators.Group.Finset
import Mathlib.Algebra.Order.BigOperators.Ring.Finset
import Mathlib.Algebra.BigOperators.Ring.Finset
import Mathlib.Tactic.NormNum
import Mathlib.Tactic.IntervalCases

/-!
C12 (feasibility residual), C13 (multipliers of violated constraints),
C14 (optimality test), C15 (complementarity residual).

`viol c lb ub` (Spec) is the distance of `c` from `[lb, ub]`;
`v.value i` is the `i`-th coordinate of a sparse vector.
-/

namespace Sleqp

open Finset

variable {K : Type*} [Field K] [LinearOrder K] [IsStrictOrderedRing K]

/-- bounds and values of matching dimension with `lb ≤ ub` -/
structure Boxed (n : Nat) (c lb ub : Vec K) : Prop where
  wc : c.WF
  wl : lb.WF
  wu : ub.WF
  dc : c.dim = n
  dl : lb.dim = n
  du : ub.dim = n
  le : ∀ i < n, lb.value i ≤ ub.value i

omit [IsStrictOrderedRing K] in
theorem Boxed.le' {n : Nat} {c lb ub : Vec K} (h : Boxed n c lb ub) (i : Nat) :
    lb.value i ≤ ub.value i := by
  by_cases hi : i < n
  · exact h.le i hi
  · unfold Vec.value
    rw [valAt_of_ge h.wl.lt_dim (by rw [h.dl]; omega), valAt_of_ge h.wu.lt_dim (by rw [h.du]; omega)]

/-! ### C12 -/

/-- The feasibility residual is the largest distance of any constraint value
from its interval. -/
theorem C12_max_violation {n : Nat} {c lb ub : Vec K} (h : Boxed n c lb ub) :
    ∃ m, maxViolation n c lb ub = some m ∧
      IsMaxZero m n (fun i => viol (c.value i) (lb.value i) (ub.value i)) := by
  unfold maxViolation
  rw [if_pos ⟨h.dc, h.dc.trans h.dl.symm, h.dc.trans h.du.symm⟩]
  refine ⟨_, rfl, ?_⟩
  have hm := merge3_max (K := K) (fun a b c => orZero (violAmount a b c))
    (by rw [orZero_violAmount le_rfl, viol_zero]) h.wc.srt h.wl.srt h.wu.srt (n := n)
    (h.dc ▸ h.wc.lt_dim) (h.dl ▸ h.wl.lt_dim) (h.du ▸ h.wu.lt_dim)
  have e1 : ∀ (l : List (Nat × Option K × Option K × Option K)) (s : K), 0 ≤ s →
      l.foldl (fun s t => maxStep s (violAmount (val3 t).1 (val3 t).2.1 (val3 t).2.2)) s =
      l.foldl (fun s t => max s (orZero (violAmount (val3 t).1 (val3 t).2.1 (val3 t).2.2))) s := by
    intro l
    induction l with
    | nil => intro s _; rfl
    | cons t l ih =>
      intro s hs
      rw [List.foldl_cons, List.foldl_cons]
      rcases violAmount (val3 t).1 (val3 t).2.1 (val3 t).2.2 with _ | x
      · simp only [orZero_none, maxStep]; rw [max_eq_left hs]; exact ih s hs
      · simp only [orZero_some, maxStep]; rw [max_comm]; exact ih _ (le_trans hs (le_max_left _ _))
  rw [e1 _ _ le_rfl]
  have e2 : (fun i => viol (c.value i) (lb.value i) (ub.value i)) =
      fun i => orZero (violAmount (valAt c.ents i) (valAt lb.ents i) (valAt ub.ents i)) := by
    funext i; exact (orZero_violAmount (h.le' i)).symm
  rw [e2]; exact hm

/-- The residual is at most `tol` iff every constraint is within `tol` of its
interval. -/
theorem C12_max_violation_le_iff {n : Nat} {c lb ub : Vec K} (h : Boxed n c lb ub) {tol : K}
    (ht : 0 ≤ tol) {m : K} (hm : maxViolation n c lb ub = some m) :
    m ≤ tol ↔ ∀ i < n, lb.value i - tol ≤ c.value i ∧ c.value i ≤ ub.value i + tol := by
  obtain ⟨m', h1, h2, h3, h4⟩ := C12_max_violation h
  rw [hm] at h1; cases h1
  constructor
  · intro h5 i hi
    exact (viol_le_iff ht).mp (le_trans (h3 i hi) h5)
  · intro h5
    rcases h4 with h4 | ⟨i, hi, h4⟩
    · rw [h4]; exact ht
    · rw [← h4]; exact (viol_le_iff ht).mpr (h5 i hi)

/-- The total violation is the sum of the distances. -/
theorem C12_total_violation {n : Nat} {c lb ub : Vec K} (h : Boxed n c lb ub) :
    totalViolation n c lb ub =
      some (∑ i ∈ range n, viol (c.value i) (lb.value i) (ub.value i)) := by
  unfold totalViolation
  rw [if_pos ⟨h.dc, h.dc.trans h.dl.symm, h.dc.trans h.du.symm⟩]
  congr 1
  have hm := merge3_sum (K := K) (fun a b c => orZero (violAmount a b c))
    (by rw [orZero_violAmount le_rfl, viol_zero]) h.wc.srt h.wl.srt h.wu.srt (n := n)
    (h.dc ▸ h.wc.lt_dim) (h.dl ▸ h.wl.lt_dim) (h.du ▸ h.wu.lt_dim)
  have e1 : (fun (s : K) (t : Nat × Option K × Option K × Option K) =>
      addStep s (violAmount (val3 t).1 (val3 t).2.1 (val3 t).2.2)) =
      fun s t => s + orZero (violAmount (val3 t).1 (val3 t).2.1 (val3 t).2.2) := by
    funext s t
    rcases violAmount (val3 t).1 (val3 t).2.1 (val3 t).2.2 with _ | x <;> simp [addStep]
  rw [e1, hm]
  apply Finset.sum_congr rfl
  intro i _
  exact orZero_violAmount (h.le' i)

/-- The total violation vanishes exactly at feasible values. -/
theorem C12_total_zero_iff {n : Nat} {c lb ub : Vec K} (h : Boxed n c lb ub) :
    totalViolation n c lb ub = some 0 ↔
      ∀ i < n, lb.value i ≤ c.value i ∧ c.value i ≤ ub.value i := by
  rw [C12_total_violation h, Option.some_inj,
    Finset.sum_eq_zero_iff_of_nonneg fun i _ => viol_nonneg _ _ _]
  simp only [mem_range, viol_eq_zero_iff]

/-- The worst violation is at most the total violation. -/
theorem C12_max_le_total {n : Nat} {c lb ub : Vec K} (h : Boxed n c lb ub) {m s : K}
    (hm : maxViolation n c lb ub = some m) (hs : totalViolation n c lb ub = some s) : m ≤ s := by
  obtain ⟨m', h1, h2, h3, h4⟩ := C12_max_violation h
  rw [hm] at h1; cases h1
  rw [C12_total_violation h] at hs; cases hs
  rcases h4 with h4 | ⟨i, hi, h4⟩
  · rw [h4]; exact Finset.sum_nonneg fun i _ => viol_nonneg _ _ _
  · rw [← h4]
    exact Finset.single_le_sum (f := fun i => viol (c.value i) (lb.value i) (ub.value i))
      (fun i _ => viol_nonneg _ _ _) (mem_range.mpr hi)

/-- The vector of violations holds the signed distance `c - Π(c)` to the interval. -/
theorem C12_violation_values {n : Nat} {c lb ub : Vec K} (h : Boxed n c lb ub) (r0 : Vec K) :
    ∃ r, violationValues n c lb ub r0 = some r ∧ r.WF ∧ r.dim = n ∧
      ∀ i, r.value i = c.value i - max (min (c.value i) (ub.value i)) (lb.value i) := by
  unfold violationValues
  rw [if_pos ⟨h.dc, h.dc.trans h.dl.symm, h.dc.trans h.du.symm⟩]
  obtain ⟨w, h1, h2, h3, h4⟩ := merge3_pushLoop (fun _ => violBody)
    (by intro i; simp [violBody, upperViol, lowerViol]) h.wc h.wl h.wu (h.dl.trans h.dc.symm)
    (h.du.trans h.dc.symm)
    (r := ((r0.clear).resize c.dim).reserve (min (lb.nnz + ub.nnz + c.nnz) n))
    (by unfold Vec.resize; split <;> rfl)
    (by unfold Vec.resize; split <;> simp [Vec.clear, Vec.reserve])
    (by
      refine le_trans ?_ (le_max_right _ _)
      rw [h.dc]; exact min_le_min_right _ (by omega))
  refine ⟨w, h1, h2, h3.trans h.dc, ?_⟩
  intro i
  rw [h4]
  have hle := h.le' i
  unfold violBody
  by_cases a : ub.value i < c.value i
  · rw [if_pos (upperViol_pos.mpr a), min_eq_right a.le, max_eq_left hle]; rfl
  · rw [if_neg (fun h => a (upperViol_pos.mp h)), min_eq_left (not_lt.mp a)]
    by_cases b : c.value i < lb.value i
    · rw [if_pos (lowerViol_pos.mpr b), max_eq_right b.le]; rfl
    · rw [if_neg (fun h => b (lowerViol_pos.mp h)), max_eq_left (not_lt.mp b)]; simp

/-- The (signed or unsigned) feasibility residuals: the distance to the interval
on constraints outside the working set, 0 on the others; the assert in the code
does not fail. -/
theorem C12_feasibility_residuals {n : Nat} {c lb ub : Vec K} (h : Boxed n c lb ub)
    (active : Nat → Bool) (sgn : Bool) (r0 : Vec K) :
    ∃ r, feasibilityResiduals active sgn n c lb ub r0 = some r ∧ r.WF ∧ r.dim = n ∧
      ∀ i, r.value i =
        if active i then 0
        else if sgn then c.value i - max (min (c.value i) (ub.value i)) (lb.value i)
        else viol (c.value i) (lb.value i) (ub.value i) := by
  unfold feasibilityResiduals
  have hz : ∀ i, upperViol (c.value i) (ub.value i) = 0 ∨ lowerViol (c.value i) (lb.value i) = 0 := by
    intro i
    have hle := h.le' i
    by_cases a : ub.value i < c.value i
    · right; unfold lowerViol; rw [max_eq_right]; linarith
    · left; unfold upperViol; rw [max_eq_right]; linarith
  rw [if_pos ⟨h.dc, h.dc.trans h.dl.symm, h.dc.trans h.du.symm⟩, if_pos]
  · obtain ⟨w, h1, h2, h3, h4⟩ := merge3_pushLoop (feasBody active sgn)
      (by intro i; unfold feasBody feasResidual upperViol lowerViol; cases sgn <;> cases active i <;> simp)
      h.wc h.wl h.wu (h.dl.trans h.dc.symm) (h.du.trans h.dc.symm)
      (r := ((r0.clear).resize c.dim).reserve (min (lb.nnz + ub.nnz + c.nnz) n))
      (by unfold Vec.resize; split <;> rfl)
      (by unfold Vec.resize; split <;> simp [Vec.clear, Vec.reserve])
      (by
        refine le_trans ?_ (le_max_right _ _)
        rw [h.dc]; exact min_le_min_right _ (by omega))
    refine ⟨w, h1, h2, h3.trans h.dc, ?_⟩
    intro i
    rw [h4]
    have hle := h.le' i
    have hz := hz i
    generalize c.value i = x at *
    generalize lb.value i = l at *
    generalize ub.value i = u at *
    have e0 : orZero (feasBody active sgn i x l u) =
        if active i then 0 else feasResidual sgn x l u := by
      unfold feasBody
      cases active i
      · by_cases a : feasResidual sgn x l u = 0 <;> simp [a]
      · simp
    rw [e0]
    cases active i
    · simp only [Bool.false_eq_true, if_false]
      cases sgn
      · simp only [feasResidual, Bool.false_eq_true, if_false]
        unfold lowerViol upperViol viol
        rw [max_max_max_comm, max_self]
      · simp only [feasResidual, if_true]
        by_cases a : u < x
        · rw [if_pos (upperViol_pos.mpr a).ne', min_eq_right a.le, max_eq_left hle]
          unfold upperViol; rw [max_eq_left]; linarith
        · have a' := not_lt.mp a
          have : upperViol x u = 0 := by unfold upperViol; rw [max_eq_right]; linarith
          rw [this, if_neg (by simp), min_eq_left a']
          unfold lowerViol
          rcases le_total l x with b | b
          · rw [max_eq_left b, max_eq_right (by linarith)]; simp
          · rw [max_eq_right b, max_eq_left (by linarith)]; ring
    · simp
  · rw [List.all_eq_true]
    intro t ht
    have hv := val3_of_mem h.wc.srt h.wl.srt h.wu.srt ht
    rw [hv]
    rcases hz t.1 with a | a
    · have : upperViol (valAt c.ents t.1) (valAt ub.ents t.1) = 0 := a
      simp [this]
    · have : lowerViol (valAt c.ents t.1) (valAt lb.ents t.1) = 0 := a
      simp [this]

/-- The list of violated constraints: exactly the constraints outside their
interval, in increasing order; it fits into an array of length `n`. -/
theorem C12_violated_constraints {n : Nat} {c lb ub : Vec K} (h : Boxed n c lb ub) :
    (violatedConstraints c lb ub).Pairwise (· < ·) ∧
    (violatedConstraints c lb ub).length ≤ n ∧
    ∀ i, i ∈ violatedConstraints c lb ub ↔ i < n ∧ (c.value i < lb.value i ∨ ub.value i < c.value i) := by
  have hs := merge3_srt h.wc.srt h.wl.srt h.wu.srt
  have hlt := merge3_lt h.wc.srt h.wl.srt h.wu.srt (n := n) (h.dc ▸ h.wc.lt_dim)
    (h.dl ▸ h.wl.lt_dim) (h.du ▸ h.wu.lt_dim)
  unfold violatedConstraints
  have hs2 := srt_filter (fun t => decide (upperViol (val3 t).1 (val3 t).2.2 > 0) ||
      decide (lowerViol (val3 t).1 (val3 t).2.1 > 0)) hs
  refine ⟨?_, ?_, ?_⟩
  · rw [List.pairwise_map]; exact hs2
  · rw [List.length_map]
    exact srt_length_le hs2 fun e he => hlt e (List.mem_of_mem_filter he)
  · intro i
    rw [List.mem_map]
    constructor
    · rintro ⟨t, ht, rfl⟩
      have hm := List.mem_of_mem_filter ht
      have hp := List.of_mem_filter ht
      refine ⟨hlt t hm, ?_⟩
      rw [val3_of_mem h.wc.srt h.wl.srt h.wu.srt hm] at hp
      simp only [Bool.or_eq_true, decide_eq_true_eq, gt_iff_lt, upperViol_pos, lowerViol_pos] at hp
      exact hp.symm
    · rintro ⟨hi, hv⟩
      rcases hat : at? (merge3 c.ents lb.ents ub.ents) i with _ | a
      · rw [merge3_at h.wc.srt h.wl.srt h.wu.srt] at hat
        obtain ⟨e1, e2, e3⟩ := comb3_eq_none hat
        unfold Vec.value valAt at hv
        rw [e1, e2, e3] at hv
        simp at hv
      · have hm := mem_of_at? hat
        refine ⟨(i, a), List.mem_filter.mpr ⟨hm, ?_⟩, rfl⟩
        rw [val3_of_mem h.wc.srt h.wl.srt h.wu.srt hm]
        simp only [Bool.or_eq_true, decide_eq_true_eq, gt_iff_lt, upperViol_pos, lowerViol_pos]
        exact hv.symm

/-- sample data: `c = (3, 0, -2)`, `lb = (0, 1, -1)`, `ub = (1, 2, 5)` -/
def exC : Vec ℚ := ⟨3, 3, [(0, 3), (2, -2)]⟩
/-- lower bounds of the sample -/
def exLb : Vec ℚ := ⟨3, 3, [(1, 1), (2, -1)]⟩
/-- upper bounds of the sample -/
def exUb : Vec ℚ := ⟨3, 3, [(0, 1), (1, 2), (2, 5)]⟩

theorem exBoxed : Boxed 3 exC exLb exUb where
  wc := ⟨by unfold Srt exC; decide, by unfold exC; decide, by unfold exC; decide⟩
  wl := ⟨by unfold Srt exLb; decide, by unfold exLb; decide, by unfold exLb; decide⟩
  wu := ⟨by unfold Srt exUb; decide, by unfold exUb; decide, by unfold exUb; decide⟩
  dc := rfl
  dl := rfl
  du := rfl
  le := by decide +kernel

/-- non-vacuity: the sample has total violation 2 + 1 + 1 -/
example : totalViolation 3 exC exLb exUb = some 4 := by
  rw [C12_total_violation exBoxed]; decide +kernel

/-! ### C13 -/

/-- The multipliers of violated constraints: `1` above the upper bound, `-1`
below the lower bound, `0` inside or in the working set. -/
theorem C13_multipliers {n : Nat} {c lb ub : Vec K} (h : Boxed n c lb ub)
    (active : Nat → Bool) (r0 : Vec K) (hr : r0.dim = n) :
    ∃ r, violatedMultipliers active n c lb ub r0 = some r ∧ r.WF ∧ r.dim = n ∧
      ∀ i, r.value i =
        if active i then 0
        else if ub.value i < c.value i then 1
        else if c.value i < lb.value i then -1 else 0 := by
  unfold violatedMultipliers
  simp only
  rw [if_pos ⟨h.dl.trans h.dc.symm, h.du.trans h.dc.symm, hr.trans h.dc.symm⟩]
  obtain ⟨w, h1, h2, h3, h4⟩ := merge3_pushLoop (multBody active)
    (by intro i; unfold multBody upperViol lowerViol; cases active i <;> simp)
    h.wc h.wl h.wu (h.dl.trans h.dc.symm) (h.du.trans h.dc.symm)
    (r := (r0.clear).reserve n) (hr.trans h.dc.symm) rfl
    (by
      refine le_trans ?_ (le_max_right _ _)
      rw [h.dc]; exact min_le_right _ _)
  refine ⟨w, h1, h2, h3.trans h.dc, ?_⟩
  intro i
  rw [h4]
  unfold multBody
  simp only [gt_iff_lt, upperViol_pos, lowerViol_pos]
  split_ifs <;> simp

/-- one-dimensional derivative of the violation away from the bounds -/
theorem viol_deriv (c lb ub d : K) (hle : lb ≤ ub) (h1 : c ≠ lb) (h2 : c ≠ ub) :
    ∃ δ > 0, ∀ t, |t| ≤ δ → viol (c + t * d) lb ub =
      viol c lb ub + t * ((if ub < c then 1 else if c < lb then -1 else 0) * d) := by
  have hden : 0 < |d| + 1 := by have := abs_nonneg d; linarith
  have htd : ∀ g > 0, ∀ t : K, |t| ≤ g / (|d| + 1) → |t * d| ≤ g := by
    intro g hg t ht
    rw [abs_mul]
    calc |t| * |d| ≤ g / (|d| + 1) * (|d| + 1) :=
          mul_le_mul ht (by linarith) (abs_nonneg _) (by positivity)
      _ = g := div_mul_cancel₀ _ hden.ne'
  by_cases a : ub < c
  · refine ⟨(c - ub) / (|d| + 1), div_pos (by linarith) hden, ?_⟩
    intro t ht
    have := abs_le.mp (htd (c - ub) (by linarith) t ht)
    rw [if_pos a]
    unfold viol
    rw [max_eq_right (by linarith : lb - (c + t * d) ≤ c + t * d - ub), max_eq_left (by linarith),
      max_eq_right (by linarith : lb - c ≤ c - ub), max_eq_left (by linarith)]
    ring
  · by_cases b : c < lb
    · refine ⟨(lb - c) / (|d| + 1), div_pos (by linarith) hden, ?_⟩
      intro t ht
      have := abs_le.mp (htd (lb - c) (by linarith) t ht)
      rw [if_neg a, if_pos b]
      unfold viol
      rw [max_eq_left (by linarith : c + t * d - ub ≤ lb - (c + t * d)), max_eq_left (by linarith),
        max_eq_left (by linarith : c - ub ≤ lb - c), max_eq_left (by linarith)]
      ring
    · have a' : c < ub := lt_of_le_of_ne (not_lt.mp a) h2
      have b' : lb < c := lt_of_le_of_ne (not_lt.mp b) (Ne.symm h1)
      have hg : 0 < min (ub - c) (c - lb) := lt_min (by linarith) (by linarith)
      refine ⟨min (ub - c) (c - lb) / (|d| + 1), div_pos hg hden, ?_⟩
      intro t ht
      have := abs_le.mp (htd _ hg t ht)
      have m1 := min_le_left (ub - c) (c - lb)
      have m2 := min_le_right (ub - c) (c - lb)
      rw [if_neg a, if_neg b, viol_eq_zero_iff.mpr ⟨by linarith, by linarith⟩,
        viol_eq_zero_iff.mpr ⟨b'.le, a'.le⟩]
      simp

/-- Where no constraint sits exactly at a bound, the multipliers are the
gradient of the total violation: along every direction `d` the total violation
changes at the rate `⟨mult, d⟩` (exactly, for small steps). -/
theorem C13_derivative {n : Nat} {c lb ub : Vec K} (h : Boxed n c lb ub) (r0 : Vec K)
    (hr : r0.dim = n) (hne : ∀ i < n, c.value i ≠ lb.value i ∧ c.value i ≠ ub.value i)
    {mult : Vec K} (hm : violatedMultipliers (fun _ => false) n c lb ub r0 = some mult)
    (d : Nat → K) :
    ∃ δ > 0, ∀ t, |t| ≤ δ →
      ∑ i ∈ range n, viol (c.value i + t * d i) (lb.value i) (ub.value i) =
        (∑ i ∈ range n, viol (c.value i) (lb.value i) (ub.value i)) +
          t * ∑ i ∈ range n, mult.value i * d i := by
  obtain ⟨r, h1, _, _, h4⟩ := C13_multipliers h (fun _ => false) r0 hr
  rw [hm] at h1; cases h1
  simp only [Bool.false_eq_true, if_false] at h4
  have key : ∀ k ≤ n, ∃ δ > 0, ∀ t, |t| ≤ δ →
      ∑ i ∈ range k, viol (c.value i + t * d i) (lb.value i) (ub.value i) =
        (∑ i ∈ range k, viol (c.value i) (lb.value i) (ub.value i)) +
          t * ∑ i ∈ range k, mult.value i * d i := by
    intro k
    induction k with
    | zero => intro _; exact ⟨1, one_pos, by simp⟩
    | succ k ih =>
      intro hk
      obtain ⟨δ1, p1, q1⟩ := ih (by omega)
      obtain ⟨δ2, p2, q2⟩ := viol_deriv (c.value k) (lb.value k) (ub.value k) (d k) (h.le' k)
        (hne k (by omega)).1 (hne k (by omega)).2
      refine ⟨min δ1 δ2, lt_min p1 p2, ?_⟩
      intro t ht
      rw [sum_range_succ, sum_range_succ, sum_range_succ, q1 t (le_trans ht (min_le_left _ _)),
        q2 t (le_trans ht (min_le_right _ _)), h4 k]
      ring
  exact key n le_rfl

/-- non-vacuity: the sample's multipliers are `(1, -1, -1)` and no value is at a bound -/
example : ∃ r, violatedMultipliers (fun _ => false) 3 exC exLb exUb ⟨3, 0, []⟩ = some r ∧
    r.value 0 = 1 ∧ r.value 1 = -1 ∧ r.value 2 = -1 ∧
    ∀ i < 3, exC.value i ≠ exLb.value i ∧ exC.value i ≠ exUb.value i := by
  obtain ⟨r, h1, _, _, h4⟩ := C13_multipliers exBoxed (fun _ => false) ⟨3, 0, []⟩ rfl
  refine ⟨r, h1, ?_, ?_, ?_, by decide +kernel⟩ <;> rw [h4] <;> decide +kernel

/-! ### C15 -/

/-- The slackness residual of one block of constraints is the largest absolute
complementarity product. -/
theorem C15_slack_residuum {n : Nat} {v lb ub d : Vec K} (hv : v.WF) (hl : lb.WF) (hu : ub.WF)
    (hd : d.WF) (dv : v.dim = n) (dl : lb.dim = n) (du : ub.dim = n) (dd : d.dim = n) :
    ∃ m, slackResiduum v lb ub d = some m ∧
      IsMaxZero m n (fun i => if 0 ≤ d.value i then max (ub.value i - v.value i) 0 * |d.value i|
        else max (v.value i - lb.value i) 0 * |d.value i|) := by
  unfold slackResiduum
  rw [if_pos ⟨dl.trans dv.symm, du.trans dv.symm, dd.trans dv.symm⟩]
  refine ⟨_, rfl, ?_⟩
  have habs : ∀ i, (if 0 ≤ d.value i then max (ub.value i - v.value i) 0 * |d.value i|
        else max (v.value i - lb.value i) 0 * |d.value i|) =
      |slackCur (v.value i) (lb.value i) (ub.value i) (d.value i)| := by
    intro i
    unfold slackCur
    by_cases h : 0 ≤ d.value i
    · rw [if_pos h, if_pos h, abs_mul, abs_of_nonneg (le_max_right (ub.value i - v.value i) 0)]
    · rw [if_neg h, if_neg h, abs_mul, abs_of_nonneg (le_max_right (v.value i - lb.value i) 0)]
  simp only [habs]
  obtain ⟨h1, h2, h3⟩ := foldl_max_gen (fun t => |slackVal t|)
    (merge4d v.ents lb.ents ub.ents d.ents) 0
  refine ⟨h1, ?_, ?_⟩
  · intro i _
    by_cases hvis : ∃ t ∈ merge4d v.ents lb.ents ub.ents d.ents, t.1 = i
    · obtain ⟨t, ht, rfl⟩ := hvis
      have := h2 t ht
      simp only [slackVal_of_mem hv.srt hl.srt hu.srt hd.srt ht] at this
      exact this
    · push Not at hvis
      have : slackCur (v.value i) (lb.value i) (ub.value i) (d.value i) = 0 :=
        slackCur_of_not_visited hv.srt hl.srt hu.srt hd.srt hvis
      simp only [this, abs_zero]; exact h1
  · rcases h3 with h3 | ⟨t, ht, h3⟩
    · exact Or.inl h3
    · right
      refine ⟨t.1, merge4d_lt hv.srt hl.srt hu.srt hd.srt (dv ▸ hv.lt_dim) (dl ▸ hl.lt_dim)
        (du ▸ hu.lt_dim) (dd ▸ hd.lt_dim) t ht, ?_⟩
      rw [h3, slackVal_of_mem hv.srt hl.srt hu.srt hd.srt ht]; rfl

/-- `d` and the bound its sign selects are complementary at `v` (at or beyond the bound). -/
def Complementary (v lb ub d : K) : Prop := d = 0 ∨ (0 < d ∧ ub ≤ v) ∨ (d < 0 ∧ v ≤ lb)

/-- An iterate whose vectors fit a problem with `n` variables and `m` constraints. -/
structure Iterate.Fits (n m : Nat) (p : Bounds K) (it : Iterate K) : Prop where
  cons : Boxed m it.consVal p.consLb p.consUb
  vars : Boxed n it.primal p.varsLb p.varsUb
  wcd : it.consDual.WF
  dcd : it.consDual.dim = m
  wvd : it.varsDual.WF
  dvd : it.varsDual.dim = n
  wg : it.objGrad.WF
  dg : it.objGrad.dim = n
  wj : it.consJac.WF
  rows : it.consJac.numRows = m
  cols : it.consJac.numCols = n

/-- The slackness residual of an iterate is the largest complementarity product
over all constraints and variables. -/
theorem C15_residuum {n m : Nat} {p : Bounds K} {it : Iterate K} (h : it.Fits n m p) :
    ∃ r, it.slacknessResiduum p = some r ∧ 0 ≤ r ∧
      ∀ tol, 0 ≤ tol → (r ≤ tol ↔
        (∀ i < m, |slackCur (it.consVal.value i) (p.consLb.value i) (p.consUb.value i)
            (it.consDual.value i)| ≤ tol) ∧
        (∀ j < n, |slackCur (it.primal.value j) (p.varsLb.value j) (p.varsUb.value j)
            (it.varsDual.value j)| ≤ tol)) := by
  obtain ⟨r1, e1, a1, b1, c1⟩ := C15_slack_residuum h.cons.wc h.cons.wl h.cons.wu h.wcd
    h.cons.dc h.cons.dl h.cons.du h.dcd
  obtain ⟨r2, e2, a2, b2, c2⟩ := C15_slack_residuum h.vars.wc h.vars.wl h.vars.wu h.wvd
    h.vars.dc h.vars.dl h.vars.du h.dvd
  have habs : ∀ v lb ub d : K, (if 0 ≤ d then max (ub - v) 0 * |d| else max (v - lb) 0 * |d|) =
      |slackCur v lb ub d| := by
    intro v lb ub d
    unfold slackCur
    by_cases h : 0 ≤ d
    · rw [if_pos h, if_pos h, abs_mul, abs_of_nonneg (le_max_right (ub - v) 0)]
    · rw [if_neg h, if_neg h, abs_mul, abs_of_nonneg (le_max_right (v - lb) 0)]
  simp only [habs] at b1 c1 b2 c2
  refine ⟨max (max 0 r1) r2, by unfold Iterate.slacknessResiduum; rw [e1, e2]; rfl,
    le_trans (le_max_left _ _) (le_max_left _ _), ?_⟩
  intro tol ht
  rw [max_le_iff, max_le_iff]
  constructor
  · rintro ⟨⟨_, h1⟩, h2⟩
    exact ⟨fun i hi => le_trans (b1 i hi) h1, fun j hj => le_trans (b2 j hj) h2⟩
  · rintro ⟨h1, h2⟩
    refine ⟨⟨ht, ?_⟩, ?_⟩
    · rcases c1 with c1 | ⟨i, hi, c1⟩
      · rw [c1]; exact ht
      · rw [← c1]; exact h1 i hi
    · rcases c2 with c2 | ⟨i, hi, c2⟩
      · rw [c2]; exact ht
      · rw [← c2]; exact h2 i hi

theorem slackCur_eq_zero_iff {v lb ub d : K} : slackCur v lb ub d = 0 ↔ Complementary v lb ub d := by
  unfold slackCur Complementary
  have hm : ∀ x : K, max x 0 = 0 ↔ x ≤ 0 := fun x => max_eq_right_iff
  rcases lt_trichotomy d 0 with h | h | h
  · rw [if_neg (not_le.mpr h), mul_eq_zero, hm]
    constructor
    · rintro (h1 | h1)
      · exact Or.inr (Or.inr ⟨h, by linarith⟩)
      · exact Or.inl h1
    · rintro (h1 | ⟨h1, _⟩ | ⟨_, h1⟩)
      · exact Or.inr h1
      · linarith
      · exact Or.inl (by linarith)
  · simp [h]
  · rw [if_pos h.le, mul_eq_zero, hm]
    constructor
    · rintro (h1 | h1)
      · exact Or.inr (Or.inl ⟨h, by linarith⟩)
      · exact Or.inl h1
    · rintro (h1 | ⟨_, h1⟩ | ⟨h1, _⟩)
      · exact Or.inr h1
      · exact Or.inl (by linarith)
      · linarith

/-- The slackness residual is 0 iff every constraint and every variable is
complementary to its multiplier. -/
theorem C15_zero_iff {n m : Nat} {p : Bounds K} {it : Iterate K} (h : it.Fits n m p) :
    it.slacknessResiduum p = some 0 ↔
      (∀ i < m, Complementary (it.consVal.value i) (p.consLb.value i) (p.consUb.value i)
        (it.consDual.value i)) ∧
      (∀ j < n, Complementary (it.primal.value j) (p.varsLb.value j) (p.varsUb.value j)
        (it.varsDual.value j)) := by
  obtain ⟨r, e, hr, ht⟩ := C15_residuum h
  have := ht 0 le_rfl
  simp only [abs_nonpos_iff, slackCur_eq_zero_iff] at this
  rw [← this, e, Option.some_inj]
  exact ⟨fun h => h.le, fun h => le_antisymm h hr⟩

/-- The vector of slackness residuals holds the complementarity products, up to
the dropping of entries below `zero_eps`. -/
theorem C15_residual_vector {n : Nat} {v lb ub d : Vec K} (hv : v.WF) (hl : lb.WF) (hu : ub.WF)
    (hd : d.WF) (dv : v.dim = n) (dl : lb.dim = n) (du : ub.dim = n) (dd : d.dim = n) (r0 : Vec K)
    {eps : K} (heps : 0 ≤ eps) :
    ∃ r, slackResiduals v lb ub d r0 eps = some r ∧ r.WF ∧ r.dim = n ∧
      ∀ i, r.value i =
        if |slackCur (v.value i) (lb.value i) (ub.value i) (d.value i)| ≤ eps then 0
        else slackCur (v.value i) (lb.value i) (ub.value i) (d.value i) := by
  obtain ⟨s1, _, s3, _⟩ := merge4d_spec v.ents lb.ents ub.ents d.ents hv.srt hl.srt hu.srt hd.srt
  have hdim : (((r0.clear).resize v.dim).reserve v.dim).dim = n := by
    rw [← dv]; unfold Vec.resize; split <;> rfl
  obtain ⟨w, h1, h2, h3, h4⟩ := pushLoop_ok
    (fun t => if isZero (slackVal t) eps then none else some (slackVal t))
    (r := ((r0.clear).resize v.dim).reserve v.dim) s1
    (by
      rw [hdim]
      exact merge4d_lt hv.srt hl.srt hu.srt hd.srt (dv ▸ hv.lt_dim) (dl ▸ hl.lt_dim)
        (du ▸ hu.lt_dim) (dd ▸ hd.lt_dim))
    (by unfold Vec.resize; split <;> simp [Vec.clear, Vec.reserve])
    (by
      refine le_trans (min_le_right _ _) ?_
      rw [hdim, ← dv]; exact le_max_right _ _)
  refine ⟨w, h1, h2, h3.trans hdim, ?_⟩
  intro i
  have hw : w.value i = orZero ((at? (merge4d v.ents lb.ents ub.ents d.ents) i).bind fun a =>
      if isZero (slackVal (i, a)) eps then none else some (slackVal (i, a))) := by
    unfold Vec.value valAt; rw [h4]
  rw [hw]
  rcases hat : at? (merge4d v.ents lb.ents ub.ents d.ents) i with _ | a
  · have : slackCur (v.value i) (lb.value i) (ub.value i) (d.value i) = 0 := by
      apply slackCur_of_not_visited hv.srt hl.srt hu.srt hd.srt
      intro t ht hti
      have := at?_isSome_iff.mpr ⟨t, ht, hti⟩
      rw [hat] at this; simp at this
    rw [this]; simp
  · have hm := mem_of_at? hat
    have hsv := slackVal_of_mem hv.srt hl.srt hu.srt hd.srt hm
    simp only [Option.bind_some, hsv, isZero_iff]
    have e : slackCur (valAt v.ents i) (valAt lb.ents i) (valAt ub.ents i) (valAt d.ents i) =
      slackCur (v.value i) (lb.value i) (ub.value i) (d.value i) := rfl
    rw [e]
    split_ifs <;> simp

/-! ### C14 -/

/-- Stationarity residuals: `∇f + Jᵀy + z`, coordinate by coordinate. -/
theorem C14_stationarity_cache {n m : Nat} {p : Bounds K} {it : Iterate K} (h : it.Fits n m p) :
    ∃ cache, it.stationarityCache n m = some cache ∧ cache.length = n ∧
      ∀ j < n, cache[j]? = some ((∑ i ∈ range m, it.consDual.value i * it.consJac.value i j) +
        it.varsDual.value j + it.objGrad.value j) := by
  unfold Iterate.stationarityCache
  rw [if_pos ⟨h.cols.symm, h.rows.symm⟩]
  refine ⟨_, rfl, ?_, ?_⟩
  · rw [addInto_length, addInto_length, List.length_map, List.length_range]
  · intro j hj
    rw [addInto_get _ h.wg.srt, addInto_get _ h.wvd.srt, List.getElem?_map,
      List.getElem?_range hj]
    simp only [Option.map_some]
    have hj' : j < it.consJac.numCols := by rw [h.cols]; exact hj
    rw [dotList_eq h.wcd.srt (h.wj.srt j hj'), zero_add,
      ← sum_range_valAt h.wcd.srt (n := m) (h.dcd ▸ h.wcd.lt_dim)
        (fun i a => a * valAt (it.consJac.col j) i) (by simp)]
    rfl

/-- The stationarity residual is the largest coordinate of `|∇f + Jᵀy + z|`. -/
theorem C14_stationarity_residuum {n m : Nat} {p : Bounds K} {it : Iterate K} (h : it.Fits n m p) :
    ∃ r, it.stationarityResiduum n m = some r ∧
      IsMaxZero r n fun j => |(∑ i ∈ range m, it.consDual.value i * it.consJac.value i j) +
        it.varsDual.value j + it.objGrad.value j| := by
  obtain ⟨cache, e, hlen, hval⟩ := C14_stationarity_cache h
  obtain ⟨h1, h2, h3⟩ := foldl_max_gen (fun x : K => |x|) cache 0
  refine ⟨_, by unfold Iterate.stationarityResiduum; rw [e]; rfl, h1, ?_, ?_⟩
  · intro j hj
    exact h2 _ (List.mem_of_getElem? (hval j hj))
  · rcases h3 with h3 | ⟨x, hx, h3⟩
    · exact Or.inl h3
    · right
      obtain ⟨j, hj, hjx⟩ := List.mem_iff_getElem.mp hx
      have hjn : j < n := by rw [← hlen]; exact hj
      refine ⟨j, hjn, ?_⟩
      have := hval j hjn
      rw [List.getElem?_eq_getElem hj, Option.some_inj, hjx] at this
      rw [h3, this]

/-- Optimality test on numbers that are not NaN: it is exactly the conjunction
of the three tolerance tests. -/
theorem C14_is_optimal_iff_partial (feasEps slackEps statEps feasRes slackRes statRes : K) :
    isOptimal (.fin feasEps) (.fin slackEps) (.fin statEps) (.fin feasRes) (.fin slackRes)
      (.fin statRes) = true ↔ feasRes ≤ feasEps ∧ slackRes < slackEps ∧ statRes < statEps := by
  unfold isOptimal isFeasible Ext.ge Ext.le
  by_cases h1 : feasRes ≤ feasEps
  · by_cases h2 : statEps ≤ statRes
    · simp [h1, h2, not_lt.mpr h2]
    · by_cases h3 : slackEps ≤ slackRes
      · simp [h1, h3, not_lt.mpr h3]
      · simp [h1, h2, h3, not_le.mp h2, not_le.mp h3]
  · simp [h1]

/-- An iterate reported optimal (from residuals computed in exact arithmetic, no
NaN) is an approximate KKT point: nearly feasible, nearly stationary and nearly
complementary. -/
theorem C14_optimal_kkt_partial {n m : Nat} {p : Bounds K} {it : Iterate K} (h : it.Fits n m p)
    {feasEps slackEps statEps feasRes slackRes statRes : K}
    (hf : 0 ≤ feasEps)
    (e1 : it.feasibilityResiduum m p = some feasRes)
    (e2 : it.slacknessResiduum p = some slackRes)
    (e3 : it.stationarityResiduum n m = some statRes)
    (hopt : isOptimal (.fin feasEps) (.fin slackEps) (.fin statEps) (.fin feasRes) (.fin slackRes)
      (.fin statRes) = true) :
    (∀ i < m, p.consLb.value i - feasEps ≤ it.consVal.value i ∧
      it.consVal.value i ≤ p.consUb.value i + feasEps) ∧
    (∀ j < n, |(∑ i ∈ range m, it.consDual.value i * it.consJac.value i j) +
        it.varsDual.value j + it.objGrad.value j| < statEps) ∧
    (∀ i < m, (0 ≤ it.consDual.value i →
        max (p.consUb.value i - it.consVal.value i) 0 * it.consDual.value i < slackEps) ∧
      (it.consDual.value i ≤ 0 →
        max (it.consVal.value i - p.consLb.value i) 0 * -it.consDual.value i < slackEps)) ∧
    (∀ j < n, (0 ≤ it.varsDual.value j →
        max (p.varsUb.value j - it.primal.value j) 0 * it.varsDual.value j < slackEps) ∧
      (it.varsDual.value j ≤ 0 →
        max (it.primal.value j - p.varsLb.value j) 0 * -it.varsDual.value j < slackEps)) := by
  obtain ⟨o1, o2, o3⟩ := (C14_is_optimal_iff_partial _ _ _ _ _ _).mp hopt
  obtain ⟨r, f1, f2, f3⟩ := C15_residuum h
  rw [e2] at f1; cases f1
  have hsl := (f3 slackRes f2).mp le_rfl
  have hslack : ∀ v lb ub d : K, |slackCur v lb ub d| ≤ slackRes →
      (0 ≤ d → max (ub - v) 0 * d < slackEps) ∧ (d ≤ 0 → max (v - lb) 0 * -d < slackEps) := by
    intro v lb ub d hb
    constructor
    · intro hd
      refine lt_of_le_of_lt (le_trans (le_abs_self _) ?_) o2
      have : slackCur v lb ub d = max (ub - v) 0 * d := by unfold slackCur; rw [if_pos hd]
      rw [← this]; exact hb
    · intro hd
      rcases hd.eq_or_lt with h0 | h0
      · rw [h0]; simp; exact lt_of_le_of_lt f2 o2
      · refine lt_of_le_of_lt (le_trans (le_abs_self _) ?_) o2
        have : slackCur v lb ub d = max (v - lb) 0 * d := by
          unfold slackCur; rw [if_neg (not_le.mpr h0)]
        rw [mul_neg, abs_neg, ← this]; exact hb
  refine ⟨?_, ?_, ?_, ?_⟩
  · exact fun i hi => (C12_max_violation_le_iff h.cons hf e1).mp o1 i hi
  · obtain ⟨r, g1, _, g2, _⟩ := C14_stationarity_residuum h
    rw [e3] at g1; cases g1
    exact fun j hj => lt_of_le_of_lt (g2 j hj) o3
  · exact fun i hi => hslack _ _ _ _ (hsl.1 i hi)
  · exact fun j hj => hslack _ _ _ _ (hsl.2 j hj)

/-- The code violates the property for NaN residuals: NaN stationarity and
slackness residuals are accepted as optimal. -/
theorem C14_nan_violated :
    isOptimal (K := ℚ) (.fin (1/1000)) (.fin (1/1000)) (.fin (1/1000)) (.fin 0) .nan .nan = true := by
  simp [isOptimal, isFeasible, Ext.ge, Ext.le]

/-- Moreover the maximum loop forgets a NaN that is not last: the residual of a
point with a NaN in its first stationarity component can be 0. -/
theorem C14_nan_forgotten_violated : extMaxAbs (K := ℚ) [.nan, .fin 0] = .fin 0 ∧
    extMaxAbs (K := ℚ) [.fin 0, .nan] = .nan := by
  constructor <;> simp [extMaxAbs, Ext.cmax, Ext.gt, Ext.lt, Ext.abs]

/-- sample problem `min x` s.t. `x ≥ 1` (as constraint), `x ∈ [0, 5]` -/
def exP : Bounds ℚ := ⟨⟨1, 0, []⟩, ⟨1, 1, [(0, 5)]⟩, ⟨1, 1, [(0, 1)]⟩, ⟨1, 1, [(0, 100)]⟩⟩
/-- its solution `x = 1` with multiplier `-1` -/
def exIt : Iterate ℚ :=
  { primal := ⟨1, 1, [(0, 1)]⟩, objVal := 1, objGrad := ⟨1, 1, [(0, 1)]⟩, consVal := ⟨1, 1, [(0, 1)]⟩
    consJac := { numRows := 1, numCols := 1, nnz := 1, cap := 1, ptr := fun j => if j = 0 then 0 else 1,
                 row := fun _ => 0, val := fun _ => 1 }
    consDual := ⟨1, 1, [(0, -1)]⟩, varsDual := ⟨1, 0, []⟩ }

theorem exFits : exIt.Fits 1 1 exP where
  cons := ⟨⟨by unfold Srt exIt; decide, by unfold exIt; decide, by unfold exIt; decide⟩,
    ⟨by unfold Srt exP; decide, by unfold exP; decide, by unfold exP; decide⟩,
    ⟨by unfold Srt exP; decide, by unfold exP; decide, by unfold exP; decide⟩, rfl, rfl, rfl,
    by decide +kernel⟩
  vars := ⟨⟨by unfold Srt exIt; decide, by unfold exIt; decide, by unfold exIt; decide⟩,
    ⟨by unfold Srt exP; decide, by unfold exP; decide, by unfold exP; decide⟩,
    ⟨by unfold Srt exP; decide, by unfold exP; decide, by unfold exP; decide⟩, rfl, rfl, rfl,
    by decide +kernel⟩
  wcd := ⟨by unfold Srt exIt; decide, by unfold exIt; decide, by unfold exIt; decide⟩
  dcd := rfl
  wvd := ⟨by unfold Srt exIt; decide, by unfold exIt; decide, by unfold exIt; decide⟩
  dvd := rfl
  wg := ⟨by unfold Srt exIt; decide, by unfold exIt; decide, by unfold exIt; decide⟩
  dg := rfl
  wj := by
    constructor
    · rfl
    · intro j hj; simp [exIt] at hj ⊢; simp [hj]
    · rfl
    · simp [exIt]
    · intro j hj
      have : j = 0 := by simp [exIt] at hj; exact hj
      subst this; unfold Srt; decide +kernel
    · intro j hj
      have : j = 0 := by simp [exIt] at hj; exact hj
      subst this; decide +kernel
  rows := rfl
  cols := rfl

/-- non-vacuity: the sample solution has zero slackness residual -/
example : exIt.slacknessResiduum exP = some 0 := by
  rw [C15_zero_iff exFits]
  refine ⟨?_, ?_⟩
  · intro i hi
    interval_cases i
    right; right; decide +kernel
  · intro i hi
    interval_cases i
    left; decide +kernel

end Sleqp
